import Verif.Spec.Broadcast
import Verif.Lemmas.RotateND

namespace RBM

open Matrix

theorem Spec.Broadcast.bcast_left {s t u : List ℕ} (h : Spec.Broadcast s t u) : Bcast s u := by
  induction h with
  | nil => exact .nil
  | same n _ ih => exact .cons (.inl rfl) ih
  | left n _ ih => exact .cons (.inr rfl) ih
  | right n _ ih => exact .cons (.inl rfl) ih

theorem Spec.Broadcast.symm {s t u : List ℕ} (h : Spec.Broadcast s t u) : Spec.Broadcast t s u := by
  induction h with
  | nil => exact .nil
  | same n _ ih => exact .same n ih
  | left n _ ih => exact .right n ih
  | right n _ ih => exact .left n ih

theorem Spec.Broadcast.bcast_right {s t u : List ℕ} (h : Spec.Broadcast s t u) : Bcast t u := h.symm.bcast_left

theorem Spec.Broadcast.bshapeEq {s t u : List ℕ} (h : Spec.Broadcast s t u) : ND.bshapeEq s t = some u := by
  induction h with
  | nil => rfl
  | same n _ ih => simp [ND.bshapeEq, ih]
  | left n _ ih =>
    simp only [ND.bshapeEq, ih]
    split
    · rename_i h; rw [h]
    · simp
  | right n _ ih =>
    simp only [ND.bshapeEq, ih]
    by_cases hn : n = 1 <;> simp [hn]

theorem Spec.Broadcast.length {s t u : List ℕ} (h : Spec.Broadcast s t u) : s.length = t.length ∧ u.length = t.length := by
  have h1 := h.bcast_left.length
  have h2 := h.bcast_right.length
  omega

theorem Spec.Broadcast.bshape {s t u : List ℕ} (h : Spec.Broadcast s t u) : ND.bshape s t = some u := by
  have := h.length
  simp only [ND.bshape]
  rw [padShape_self _ (by omega), padShape_self _ (by omega), h.bshapeEq]

theorem Spec.Broadcast.append {s t u s' t' u' : List ℕ} (h : Spec.Broadcast s t u) (h' : Spec.Broadcast s' t' u') :
    Spec.Broadcast (s ++ s') (t ++ t') (u ++ u') := by
  induction h with
  | nil => exact h'
  | same n _ ih => exact .same n ih
  | left n _ ih => exact .left n ih
  | right n _ ih => exact .right n ih

theorem Spec.Broadcast.matching {s t u : List ℕ} (h : Spec.Broadcast s t u) : nonmatching s t = false := by
  induction h with
  | nil => rfl
  | same n _ ih => simp only [nonmatching, List.zip_cons_cons, List.any_cons] at ih ⊢; rw [ih]; simp
  | left n _ ih => simp only [nonmatching, List.zip_cons_cons, List.any_cons] at ih ⊢; rw [ih]; simp
  | right n _ ih => simp only [nonmatching, List.zip_cons_cons, List.any_cons] at ih ⊢; rw [ih]; simp

theorem broadcast_of_matching {s t : List ℕ} (hl : s.length = t.length) (h : nonmatching s t = false) :
    ∃ u, Spec.Broadcast s t u := by
  induction s generalizing t with
  | nil =>
    have := List.length_eq_zero_iff.mp hl.symm
    subst this
    exact ⟨_, .nil⟩
  | cons m s ih =>
    cases t with
    | nil => simp at hl
    | cons n t =>
      simp only [nonmatching, List.zip_cons_cons, List.any_cons, Bool.or_eq_false_iff] at h
      obtain ⟨u, hu⟩ := ih (by simpa using hl) h.2
      by_cases h1 : m = 1
      · subst h1; exact ⟨_, .left n hu⟩
      · by_cases h2 : n = 1
        · subst h2; exact ⟨_, .right m hu⟩
        · have h3 := h.1
          simp [h1, h2] at h3
          subst h3
          exact ⟨_, .same m hu⟩

theorem bidx_eq_pick (s idx : List ℕ) : ND.bidx s idx = Spec.pickIdx s idx := by
  induction s generalizing idx with
  | nil => cases idx <;> rfl
  | cons n s ih => cases idx with
    | nil => rfl
    | cons i idx => simp [ND.bidx, Spec.pickIdx, ih]

theorem Spec.Broadcast.bop {α β γ : Type _} (f : α → β → γ) {a : ND α} {b : ND β} {u : List ℕ} (h : Spec.Broadcast a.shape b.shape u) :
    ND.bop f a b = .ok ⟨u, fun idx => f (a.bget idx) (b.bget idx)⟩ := by
  simp [ND.bop, h.bshape]

theorem moveL_last_self (l : List ℕ) (k : ℕ) : moveL l.length l.length (l ++ [k]) = l ++ [k] := by
  rw [moveL_from_last, List.insertIdx_length_self]

/-- `v` repeated along the axes of length one. -/
def spread (v : ND ℝ) (sh : List ℕ) : ND ℝ := ⟨sh ++ [3], v.bget⟩

theorem npCross_bcast (q : ND Quat) (w : ND ℝ) {axis : ℤ} {sv sh : List ℕ} (hw : w.shape = sv ++ [3])
    (hp : normAxis axis (sv.length + 1) = some sv.length) (hb : Spec.Broadcast q.shape sv sh) :
    ∃ C, npCross (rPart q) w axis = .ok C ∧ C.shape = sh ++ [3] ∧ ∀ i k, Valid sh i → k < 3 →
      C.get (i ++ [k]) = (imVec (q.get (ND.bidx q.shape i)) ⨯₃ (spread w sh).vecAt sv.length (i ++ [k])) (Fin.ofNat 3 k) := by
  have hl := hb.length
  have hnd : w.ndim = sv.length + 1 := by simp [ND.ndim, hw]
  have hm : ∀ i : List ℕ, i.length = sv.length → ∀ k, moveL sv.length sv.length (i ++ [k]) = i ++ [k] := by
    intro i hi k; rw [← hi]; exact moveL_last_self i k
  have hms : (w.moveaxis sv.length (w.ndim - 1)).shape = sv ++ [3] := by
    simp only [ND.moveaxis, hnd, Nat.add_sub_cancel, hw]
    exact hm _ rfl _
  have hcl : ∃ c, crossLast (rPart q) (w.moveaxis sv.length (w.ndim - 1)) = .ok c ∧ c.shape = sh ++ [3] ∧
      ∀ i k, Valid sh i → k < 3 →
        c.get (i ++ [k]) = (imVec (q.get (ND.bidx q.shape i)) ⨯₃ (spread w sh).vecAt sv.length (i ++ [k])) (Fin.ofNat 3 k) := by
    refine ⟨?w, ?h1, ?h2, ?h3⟩
    case h1 =>
      simp only [crossLast, hms, rPart]
      rw [if_pos (by simp)]
      simp only [List.dropLast_concat]
      rw [hb.bshape]
    case h2 => rfl
    case h3 =>
      intro i k hi hk
      have hil : i.length = sv.length := by rw [hi.length]; exact hl.2
      simp only [List.dropLast_concat, List.getLast?_concat, Option.getD_some]
      have e1 : i.length - (q.shape.length + 1 - 1) = 0 := by omega
      have e2 : i.length - ((w.moveaxis sv.length (w.ndim - 1)).ndim - 1) = 0 := by
        rw [ND.ndim, hms]; simp; omega
      simp only [ND.ndim, List.length_append, List.length_singleton] at e2 ⊢
      simp only [e1, e2, List.drop_zero]
      have e3 : (fun k : Fin 3 => qcomp (q.get (ND.bidx q.shape i)) (↑k + 1)) = imVec (q.get (ND.bidx q.shape i)) := by
        funext k
        fin_cases k <;> rfl
      have e4 : (fun k : Fin 3 => (w.moveaxis sv.length (w.shape.length - 1)).get (ND.bidx sv i ++ [k.val])) =
          (spread w sh).vecAt sv.length (i ++ [k]) := by
        funext k'
        simp only [ND.moveaxis]
        rw [show w.shape.length - 1 = sv.length by simp [hw], hm _ (bidx_length hil.symm)]
        simp only [ND.vecAt, spread]
        rw [show (i ++ [k]).set sv.length k'.val = i ++ [k'.val] by rw [← hil]; simp]
        rw [bget_same _ (by simp [ND.ndim, hw, hil]), hw, bidx_append hil.symm]
        simp [ND.bidx]
      rw [e3, e4]
  obtain ⟨c, e1, e2, e3⟩ := hcl
  have hcd : c.ndim = sv.length + 1 := by simp [ND.ndim, e2, hl.2]
  refine ⟨c.moveaxis sv.length sv.length, ?_, ?_, ?_⟩
  · simp only [npCross, hnd, hp]
    rw [hnd] at e1
    rw [e1]
    simp only [hcd, hp, Nat.add_sub_cancel]
  · simp only [ND.moveaxis, e2]
    exact hm _ hl.2 _
  · intro i k hi hk
    have hil : i.length = sv.length := by rw [hi.length]; exact hl.2
    simp only [ND.moveaxis]
    rw [hm _ hil]
    exact e3 i k hi hk

theorem rotateArrayFormula_bcast (q : ND Quat) (v : ND ℝ) {axis : ℤ} {sv sh : List ℕ} (hw : v.shape = sv ++ [3])
    (hp : normAxis axis (sv.length + 1) = some sv.length) (hb : Spec.Broadcast q.shape sv sh) :
    ∃ R, rotateArrayFormula q v axis = .ok R ∧ R.shape = sh ++ [3] ∧ ∀ i k, Valid sh i → k < 3 →
      R.get (i ++ [k]) = rotateCrossForm (q.get (ND.bidx q.shape i)) ((spread v sh).vecAt sv.length (i ++ [k])) (Fin.ofNat 3 k) := by
  have hl := hb.length
  have hp' : normAxis axis (sh ++ [3]).length = some sv.length := by simpa [hl.2] using hp
  have hbe : (sh ++ [3]).eraseIdx sv.length = sh := by
    rw [← hl.2, List.eraseIdx_append_of_length_le (by simp)]; simp
  have hbq : Bcast q.shape ((sh ++ [3]).eraseIdx sv.length) := by rw [hbe]; exact hb.bcast_left
  have hs : SwapOk q.shape (sh ++ [3]) sv.length := swapOk_last (by simp [hl.2]) hbq
  have hq : q.shape.length = (sh ++ [3]).length - 1 := by simp; omega
  obtain ⟨S, e1, b1, g1⟩ := scalarPart_spec q (fun x => x.re) hp' hq hs
  obtain ⟨M, e2, b2, g2⟩ := scalarPart_spec q (fun x =>
    Real.sqrt (x.re * x.re + x.imI * x.imI + x.imJ * x.imJ + x.imK * x.imK)) hp' hq hs
  have hSsh : S.shape = q.shape ++ [1] := by
    have := e1
    simp only [ND.swapaxesZ, ND.ndim, List.length_append, List.length_singleton] at this
    rw [normAxis_neg_one (by omega), show q.shape.length + 1 = sv.length + 1 by omega, hp] at this
    simp only [Except.ok.injEq] at this
    rw [← this]
    simp only [ND.swapaxes]
    rw [show sv.length + 1 - 1 = sv.length by omega]
    exact swapL_self (by simp; omega)
  obtain ⟨C1, e3, sh3, g3⟩ := npCross_bcast q v hw hp hb
  have e4 : ND.bop (fun x y : ℝ => x * y) S v = .ok ⟨sh ++ [3], fun idx => S.bget idx * v.bget idx⟩ :=
    Spec.Broadcast.bop _ (by rw [hSsh, hw]; exact hb.append (.left 3 .nil))
  set SV : ND ℝ := ⟨sh ++ [3], fun idx => S.bget idx * v.bget idx⟩ with hSV
  have e5 := bop_left (fun x y : ℝ => x + y) SV C1 (by rw [sh3]; exact Bcast.refl _)
  set SUM : ND ℝ := ⟨C1.shape, fun idx => SV.bget idx + C1.bget idx⟩ with hSUM
  have hsumsh : SUM.shape = sh ++ [3] := sh3
  obtain ⟨C2, e6, sh6, g6⟩ := npCross_spec q SUM (p := sv.length) (by simpa [ND.ndim, hsumsh] using hp')
    (by rw [hsumsh, ← hl.2]; simp) (by rw [hsumsh]; exact hbq)
  rw [hsumsh] at sh6 g6
  have e7 := bop_right (fun x y : ℝ => x / y) (C2.map fun x => 2 * x) M (by simpa [ND.map, sh6] using b2)
  set C3 : ND ℝ := ⟨(C2.map fun x => 2 * x).shape, fun idx => (C2.map fun x => 2 * x).bget idx / M.bget idx⟩ with hC3
  have hC3sh : C3.shape = sh ++ [3] := sh6
  have e8 := bop_left (fun x y : ℝ => x + y) v C3 (by
    rw [hC3sh, hw]; exact hb.bcast_right.append (Bcast.refl _))
  refine ⟨⟨C3.shape, fun idx => v.bget idx + C3.bget idx⟩, ?h1, ?h2, ?h3⟩
  case h1 =>
    have e3' : npCross ⟨q.shape ++ [3], fun idx => qcomp (q.get idx.dropLast) (idx.getLast?.getD 0 + 1)⟩ v axis = .ok C1 := e3
    have e6' : npCross ⟨q.shape ++ [3], fun idx => qcomp (q.get idx.dropLast) (idx.getLast?.getD 0 + 1)⟩ SUM axis = .ok C2 := e6
    simp only [rotateArrayFormula, e1, e2, bind, Except.bind, e3', e4, e5, e6', e7, e8]
  case h2 => exact hC3sh
  case h3 =>
    intro i k hi hk
    have hil : i.length = sv.length := by rw [hi.length]; exact hl.2
    have hv : ∀ k < 3, Valid (sh ++ [3]) (i ++ [k]) := fun k hk => valid_snoc_mk hi hk
    have her : ∀ k, (i ++ [k]).eraseIdx sv.length = i := by
      intro k; rw [← hil, List.eraseIdx_append_of_length_le (by simp)]; simp
    have hset : ∀ k k', (i ++ [k]).set sv.length k' = i ++ [k'] := by intro k k'; rw [← hil]; simp
    have hget : ∀ k, (i ++ [k]).getD sv.length 0 = k := by intro k; rw [← hil]; simp
    show v.bget (i ++ [k]) + C3.bget (i ++ [k]) = _
    rw [bget_valid C3 (by rw [hC3sh]; exact hv k hk)]
    simp only [hC3]
    rw [g2 _ (hv k hk), bget_valid (C2.map fun x => 2 * x) (by simpa [ND.map, sh6] using hv k hk)]
    simp only [ND.map, g6 _ (hv k hk), her, hget]
    have hsum : SUM.vecAt sv.length (i ++ [k]) = (q.get (ND.bidx q.shape i)).re • (spread v sh).vecAt sv.length (i ++ [k]) +
        imVec (q.get (ND.bidx q.shape i)) ⨯₃ (spread v sh).vecAt sv.length (i ++ [k]) := by
      funext k'
      simp only [ND.vecAt, hSUM, hset]
      rw [bget_valid SV (hv k' k'.2), bget_valid C1 (by rw [sh3]; exact hv k' k'.2), g3 _ _ hi k'.2]
      simp only [hSV]
      rw [g1 _ (hv k' k'.2), her]
      have : Fin.ofNat 3 k'.val = k' := by simp
      rw [this]
      simp only [spread, Pi.add_apply, Pi.smul_apply, smul_eq_mul]
      unfold ND.vecAt
      simp only [hset]
    rw [hsum]
    simp only [rotateCrossForm, Pi.add_apply, Pi.smul_apply, smul_eq_mul]
    have hvv : v.bget (i ++ [k]) = (spread v sh).vecAt sv.length (i ++ [k]) (Fin.ofNat 3 k) := by
      simp only [ND.vecAt, spread, hset]
      have h2 : (Fin.ofNat 3 k).val = k := by simp only [Fin.ofNat]; exact Nat.mod_eq_of_lt hk
      rw [h2]
    rw [hvv]
    ring

end RBM
