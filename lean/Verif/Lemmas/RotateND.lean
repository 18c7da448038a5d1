import Verif.Lemmas.ND
import Verif.Lemmas.Rigid

namespace RBM

open Matrix

/-- The vector part along the last axis of the quaternions. -/
def rPart (q : ND Quat) : ND ℝ :=
  ⟨q.shape ++ [3], fun idx => qcomp (q.get idx.dropLast) (idx.getLast?.getD 0 + 1)⟩

theorem set_getD_self {l : List ℕ} {p : ℕ} : l.set p (l.getD p 0) = l := by
  apply list_ext_getD (by simp)
  intro j hj
  simp only [List.getD_eq_getElem?_getD, List.getElem?_set]
  split
  · rename_i h; subst h; simp at hj; simp [hj]
  · rfl

theorem rPart_vec (q : ND Quat) (i : List ℕ) :
    (fun k : Fin 3 => (rPart q).get (i ++ [k.val])) = imVec (q.get i) := by
  funext k
  fin_cases k <;> simp [rPart, qcomp, imVec]

theorem eraseIdx_bshape {qsh vsh : List ℕ} (h : Bcast qsh vsh) : ND.bshape qsh vsh = some vsh := bshape_left h

theorem npCross_spec (q : ND Quat) (w : ND ℝ) {axis : ℤ} {p : ℕ} (hp : normAxis axis w.ndim = some p)
    (h3 : w.shape.getD p 0 = 3) (hb : Bcast q.shape (w.shape.eraseIdx p)) :
    ∃ C, npCross (rPart q) w axis = .ok C ∧ C.shape = w.shape ∧ ∀ idx, Valid w.shape idx →
      C.get idx = (imVec (q.get (ND.bidx q.shape (idx.eraseIdx p))) ⨯₃ w.vecAt p idx)
        (Fin.ofNat 3 (idx.getD p 0)) := by
  have hlt : p < w.shape.length := normAxis_lt hp
  have hd : 0 < w.shape.length := by omega
  have hqd : q.shape.length = w.shape.length - 1 := by
    rw [hb.length, List.length_eraseIdx_of_lt hlt]
  have hms : (w.moveaxis p (w.ndim - 1)).shape = w.shape.eraseIdx p ++ [3] := by
    simp only [ND.moveaxis, ND.ndim]
    rw [moveL_to_last hlt, h3]
  have hcl : ∃ c, crossLast (rPart q) (w.moveaxis p (w.ndim - 1)) = .ok c ∧ c.shape = w.shape.eraseIdx p ++ [3] ∧
      ∀ i k, Valid (w.shape.eraseIdx p) i → k < 3 →
        c.get (i ++ [k]) = (imVec (q.get (ND.bidx q.shape i)) ⨯₃ fun k => w.get (i.insertIdx p k)) (Fin.ofNat 3 k) := by
    refine ⟨?w, ?h1, ?h2, ?h3⟩
    case h1 =>
      simp only [crossLast, hms, rPart]
      rw [if_pos (by simp)]
      simp only [List.dropLast_concat]
      rw [bshape_left hb]
    case h2 => rfl
    case h3 =>
      intro i k hi hk
      simp only [List.dropLast_concat, List.getLast?_concat, Option.getD_some]
      have hil := hi.length
      have hil' : i.length = w.shape.length - 1 := by rw [hil, List.length_eraseIdx_of_lt hlt]
      have e1 : i.length - ((rPart q).ndim - 1) = 0 := by simp [rPart, ND.ndim]; omega
      have e2 : i.length - ((w.moveaxis p (w.ndim - 1)).ndim - 1) = 0 := by
        have : (w.moveaxis p (w.ndim - 1)).ndim = w.shape.length := by
          rw [ND.ndim, hms]; simp [List.length_eraseIdx_of_lt hlt]; omega
        rw [this]; omega
      simp only [rPart] at e1
      have e3 : (fun k : Fin 3 => qcomp (q.get (ND.bidx q.shape i)) (↑k + 1)) = imVec (q.get (ND.bidx q.shape i)) := by
        funext k
        fin_cases k <;> rfl
      have e4 : (fun k : Fin 3 => (w.moveaxis p (w.ndim - 1)).get (i ++ [k.val])) = fun k : Fin 3 => w.get (i.insertIdx p k) := by
        funext k
        simp only [ND.moveaxis, ND.ndim]
        rw [← hil', moveL_from_last]
      simp only [e1, e2, List.drop_zero, bidx_valid hi, e3, e4]
  obtain ⟨c, e1, e2, e3⟩ := hcl
  have hcd : c.ndim = w.ndim := by
    simp only [ND.ndim, e2]; simp [List.length_eraseIdx_of_lt hlt]; omega
  refine ⟨c.moveaxis (c.ndim - 1) p, ?_, ?_, ?_⟩
  · simp only [npCross, hp, e1, hcd]
  · simp only [ND.moveaxis, hcd]
    rw [e2, show w.ndim - 1 = (w.shape.eraseIdx p).length by rw [List.length_eraseIdx_of_lt hlt]; rfl,
      moveL_from_last, insertIdx_eraseIdx hlt, ← h3]
    apply list_ext_getD (by simp)
    intro k _
    simp only [List.getD_eq_getElem?_getD, List.getElem?_set]
    split
    · rename_i h; subst h; simp [hlt]
    · rfl
  · intro idx hv
    have hl := hv.length
    simp only [ND.moveaxis, hcd]
    rw [show w.ndim - 1 = idx.length - 1 by rw [hl]; rfl, moveL_to_last (by omega)]
    obtain ⟨v1, v2⟩ := valid_eraseIdx hlt hv
    rw [e3 _ _ v1 (by omega)]
    have : (fun k : Fin 3 => w.get ((idx.eraseIdx p).insertIdx p k)) = w.vecAt p idx := by
      funext k
      rw [insertIdx_eraseIdx (by omega)]
      rfl
    rw [this]

/-- Where the scalar parts are read is where they should be read. -/
def SwapOk (qsh vsh : List ℕ) (p : ℕ) : Prop :=
  Bcast (swapL (vsh.length - 1) p (qsh ++ [1])) vsh ∧ ∀ idx, Valid vsh idx →
    (swapL (vsh.length - 1) p (ND.bidx (swapL (vsh.length - 1) p (qsh ++ [1])) idx)).dropLast =
      ND.bidx qsh (idx.eraseIdx p)

theorem scalarPart_spec (q : ND Quat) (g : Quat → ℝ) {vsh : List ℕ} {axis : ℤ} {p : ℕ}
    (hp : normAxis axis vsh.length = some p) (hq : q.shape.length = vsh.length - 1) (hs : SwapOk q.shape vsh p) :
    ∃ S : ND ℝ, (⟨q.shape ++ [1], fun idx => g (q.get idx.dropLast)⟩ : ND ℝ).swapaxesZ (-1) axis = .ok S ∧
      Bcast S.shape vsh ∧ ∀ idx, Valid vsh idx → S.bget idx = g (q.get (ND.bidx q.shape (idx.eraseIdx p))) := by
  have hlt := normAxis_lt hp
  have hd : (q.shape ++ [1]).length = vsh.length := by simp; omega
  refine ⟨?w, ?h1, ?h2, ?h3⟩
  case h1 =>
    simp only [ND.swapaxesZ, ND.ndim, hd]
    rw [normAxis_neg_one (by omega), hp]
  case h2 => exact hs.1
  case h3 =>
    intro idx hv
    rw [bget_same _ (by simp [ND.ndim, ND.swapaxes, hv.length]; omega)]
    simp only [ND.swapaxes]
    rw [hs.2 idx hv]

theorem vecAt_set (v : ND ℝ) (p k : ℕ) (idx : List ℕ) : v.vecAt p (idx.set p k) = v.vecAt p idx := by
  funext j; simp [ND.vecAt]

theorem eraseIdx_set (p k : ℕ) (idx : List ℕ) : (idx.set p k).eraseIdx p = idx.eraseIdx p := by
  induction idx generalizing p with
  | nil => simp
  | cons i idx ih => cases p with
    | zero => simp
    | succ p => simp [ih]

theorem rotateArrayFormula_spec (q : ND Quat) (v : ND ℝ) {axis : ℤ} {p : ℕ} (hp : normAxis axis v.ndim = some p)
    (h3 : v.shape.getD p 0 = 3) (hb : Bcast q.shape (v.shape.eraseIdx p)) (hs : SwapOk q.shape v.shape p) :
    ∃ R, rotateArrayFormula q v axis = .ok R ∧ R.shape = v.shape ∧ ∀ idx, Valid v.shape idx →
      R.get idx = rotateCrossForm (q.get (ND.bidx q.shape (idx.eraseIdx p))) (v.vecAt p idx)
        (Fin.ofNat 3 (idx.getD p 0)) := by
  have hlt : p < v.shape.length := normAxis_lt hp
  have hq : q.shape.length = v.shape.length - 1 := by rw [hb.length, List.length_eraseIdx_of_lt hlt]
  obtain ⟨S, e1, b1, g1⟩ := scalarPart_spec q (fun x => x.re) hp hq hs
  obtain ⟨M, e2, b2, g2⟩ := scalarPart_spec q (fun x =>
    Real.sqrt (x.re * x.re + x.imI * x.imI + x.imJ * x.imJ + x.imK * x.imK)) hp hq hs
  obtain ⟨C1, e3, sh3, g3⟩ := npCross_spec q v hp h3 hb
  have e4 := bop_left (fun x y : ℝ => x * y) S v b1
  set SV : ND ℝ := ⟨v.shape, fun idx => S.bget idx * v.bget idx⟩ with hSV
  have e5 := bop_left (fun x y : ℝ => x + y) SV C1 (by rw [sh3]; exact Bcast.refl _)
  set SUM : ND ℝ := ⟨C1.shape, fun idx => SV.bget idx + C1.bget idx⟩ with hSUM
  have hsumsh : SUM.shape = v.shape := sh3
  obtain ⟨C2, e6, sh6, g6⟩ := npCross_spec q SUM (by simpa [ND.ndim, hsumsh] using hp)
    (by rw [hsumsh]; exact h3) (by rw [hsumsh]; exact hb)
  rw [hsumsh] at sh6 g6
  have e7 := bop_right (fun x y : ℝ => x / y) (C2.map fun x => 2 * x) M (by simpa [ND.map, sh6] using b2)
  set C3 : ND ℝ := ⟨(C2.map fun x => 2 * x).shape, fun idx => (C2.map fun x => 2 * x).bget idx / M.bget idx⟩ with hC3
  have hC3sh : C3.shape = v.shape := sh6
  have e8 := bop_left (fun x y : ℝ => x + y) v C3 (by rw [hC3sh]; exact Bcast.refl _)
  refine ⟨⟨C3.shape, fun idx => v.bget idx + C3.bget idx⟩, ?h1, ?h2, ?h3⟩
  case h1 =>
    have e3' : npCross ⟨q.shape ++ [3], fun idx => qcomp (q.get idx.dropLast) (idx.getLast?.getD 0 + 1)⟩ v axis = .ok C1 := e3
    have e6' : npCross ⟨q.shape ++ [3], fun idx => qcomp (q.get idx.dropLast) (idx.getLast?.getD 0 + 1)⟩ SUM axis = .ok C2 := e6
    simp only [rotateArrayFormula, e1, e2, bind, Except.bind, e3', e4, e5, e6', e7, e8]
  case h2 => exact hC3sh
  case h3 =>
    intro idx hv
    have hv3 : Valid C3.shape idx := by rw [hC3sh]; exact hv
    have hv2 : Valid C2.shape idx := by rw [sh6]; exact hv
    show v.bget idx + C3.bget idx = _
    rw [bget_valid v hv, bget_valid C3 hv3]
    simp only [hC3]
    rw [g2 idx hv, bget_valid (C2.map fun x => 2 * x) hv2]
    simp only [ND.map, g6 idx hv]
    have hsum : SUM.vecAt p idx = (q.get (ND.bidx q.shape (idx.eraseIdx p))).re • v.vecAt p idx +
        imVec (q.get (ND.bidx q.shape (idx.eraseIdx p))) ⨯₃ v.vecAt p idx := by
      funext k
      have hvk : Valid v.shape (idx.set p k) := valid_set hv (by rw [h3]; exact k.isLt)
      simp only [ND.vecAt, hSUM]
      rw [bget_valid SV hvk, bget_valid C1 (by rw [sh3]; exact hvk), g3 _ hvk]
      simp only [hSV]
      rw [g1 _ hvk, bget_valid v hvk, eraseIdx_set, vecAt_set]
      have hkp : (idx.set p ↑k).getD p 0 = k.val := by
        have := hv.length
        simp [List.getD_eq_getElem?_getD, hlt, this]
      rw [hkp]
      have : Fin.ofNat 3 k.val = k := by simp
      rw [this]
      rfl
    rw [hsum]
    simp only [rotateCrossForm, Pi.add_apply, Pi.smul_apply, smul_eq_mul]
    have hvv : v.get idx = v.vecAt p idx (Fin.ofNat 3 (idx.getD p 0)) := by
      simp only [ND.vecAt]
      have h1 := (valid_eraseIdx hlt hv).2
      rw [h3] at h1
      have h2 : (Fin.ofNat 3 (idx.getD p 0)).val = idx.getD p 0 := by simp only [Fin.ofNat]; exact Nat.mod_eq_of_lt h1
      rw [h2]
      rw [set_getD_self]
    rw [hvv]
    ring

theorem nonmatching_of_bcast {s t : List ℕ} (h : Bcast s t) : nonmatching s t = false := by
  induction h with
  | nil => rfl
  | cons h _ ih =>
    simp only [nonmatching, List.zip_cons_cons, List.any_cons] at ih ⊢
    rw [ih]
    rcases h with rfl | rfl <;> simp

theorem rotateVectorsQ_array (q : ND Quat) (v : ND ℝ) {axis : ℤ} {p : ℕ} (hp : normAxis axis v.ndim = some p)
    (h3 : v.shape.getD p 0 = 3) (hb : Bcast q.shape (v.shape.eraseIdx p)) (hs : SwapOk q.shape v.shape p)
    (hnd : q.ndim ≠ 0) (hq0 : ∀ idx, Valid q.shape idx → q.get idx ≠ 0) :
    ∃ R, rotateVectorsQ q v axis = .ok R ∧ R.shape = v.shape ∧ ∀ idx, Valid v.shape idx →
      R.get idx = rotateCrossForm (q.get (ND.bidx q.shape (idx.eraseIdx p))) (v.vecAt p idx)
        (Fin.ofNat 3 (idx.getD p 0)) := by
  obtain ⟨R, e, h1, h2⟩ := rotateArrayFormula_spec q v hp h3 hb hs
  refine ⟨R, ?_, h1, h2⟩
  have hlt : p < v.shape.length := normAxis_lt hp
  have hqd : q.ndim = v.ndim - 1 := by simp only [ND.ndim]; rw [hb.length, List.length_eraseIdx_of_lt hlt]
  simp only [rotateVectorsQ]
  rw [if_neg (by simp [hnd]), hp]
  simp only [h3, ne_eq, not_true, if_false, hqd, nonmatching_of_bcast hb, Bool.false_eq_true, or_self, e]
  rw [if_neg]
  rintro ⟨idx, h1, h2⟩
  exact hq0 idx h1 h2

theorem quatRv_scalar (q : ND Quat) (hqs : q.shape = []) (v : ND ℝ) {axis : ℤ} {p : ℕ}
    (hp : normAxis axis v.ndim = some p) (h3 : v.shape.getD p 0 = 3) (hq0 : q.get [] ≠ 0) :
    ∃ R, quatRv q v axis = .ok R ∧ R.shape = v.shape ∧ ∀ idx, R.get idx =
      Spec.rot (q.get []) (v.vecAt p idx) (Fin.ofNat 3 (idx.getD p 0)) := by
  have hlt : p < v.shape.length := normAxis_lt hp
  have hmem : 3 ∈ v.shape := by
    rw [← h3, List.getD_eq_getElem?_getD, List.getElem?_eq_getElem hlt]; simp
  refine ⟨?w, ?h1, ?h2, ?h3⟩
  case h1 =>
    simp only [quatRv]
    rw [if_neg (by simpa using hmem), hp]
    simp only [h3, ne_eq, not_true, if_false]
    rw [if_neg]
    rintro ⟨idx, h1, h2⟩
    rw [hqs] at h1
    cases idx with
    | nil => exact hq0 h2
    | cons => simp [Valid] at h1
  case h2 => simp [hqs]
  case h3 =>
    intro idx
    simp [ND.ndim, hqs, rotMat_eq_rot _ hq0]

/-! ### when the scalar parts are placed correctly -/

theorem swapOk_last {qsh vsh : List ℕ} {p : ℕ} (hp : p + 1 = vsh.length) 
    (hb : Bcast qsh (vsh.eraseIdx p)) : SwapOk qsh vsh p := by
  have hq : qsh.length = vsh.length - 1 := by rw [hb.length, List.length_eraseIdx_of_lt (by omega)]
  have e : swapL (vsh.length - 1) p (qsh ++ [1]) = qsh ++ [1] := by
    rw [show vsh.length - 1 = p by omega]; apply swapL_self; simp; omega
  have hvs : vsh = vsh.eraseIdx p ++ [vsh.getD p 0] := by
    have := moveL_to_last (l := vsh) (p := p) (by omega)
    rw [← this]
    simp only [moveL]
    rw [show vsh.length - 1 = p by omega, insertIdx_eraseIdx (by omega)]
    exact set_getD_self.symm
  constructor
  · rw [e]
    conv_rhs => rw [hvs]
    exact hb.append (.cons (.inr rfl) .nil)
  · intro idx hv
    rw [e]
    have hl := hv.length
    rw [show vsh.length - 1 = p by omega, swapL_self (by rw [bidx_length (by simp; omega)]; simp; omega)]
    have hix : idx = idx.eraseIdx p ++ [idx.getD p 0] := by
      have := moveL_to_last (l := idx) (p := p) (by omega)
      rw [← this]
      simp only [moveL]
      rw [show idx.length - 1 = p by omega, insertIdx_eraseIdx (by omega)]
      exact set_getD_self.symm
    have hil : (idx.eraseIdx p).length = qsh.length := by rw [List.length_eraseIdx_of_lt (by omega)]; omega
    generalize idx.eraseIdx p = i at hix hil
    rw [hix]
    clear hix hb hq e hvs
    induction qsh generalizing i with
    | nil => simp at hil; subst hil; simp [ND.bidx]
    | cons n qsh ih => 
      cases i with
      | nil => simp at hil
      | cons a i =>
        simp only [List.cons_append, ND.bidx]
        rw [List.dropLast_cons_of_ne_nil, ih i (by simpa using hil)]
        intro h
        have := congrArg List.length h
        rw [bidx_length (by simp; simpa using hil.symm)] at this
        simp at this

theorem bidx_append {s s' i i' : List ℕ} (h : s.length = i.length) :
    ND.bidx (s ++ s') (i ++ i') = ND.bidx s i ++ ND.bidx s' i' := by
  induction s generalizing i with
  | nil => simp at h; have := List.length_eq_zero_iff.mp h.symm; subst this; simp [ND.bidx]
  | cons n s ih => cases i with
    | nil => simp at h
    | cons a i => simp [ND.bidx, ih (by simpa using h)]

theorem swapL_penult (l : List ℕ) (x y : ℕ) : swapL (l.length + 1) l.length (l ++ [x, y]) = l ++ [y, x] := by
  apply list_ext_getD (by simp)
  intro k hk
  rw [swapL_getD (by simp) (by simp)]
  simp at hk
  by_cases h1 : k = l.length
  · subst h1; simp
  · by_cases h2 : k = l.length + 1
    · subst h2; simp
    · have : k < l.length := by omega
      simp only [h1, h2, if_false, List.getD_eq_getElem?_getD]
      rw [List.getElem?_append_left this, List.getElem?_append_left this]

theorem forall₂_append_left {R : ℕ → ℕ → Prop} {l t1 t2 : List ℕ} (h : List.Forall₂ R l (t1 ++ t2)) :
    ∃ l1 l2, l = l1 ++ l2 ∧ List.Forall₂ R l1 t1 ∧ List.Forall₂ R l2 t2 := by
  induction t1 generalizing l with
  | nil => exact ⟨[], l, rfl, .nil, h⟩
  | cons a t1 ih => cases h with
    | cons h1 h2 =>
      obtain ⟨l1, l2, rfl, h3, h4⟩ := ih h2
      exact ⟨_ :: l1, l2, rfl, .cons h1 h3, h4⟩

theorem swapOk_penult {qsh w : List ℕ} {x b : ℕ} (hb : Bcast qsh (w ++ [b])) :
    SwapOk qsh (w ++ [x, b]) w.length := by
  obtain ⟨qw, q2, rfl, h1, h2⟩ := forall₂_append_left hb
  cases h2 with
  | @cons qb _ _ _ hqb h3 =>
    cases h3
    have hl : qw.length = w.length := Bcast.length h1
    have e : ∀ y z, swapL (w.length + 1) w.length (qw ++ [y, z]) = qw ++ [z, y] := by
      intro y z; rw [← hl]; exact swapL_penult qw y z
    have hlen : (w ++ [x, b]).length - 1 = w.length + 1 := by simp
    have e0 : (qw ++ [qb]) ++ [1] = qw ++ [qb, 1] := by simp
    refine ⟨?_, ?_⟩
    · rw [hlen, e0, e]
      exact Bcast.append h1 (.cons (.inr rfl) (.cons hqb .nil))
    · intro idx hv
      obtain ⟨i, i2, rfl, v1, v2⟩ := valid_append_exists hv
      match i2, v2 with
      | [k, j], v2 =>
        have hil := v1.length
        rw [hlen, e0, e, bidx_append (by omega)]
        have e3 : swapL (w.length + 1) w.length (ND.bidx qw i ++ ND.bidx [1, qb] [k, j]) =
            ND.bidx qw i ++ [if qb = 1 then 0 else j, 0] := by
          have := swapL_penult (ND.bidx qw i) 0 (if qb = 1 then 0 else j)
          rw [bidx_length (by omega), hl] at this
          simpa [ND.bidx] using this
        rw [e3]
        have e4 : (i ++ [k, j]).eraseIdx w.length = i ++ [j] := by
          rw [← hil, List.eraseIdx_append_of_length_le (by simp)]; simp
        rw [e4, bidx_append (by omega)]
        simp [ND.bidx, List.dropLast_append_of_ne_nil]

theorem swapOk_first {n : ℕ} {vsh : List ℕ} {p : ℕ} (hp : p < vsh.length) (hp1 : 1 ≤ p) (h0 : vsh.getD 0 0 = n) :
    SwapOk (n :: List.replicate (vsh.length - 2) 1) vsh p ∧
      Bcast (n :: List.replicate (vsh.length - 2) 1) (vsh.eraseIdx p) ∧
      ∀ idx, Valid vsh idx → ND.bidx (n :: List.replicate (vsh.length - 2) 1) (idx.eraseIdx p) =
        idx.getD 0 0 :: List.replicate (vsh.length - 2) 0 := by
  obtain ⟨a, vs, rfl⟩ : ∃ a vs, vsh = a :: vs := by
    cases vsh with
    | nil => simp at hp
    | cons a vs => exact ⟨a, vs, rfl⟩
  simp only [List.getD_cons_zero] at h0
  subst h0
  obtain ⟨p, rfl⟩ : ∃ p', p = p' + 1 := ⟨p - 1, by omega⟩
  simp only [List.length_cons, Nat.add_lt_add_iff_right] at hp
  have hb1 : ∀ l : List ℕ, Bcast (List.replicate l.length 1) l := by
    intro l; induction l with
    | nil => exact .nil
    | cons x l ih => exact .cons (.inr rfl) ih
  have hbi : ∀ l : List ℕ, ND.bidx (List.replicate l.length 1) l = List.replicate l.length 0 := by
    intro l; induction l with
    | nil => rfl
    | cons x l ih => simp [List.replicate_succ, ND.bidx, ih]
  have e1 : (a :: vs).length - 2 = vs.length - 1 := by simp
  have e2 : (a :: List.replicate ((a :: vs).length - 2) 1) ++ [1] = a :: List.replicate vs.length 1 := by
    rw [e1, List.cons_append, ← List.replicate_succ', show vs.length - 1 + 1 = vs.length by omega]
  have esw : ∀ x y : ℕ, swapL ((a :: vs).length - 1) (p + 1) (x :: List.replicate vs.length y) = x :: List.replicate vs.length y := by
    intro x y
    apply list_ext_getD (by simp)
    intro k hk
    rw [swapL_getD (by simp) (by simp; omega)]
    simp at hk
    have h1 : ∀ k, k + 1 ≤ vs.length → (x :: List.replicate vs.length y).getD (k + 1) 0 = y := by
      intro k hk; simp [List.getD_eq_getElem?_getD, List.getElem?_replicate, show k < vs.length by omega]
    have hvl : (a :: vs).length - 1 = (vs.length - 1) + 1 := by simp; omega
    split
    · rename_i h; rw [h, hvl, h1 _ (by omega), h1 _ (by omega)]
    · split
      · rename_i h; rw [h, hvl, h1 _ (by omega), h1 _ (by omega)]
      · rfl
  have hcase : ∀ idx, Valid (a :: vs) idx → ∃ i0 is, idx = i0 :: is ∧ i0 < a ∧ is.length = vs.length := by
    intro idx hv
    cases idx with
    | nil => simp [Valid] at hv
    | cons i0 is => exact ⟨i0, is, rfl, hv.1, hv.2.length⟩
  have hlast : ∀ idx, Valid (a :: vs) idx → ND.bidx (a :: List.replicate ((a :: vs).length - 2) 1) (idx.eraseIdx (p + 1)) =
      idx.getD 0 0 :: List.replicate ((a :: vs).length - 2) 0 := by
    intro idx hv
    obtain ⟨i0, is, rfl, h1, h2⟩ := hcase idx hv
    simp only [List.eraseIdx_cons_succ, ND.bidx, List.getD_cons_zero]
    have h3 : (a :: vs).length - 2 = (is.eraseIdx p).length := by
      rw [List.length_eraseIdx_of_lt (by omega)]; simp; omega
    rw [h3, hbi]
    congr 1
    split <;> omega
  refine ⟨⟨?_, ?_⟩, ?_, hlast⟩
  · rw [e2, esw]
    exact .cons (.inl rfl) (hb1 vs)
  · intro idx hv
    rw [e2, esw, hlast idx hv]
    obtain ⟨i0, is, rfl, h1, h2⟩ := hcase idx hv
    simp only [ND.bidx, List.getD_cons_zero]
    rw [← h2, hbi, h2]
    have : (if a = 1 then 0 else i0) = i0 := by split <;> omega
    rw [this, esw, e1]
    have : vs.length = vs.length - 1 + 1 := by omega
    rw [this, List.replicate_succ', ← List.cons_append, List.dropLast_concat]; simp
  · rw [List.eraseIdx_cons_succ]
    refine .cons (.inl rfl) ?_
    have : (a :: vs).length - 2 = (vs.eraseIdx p).length := by
      rw [List.length_eraseIdx_of_lt hp]; simp
    rw [this]
    exact hb1 _

/-! ### expanded transforms -/

theorem expand_iter {α : Type _} (a : ND α) {n : ℕ} {rest : List ℕ} (hs : a.shape = n :: rest) (k : ℕ) :
    ((ND.expandDims1)^[k] a).shape = n :: (List.replicate k 1 ++ rest) ∧
    ∀ i js r, js.length = k → ((ND.expandDims1)^[k] a).get (i :: (js ++ r)) = a.get (i :: r) := by
  induction k with
  | zero =>
    refine ⟨by simp [hs], fun i js r hj => ?_⟩
    have := List.length_eq_zero_iff.mp hj
    subst this; simp
  | succ k ih =>
    rw [Function.iterate_succ_apply']
    constructor
    · simp [ND.expandDims1, ih.1, List.replicate_succ]
    · intro i js r hj
      obtain ⟨j, js, rfl⟩ : ∃ j js', js = j :: js' := by
        cases js with
        | nil => simp at hj
        | cons j js => exact ⟨j, js, rfl⟩
      simp only [ND.expandDims1, List.cons_append, List.eraseIdx_cons_succ, List.eraseIdx_cons_zero]
      exact ih.2 i js r (by simpa using hj)

theorem expand_quats (l : List Quat) {d : ℕ} (hd : 2 ≤ d) :
    ∃ Q, (expandSingletonAxes (ND.ofQuats (.many l)) d).swapaxesZ (-1) (-1) >>= asQuatArray = .ok Q ∧
      Q.shape = l.length :: List.replicate (d - 2) 1 ∧
      ∀ i js, js.length = d - 2 → Q.get (i :: js) = l.getD i 0 := by
  obtain ⟨h1, h2⟩ := expand_iter (ND.ofQuats (.many l)) (n := l.length) (rest := [4]) rfl (d - 2)
  have e : expandSingletonAxes (ND.ofQuats (.many l)) d = (ND.expandDims1)^[d - 2] (ND.ofQuats (.many l)) := by
    simp [expandSingletonAxes, ND.ndim, ND.ofQuats]
  rw [e]
  set X := (ND.expandDims1)^[d - 2] (ND.ofQuats (.many l)) with hX
  have hnd : X.ndim = d := by simp [ND.ndim, h1]; omega
  have hsw : X.swapaxesZ (-1) (-1) = .ok ⟨X.shape, fun idx => X.get (swapL (d - 1) (d - 1) idx)⟩ := by
    simp only [ND.swapaxesZ, hnd, normAxis_neg_one (show 0 < d by omega), ND.swapaxes]
    rw [swapL_self (by rw [h1]; simp; omega)]
  have hlast : X.shape.getLast? = some 4 := by rw [h1, ← List.cons_append, List.getLast?_concat]
  refine ⟨⟨X.shape.dropLast, fun idx => ⟨X.get (swapL (d - 1) (d - 1) (idx ++ [0])),
    X.get (swapL (d - 1) (d - 1) (idx ++ [1])), X.get (swapL (d - 1) (d - 1) (idx ++ [2])),
    X.get (swapL (d - 1) (d - 1) (idx ++ [3]))⟩⟩, ?h1, ?h2, ?h3⟩
  case h1 => simp only [hsw, bind, Except.bind, asQuatArray, hlast]
  case h2 => simp only [h1, ← List.cons_append, List.dropLast_concat]
  case h3 =>
    intro i js hj
    have key : ∀ k : ℕ, X.get (swapL (d - 1) (d - 1) (i :: js ++ [k])) = qcomp (l.getD i 0) k := by
      intro k
      rw [swapL_self (by simp; omega), List.cons_append, h2 i js [k] hj]
      simp [ND.ofQuats]
    simp only [key]
    rfl

/-- Rotation of a timestamped array by rows of unit quaternions. -/
theorem rotateF_many (l : List Quat) (hu : ∀ q ∈ l, Spec.IsUnitQ q) (v : ND ℝ) {axis : ℤ} {p : ℕ}
    (hp : normAxis axis v.ndim = some p) (hp1 : 1 ≤ p) (h3 : v.shape.getD p 0 = 3) (h0 : v.shape.getD 0 0 = l.length) :
    ∃ R, rotateVectorsF (expandSingletonAxes (ND.ofQuats (.many l)) v.ndim) v axis = .ok R ∧ R.shape = v.shape ∧
      ∀ idx, Valid v.shape idx → R.get idx =
        Spec.rot (l.getD (idx.getD 0 0) 0) (v.vecAt p idx) (Fin.ofNat 3 (idx.getD p 0)) := by
  have hlt : p < v.shape.length := normAxis_lt hp
  have hd : 2 ≤ v.ndim := by simp only [ND.ndim]; omega
  obtain ⟨Q, e, hs, hg⟩ := expand_quats l hd
  obtain ⟨k1, k2, k3⟩ := swapOk_first hlt hp1 h0
  have hshape : Q.shape = l.length :: List.replicate (v.shape.length - 2) 1 := hs
  have hbound : ∀ idx, Valid v.shape idx → idx.getD 0 0 < l.length := by
    intro idx hv; rw [← h0]; exact (valid_iff.mp hv).2 0 (by omega)
  obtain ⟨R, r1, r2, r3⟩ := rotateVectorsQ_array Q v hp h3 (by rw [hshape]; exact k2) (by rw [hshape]; exact k1)
    (by simp [ND.ndim, hshape]) (by
      intro idx hv
      rw [hshape] at hv
      cases idx with
      | nil => simp [Valid] at hv
      | cons i js =>
        rw [hg i js (by have := hv.2.length; simpa [ND.ndim] using this)]
        have hi := hv.1
        rw [List.getD_eq_getElem?_getD, List.getElem?_eq_getElem hi]
        exact (hu _ (List.getElem_mem hi)).ne_zero)
  refine ⟨R, ?_, r2, ?_⟩
  · simp only [rotateVectorsF]
    have : ((expandSingletonAxes (ND.ofQuats (.many l)) v.ndim).swapaxesZ (-1) (-1) >>= fun x => asQuatArray x >>= fun y => rotateVectorsQ y v axis true) = .ok R := by
      rw [← bind_assoc, e]; exact r1
    exact this
  · intro idx hv
    rw [r3 idx hv, hshape, k3 idx hv, hg _ _ (by simp [ND.ndim])]
    have hi := hbound idx hv
    rw [crossForm_eq_rot]
    rw [List.getD_eq_getElem?_getD, List.getElem?_eq_getElem hi]
    exact hu _ (List.getElem_mem hi)

/-- Rotation by a single quaternion. -/
theorem rotateF_one (q : Quat) (hq : q ≠ 0) (d : ℕ) (v : ND ℝ) {axis : ℤ} {p : ℕ}
    (hp : normAxis axis v.ndim = some p) (h3 : v.shape.getD p 0 = 3) :
    ∃ R, rotateVectorsF (expandSingletonAxes (ND.ofQuats (.one q)) d) v axis = .ok R ∧ R.shape = v.shape ∧
      ∀ idx, R.get idx = Spec.rot q (v.vecAt p idx) (Fin.ofNat 3 (idx.getD p 0)) := by
  have e : expandSingletonAxes (ND.ofQuats (.one q)) d = ND.ofQuats (.one q) := by
    simp [expandSingletonAxes, ND.ndim, ND.ofQuats]
  obtain ⟨Q, e2, hs, hg⟩ : ∃ Q, (ND.ofQuats (.one q)).swapaxesZ (-1) (-1) >>= asQuatArray = .ok Q ∧ Q.shape = [] ∧ Q.get [] = q := by
    refine ⟨?Q, ?h1, ?h2, ?h3⟩
    case h1 =>
      simp only [ND.ofQuats, ND.swapaxesZ, ND.ndim, List.length_singleton, normAxis_neg_one (Nat.one_pos),
        ND.swapaxes, bind, Except.bind, asQuatArray]
      rw [swapL_self (by simp)]
      rfl
    case h2 => rfl
    case h3 => rfl
  obtain ⟨R, r1, r2, r3⟩ := quatRv_scalar Q hs v hp h3 (by rw [hg]; exact hq)
  refine ⟨R, ?_, r2, by rw [hg] at r3; exact r3⟩
  rw [e]
  simp only [rotateVectorsF]
  have : ((ND.ofQuats (.one q)).swapaxesZ (-1) (-1) >>= fun x => asQuatArray x >>= fun y => rotateVectorsQ y v axis true) = .ok R := by
    rw [← bind_assoc, e2]
    show rotateVectorsQ Q v axis true = .ok R
    simp only [rotateVectorsQ]
    rw [if_pos (by simp [ND.ndim, hs])]
    exact r1
  exact this

end RBM
