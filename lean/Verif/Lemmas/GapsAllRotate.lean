import Verif.Lemmas.GapsAll

/-!
Continuation of `Lemmas/GapsAll`: quaternion arrays, rotation, resampling.
-/

namespace RBM

open Matrix Spec

variable {full : Bool}

theorem split_last' {sh : List ℕ} {n : ℕ} (h : sh.getLast? = some n) : sh = sh.dropLast ++ [n] := (List.dropLast_append_getLast? n h).symm

theorem rel_asQuat {a : ND (Option ℝ)} {a' : ND ℝ} (h : NDRel (Fit full) a a') {q' : ND Quat} (e : asQuatArray a' = .ok q') :
    ∃ q, asQuatArrayGaps a = .ok q ∧ NDRel (Fit full) q q' := by
  simp only [asQuatArray, asQuatArrayGaps, ← h.1] at e ⊢
  split at e
  · rename_i hl
    cases e
    rw [hl]
    refine ⟨_, rfl, rfl, fun idx hv => ?_⟩
    have key : ∀ k, k < 4 → Valid a.shape (idx ++ [k]) := fun k hk => by
      rw [split_last' hl]; exact valid_snoc_mk hv hk
    exact fit_quat (h.2 _ (key 0 (by omega))) (h.2 _ (key 1 (by omega))) (h.2 _ (key 2 (by omega))) (h.2 _ (key 3 (by omega)))
  · cases e

theorem rel_snoc {α : Type} {q : ND (Option α)} {q' : ND α} (h : NDRel (Fit full) q q') (n : ℕ) (f : List ℕ → α → ℝ) :
    NDRel (Fit full) (⟨q.shape ++ [n], fun idx => (q.get idx.dropLast).map (f idx)⟩ : ND (Option ℝ)) ⟨q'.shape ++ [n], fun idx => f idx (q'.get idx.dropLast)⟩ := by
  refine ⟨by simp only [h.1], fun idx hv => ?_⟩
  obtain ⟨i, k, rfl, hi, _⟩ := valid_snoc hv
  simp only [List.dropLast_concat]
  exact fit_map _ (h.2 _ hi)

theorem rel_asFloat {q : ND (Option Quat)} {q' : ND Quat} (h : NDRel (Fit full) q q') : NDRel (Fit full) (asFloatArrayGaps q) (asFloatArray q') :=
  rel_snoc h 4 fun idx x => qcomp x (idx.getLast?.getD 0)

theorem rel_crossLast {a b : ND (Option ℝ)} {a' b' c' : ND ℝ} (ha : NDRel (Fit full) a a') (hb : NDRel (Fit full) b b')
    (e : crossLast a' b' = .ok c') : ∃ c, crossLastAll a b = .ok c ∧ NDRel (Fit full) c c' := by
  simp only [crossLast, crossLastAll, ← ha.1, ← hb.1, ← ha.ndim, ← hb.ndim] at e ⊢
  split at e
  · rename_i hl
    rw [if_pos hl]
    split at e
    · cases e
    · rename_i sh hs
      cases e
      rw [hs]
      refine ⟨_, rfl, rfl, fun idx hv => ?_⟩
      obtain ⟨i, k, rfl, hi, hk⟩ := valid_snoc hv
      simp only [List.dropLast_concat, List.getLast?_concat, Option.getD_some]
      obtain ⟨h1, h2⟩ := bshape_valid hs hi
      have l1 : a.ndim - 1 = a.shape.dropLast.length := by simp [ND.ndim]
      have l2 : b.ndim - 1 = b.shape.dropLast.length := by simp [ND.ndim]
      rw [l1, l2]
      refine fit_cross (fun j => ?_) (fun j => ?_) _
      · exact ha.2 _ (by rw [split_last' hl.1]; simpa using valid_snoc_mk (n := 3) h1 j.2)
      · exact hb.2 _ (by rw [split_last' hl.2]; simpa using valid_snoc_mk (n := 3) h2 j.2)
  · cases e

theorem rel_npCross {a b : ND (Option ℝ)} {a' b' c' : ND ℝ} (ha : NDRel (Fit full) a a') (hb : NDRel (Fit full) b b') {axis : ℤ}
    (e : npCross a' b' axis = .ok c') : ∃ c, npCrossAll a b axis = .ok c ∧ NDRel (Fit full) c c' := by
  simp only [npCross, npCrossAll, ← hb.ndim] at e ⊢
  cases hp : normAxis axis b.ndim with
  | none => rw [hp] at e; cases e
  | some p =>
    rw [hp] at e
    simp only at e ⊢
    have hlt := normAxis_lt hp
    cases e1 : crossLast a' (b'.moveaxis p (b.ndim - 1)) with
    | error x => rw [e1] at e; cases e
    | ok d' =>
      rw [e1] at e
      simp only at e
      obtain ⟨d, f1, hd⟩ := rel_crossLast ha (rel_moveaxis hb hlt (by omega)) e1
      rw [f1]
      simp only [← hd.ndim] at e ⊢
      cases hpc : normAxis axis d.ndim with
      | none => rw [hpc] at e; cases e
      | some pc =>
        rw [hpc] at e
        cases e
        have hlt' := normAxis_lt hpc
        exact ⟨_, rfl, rel_moveaxis hd (by omega) hlt'⟩

theorem rel_formula {q : ND (Option Quat)} {q' : ND Quat} {v : ND (Option ℝ)} {v' c' : ND ℝ} (hq : NDRel (Fit full) q q') (hv : NDRel (Fit full) v v')
    {axis : ℤ} (e : rotateArrayFormula q' v' axis = .ok c') : ∃ c, rotateArrayFormulaAll q v axis = .ok c ∧ NDRel (Fit full) c c' := by
  simp only [rotateArrayFormula, bind] at e
  obtain ⟨s', e1, e⟩ := bind_ok' e
  obtain ⟨m', e2, e⟩ := bind_ok' e
  obtain ⟨x', e3, e⟩ := bind_ok' e
  obtain ⟨sv', e4, e⟩ := bind_ok' e
  obtain ⟨sum', e5, e⟩ := bind_ok' e
  obtain ⟨d', e6, e⟩ := bind_ok' e
  obtain ⟨d2', e7, e⟩ := bind_ok' e
  obtain ⟨s, f1, h1⟩ := rel_swapaxesZ (rel_snoc hq 1 fun _ x => x.re) e1
  obtain ⟨m, f2, h2⟩ := rel_swapaxesZ (rel_snoc hq 1 fun _ x => Real.sqrt (x.re * x.re + x.imI * x.imI + x.imJ * x.imJ + x.imK * x.imK)) e2
  have hr := rel_snoc hq 3 fun idx x => qcomp x (idx.getLast?.getD 0 + 1)
  obtain ⟨x, f3, h3⟩ := rel_npCross hr hv e3
  obtain ⟨sv, f4, h4⟩ := rel_bop (T := Fit full) (f := nan2 fun x y => x * y) (g := fun x y => x * y) (fun _ _ _ _ a b => fit_nan2 (fun x y => x * y) a b) h1 hv e4
  obtain ⟨sum, f5, h5⟩ := rel_bop (T := Fit full) (f := nan2 fun x y => x + y) (g := fun x y => x + y) (fun _ _ _ _ a b => fit_nan2 (fun x y => x + y) a b) h4 h3 e5
  obtain ⟨d, f6, h6⟩ := rel_npCross hr h5 e6
  have h6' := rel_map (T := Fit full) h6 (f := fun x => x.map fun x => 2 * x) (g := fun x => 2 * x) (fun _ _ h => fit_map _ h)
  obtain ⟨d2, f7, h7⟩ := rel_bop (T := Fit full) (f := nan2 fun x y => x / y) (g := fun x y => x / y) (fun _ _ _ _ a b => fit_nan2 (fun x y => x / y) a b) h6' h2 e7
  obtain ⟨c, f8, h8⟩ := rel_bop (T := Fit full) (f := nan2 fun x y => x + y) (g := fun x y => x + y) (fun _ _ _ _ a b => fit_nan2 (fun x y => x + y) a b) hv h7 e
  exact ⟨c, by simp only [rotateArrayFormulaAll, bind, Except.bind, f1, f2, f3, f4, f5, f6, f7, f8], h8⟩

theorem no_zero {q : ND (Option Quat)} {q' : ND Quat} (hq : NDRel (Fit full) q q') (h : ¬ ∃ idx, Valid q'.shape idx ∧ q'.get idx = 0) :
    ¬ ∃ idx, Valid q.shape idx ∧ q.get idx = some 0 := by
  rintro ⟨idx, h1, h2⟩
  exact h ⟨idx, hq.1 ▸ h1, (hq.2 idx h1).1 0 h2⟩

theorem rel_vecAt {v : ND (Option ℝ)} {v' : ND ℝ} (hv : NDRel (Fit full) v v') {p : ℕ} (h3 : v.shape.getD p 0 = 3) {idx : List ℕ} (h : Valid v.shape idx)
    (k : Fin 3) : Fit full (v.vecAtGaps p idx k) (v'.vecAt p idx k) :=
  hv.2 _ (valid_set h (by rw [h3]; exact k.2))

theorem rel_quatRv {q : ND (Option Quat)} {q' : ND Quat} {v : ND (Option ℝ)} {v' c' : ND ℝ} (hq : NDRel (Fit full) q q') (hv : NDRel (Fit full) v v')
    {axis : ℤ} (e : quatRv q' v' axis = .ok c') : ∃ c, quatRvAll q v axis = .ok c ∧ NDRel (Fit full) c c' := by
  simp only [quatRv, ← hv.1, ← hv.ndim] at e
  simp only [quatRvAll]
  by_cases h1 : 3 ∉ v.shape
  · rw [if_pos h1] at e; cases e
  · rw [if_neg h1] at e ⊢
    cases hp : normAxis axis v.ndim with
    | none => rw [hp] at e; cases e
    | some p =>
      rw [hp] at e
      simp only at e ⊢
      by_cases h2 : v.shape.getD p 0 ≠ 3
      · rw [if_pos h2] at e; cases e
      · rw [if_neg h2] at e ⊢
        by_cases h3 : ∃ idx, Valid q'.shape idx ∧ q'.get idx = 0
        · rw [if_pos h3] at e; cases e
        · rw [if_neg h3] at e
          rw [if_neg (no_zero hq h3)]
          cases e
          refine ⟨_, rfl, by simp only [hq.1], fun idx hidx => ?_⟩
          obtain ⟨i1, i2, rfl, v1, v2⟩ := valid_append_exists hidx
          have l1 : i1.length = q.ndim := v1.length
          have l2 : i1.length = q'.ndim := by rw [← hq.ndim]; exact l1
          simp only
          rw [List.take_left' l1, List.drop_left' l1, List.take_left' l2, List.drop_left' l2]
          have hx := hq.2 _ v1
          cases hqi : q.get i1 with
          | none =>
            rw [hqi] at hx
            exact fit_of_false (fit_none hx) _
          | some x =>
            rw [hqi] at hx
            simp only [rotateMatrixForm]
            rw [hx.1 x rfl]
            exact fit_mulVec _ (rel_vecAt hv (by push Not at h2; exact h2) v2) _

theorem rel_rotateQ {q : ND (Option Quat)} {q' : ND Quat} {v : ND (Option ℝ)} {v' c' : ND ℝ} (hq : NDRel (Fit full) q q') (hv : NDRel (Fit full) v v')
    {axis : ℤ} (e : rotateVectorsQ q' v' axis = .ok c') : ∃ c, rotateVectorsQAll q v axis = .ok c ∧ NDRel (Fit full) c c' := by
  simp only [rotateVectorsQ, Bool.true_eq_false, false_or] at e
  simp only [rotateVectorsQAll]
  by_cases h0 : q.ndim = 0
  · rw [if_pos h0]
    rw [if_pos (hq.ndim ▸ h0)] at e
    exact rel_quatRv hq hv e
  · rw [if_neg h0]
    rw [if_neg (hq.ndim ▸ h0)] at e
    rw [← hv.ndim, ← hv.1, ← hq.ndim, ← hq.1] at e
    cases hp : normAxis axis v.ndim with
    | none => rw [hp] at e; cases e
    | some p =>
      rw [hp] at e
      simp only at e ⊢
      by_cases h2 : v.shape.getD p 0 ≠ 3
      · rw [if_pos h2] at e; cases e
      · rw [if_neg h2] at e ⊢
        by_cases h3 : q.ndim ≠ v.ndim - 1 ∨ nonmatching q.shape (v.shape.eraseIdx p) = true
        · rw [if_pos h3] at e; cases e
        · rw [if_neg h3] at e ⊢
          cases e1 : rotateArrayFormula q' v' axis with
          | error x => rw [e1] at e; cases e
          | ok d' =>
            rw [e1] at e
            simp only at e
            obtain ⟨d, f1, hd⟩ := rel_formula hq hv e1
            rw [f1]
            simp only
            by_cases h4 : ∃ idx, Valid q.shape idx ∧ q'.get idx = 0
            · rw [if_pos h4] at e; cases e
            · rw [if_neg h4] at e
              cases e
              rw [if_neg (no_zero hq (by rw [← hq.1]; exact h4))]
              exact ⟨d, rfl, hd⟩

theorem rel_rotateF {q v : ND (Option ℝ)} {q' v' c' : ND ℝ} (hq : NDRel (Fit full) q q') (hv : NDRel (Fit full) v v')
    {axis : ℤ} (e : rotateVectorsF q' v' axis = .ok c') : ∃ c, rotateVectorsFAll q v axis = .ok c ∧ NDRel (Fit full) c c' := by
  simp only [rotateVectorsF, bind] at e
  obtain ⟨q1', e1, e⟩ := bind_ok' e
  obtain ⟨q2', e2, e⟩ := bind_ok' e
  obtain ⟨q1, f1, h1⟩ := rel_swapaxesZ hq e1
  obtain ⟨q2, f2, h2⟩ := rel_asQuat h1 e2
  obtain ⟨c, f3, h3⟩ := rel_rotateQ h2 hv e
  exact ⟨c, by simp only [rotateVectorsFAll, bind, Except.bind, f1, f2, f3], h3⟩

/-! ### resampling -/

theorem forall₂_range {α β : Type} {R : α → β → Prop} {f : ℕ → α} {g : ℕ → β} {n : ℕ} (h : ∀ i < n, R (f i) (g i)) :
    List.Forall₂ R ((List.range n).map f) ((List.range n).map g) := by
  rw [List.forall₂_iff_get]
  refine ⟨by simp, fun i h1 h2 => ?_⟩
  simp only [List.length_map, List.length_range] at h1
  simpa using h i h1

theorem getD_rel_lt {α β : Type} {R : α → β → Prop} {l : List α} {l' : List β} (h : List.Forall₂ R l l') {k : ℕ} (hk : k < l.length) (a : α) (b : β) :
    R (l.getD k a) (l'.getD k b) := by
  induction h generalizing k with
  | nil => simp at hk
  | cons h1 _ ih =>
    cases k with
    | zero => simpa using h1
    | succ k => simpa using ih (by simpa using hk)

end RBM
