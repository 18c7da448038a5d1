import Verif.Spec.Icp
import Verif.Lemmas.Reshape
import Verif.Lemmas.Fit

/-!
Iterative closest point.
-/

namespace RBM

open RBM.Spec

theorem gap_le {C : Set Vec} {v w : Vec} (h : w ∈ C) : gap C v ≤ sqDist v w := by
  apply csInf_le
  · exact ⟨0, by rintro _ ⟨u, -, rfl⟩; exact sqDist_nonneg _ _⟩
  · exact ⟨w, h, rfl⟩

theorem gap_eq {C : Set Vec} {v w : Vec} (h : w ∈ C) (hn : ∀ u ∈ C, sqDist v w ≤ sqDist v u) : gap C v = sqDist v w := by
  apply le_antisymm (gap_le h)
  refine le_csInf (Set.Nonempty.image _ ⟨w, h⟩) ?_
  rintro _ ⟨u, hu, rfl⟩
  exact hn u hu

theorem sum_le_sum_map {α : Type _} (l : List α) {f g : α → ℝ} (h : ∀ a ∈ l, f a ≤ g a) : (l.map f).sum ≤ (l.map g).sum := by
  induction l with
  | nil => simp
  | cons a l ih =>
    simp only [List.map_cons, List.sum_cons]
    have := h a (by simp)
    have := ih fun b hb => h b (by simp [hb])
    linarith

/-- The matching error does not increase in an iteration. -/
theorem step_error {C : Set Vec} {ids : List (List ℕ)} {x : List ℕ → Vec} {P P' : Pose} (h : IcpStep C ids x P P') :
    matchError C (ids.map fun i => P'.act (x i)) ≤ matchError C (ids.map fun i => P.act (x i)) := by
  obtain ⟨m, hm, S, hS, hP'⟩ := h
  have h1 : matchError C (ids.map fun i => P'.act (x i)) ≤ (ids.map fun i => sqDist (S.act (P.act (x i))) (m i)).sum := by
    rw [matchError, List.map_map]
    apply sum_le_sum_map
    intro i hi
    simp only [Function.comp, hP' i hi]
    exact gap_le (hm i hi).1
  have h2 : (ids.map fun i => sqDist (S.act (P.act (x i))) (m i)).sum ≤ (ids.map fun i => sqDist (P.act (x i)) (m i)).sum := by
    have := hS.2 ⟨0, 1⟩ isUnitQ_one
    simpa [List.map_map, Function.comp_def, Pose.act] using this
  have h3 : (ids.map fun i => sqDist (P.act (x i)) (m i)).sum = matchError C (ids.map fun i => P.act (x i)) := by
    rw [matchError, List.map_map]
    congr 1
    apply List.map_congr_left
    intro i hi
    exact (gap_eq (hm i hi).1 (hm i hi).2).symm
  linarith

theorem gather_ok {l : List Vec} (is : List ℕ) (h : ∀ i ∈ is, i < l.length) : gather l is = .ok (is.map fun i => l.getD i 0) := by
  induction is with
  | nil => rfl
  | cons i is ih =>
    have hi : i < l.length := h i (by simp)
    simp only [gather, List.getElem?_eq_getElem hi, ih fun j hj => h j (by simp [hj]), bind, Except.bind, Pure.pure, Except.pure,
      List.map_cons]
    simp [List.getD_eq_getElem?_getD, hi]

theorem moveRows_ok {t : Vec} {r : Quat} (hr : r ≠ 0) (l : List Vec) : moveRows t r l = .ok (l.map fun v => rot r v + t) := by
  simp only [moveRows, rotateVectors, hr, if_false, Arr.map, List.map_map]
  congr 1
  apply List.map_congr_left
  intro v _
  simp [rotMat_eq_rot r hr]

theorem vdist_eq (a b : Vec) : vdist a b = Real.sqrt (sqDist a b) := by
  simp only [vdist, sqDist, dot, Pi.sub_apply]
  congr 1
  ring

theorem exists_nnLaw : ∃ nn, NnLaw nn := by
  classical
  have h : ∀ (l : List Vec) (v : Vec), l ≠ [] → ∃ (k : ℕ) (w : Vec), l[k]? = some w ∧ ∀ u ∈ l, sqDist v w ≤ sqDist v u := by
    intro l v hl
    obtain ⟨w, hw⟩ : ∃ w, w ∈ l.argmin (sqDist v) := by
      cases e : l.argmin (sqDist v) with
      | none => exact absurd (List.argmin_eq_none.mp e) hl
      | some w => exact ⟨w, rfl⟩
    obtain ⟨k, hk⟩ := List.getElem?_of_mem (List.argmin_mem hw)
    exact ⟨k, w, hk, fun u hu => List.le_of_mem_argmin hu hw⟩
  refine ⟨fun l v => if hl : l ≠ [] then (h l v hl).choose else 0, ?_⟩
  intro l v hl
  simp only [dif_pos hl]
  exact (h l v hl).choose_spec

/-- Composition of poses. -/
noncomputable def Spec.Pose.then (P S : Pose) : Pose := ⟨S.act P.t, S.r * P.r⟩

theorem then_act {P S : Pose} (hP : P.r ≠ 0) (hS : S.r ≠ 0) (v : Vec) : (P.then S).act v = S.act (P.act v) := by
  simp only [Pose.then, Pose.act, rot_mul _ _ hS hP, rot_add]
  abel

section run
variable {ext : FitExt} (he : FitLaw ext) {nn : List Vec → Vec → ℕ} (hnn : NnLaw nn) {l2 : List Vec} (hl2 : l2 ≠ [])
  {C : Set Vec} (hC : ∀ w, w ∈ C ↔ w ∈ l2) {ids : List (List ℕ)} (hids : ids ≠ []) {x : List ℕ → Vec}

include he hnn hl2 hC hids

theorem icpStep_ok {P : Pose} (hP : P.r ≠ 0) :
    ∃ P' : Pose, P'.r ≠ 0 ∧ icpStep ext nn l2 (ids.map fun i => P.act (x i)) =
      .ok (ids.map fun i => P'.act (x i), meanGap C (ids.map fun i => P.act (x i))) ∧ IcpStep C ids x P P' := by
  choose w hw1 hw2 using fun v => hnn l2 v hl2
  have hg : gather l2 ((ids.map fun i => P.act (x i)).map fun v => nn l2 v) = .ok (ids.map fun i => w (P.act (x i))) := by
    rw [gather_ok]
    · rw [List.map_map, List.map_map]
      congr 1
      apply List.map_congr_left
      intro i _
      simp only [Function.comp, List.getD_eq_getElem?_getD, hw1, Option.getD_some]
    · intro k hk
      obtain ⟨v, -, rfl⟩ := List.mem_map.mp hk
      by_contra hcon
      have := hw1 v
      rw [List.getElem?_eq_none (by omega)] at this
      cases this
  obtain ⟨t, r, hf, hb⟩ := fitTransform_best he (l1 := ids.map fun i => P.act (x i)) (l2 := ids.map fun i => w (P.act (x i)))
    (by simp) (by simpa using hids)
  have hr : r ≠ 0 := hb.1.ne_zero
  have hmem : ∀ v, w v ∈ C := fun v => (hC _).mpr (List.mem_of_getElem? (hw1 v))
  have hnear : ∀ v, ∀ u ∈ C, sqDist v (w v) ≤ sqDist v u := fun v u hu => hw2 v u ((hC u).mp hu)
  refine ⟨P.then ⟨t, r⟩, mul_ne_zero hr hP, ?_, ?_⟩
  · simp only [icpStep, hg, hf, bind, Except.bind, moveRows_ok hr, Pure.pure, Except.pure]
    congr 2
    · rw [List.map_map]
      apply List.map_congr_left
      intro i _
      rw [then_act hP hr]
      rfl
    · rw [meanGap]
      congr 1
      congr 1
      have : ∀ l : List (List ℕ), List.zipWith vdist (l.map fun i => P.act (x i)) (l.map fun i => w (P.act (x i))) =
          (l.map fun i => P.act (x i)).map fun v => Real.sqrt (gap C v) := by
        intro l
        induction l with
        | nil => rfl
        | cons i l ih =>
          simp only [List.map_cons, List.zipWith_cons_cons, ih]
          rw [vdist_eq, gap_eq (hmem _) (hnear _)]
      exact this ids
  · refine ⟨fun i => w (P.act (x i)), fun i _ => ⟨hmem _, hnear _⟩, ⟨t, r⟩, ?_, fun i _ => then_act hP hr _⟩
    rw [← zip_map_same]
    exact hb

theorem icpLoop_ok (tol : ℝ) (n : ℕ) : ∀ (P : Pose) (prev : ℝ), P.r ≠ 0 → ∃ Ps : List Pose,
    icpLoop ext nn l2 tol n (ids.map fun i => P.act (x i)) prev = .ok (Ps.map fun P' => ids.map fun i => P'.act (x i)) ∧
    IcpRun C ids x tol prev n P (P :: Ps) ∧ ∀ P' ∈ Ps, P'.r ≠ 0 := by
  induction n with
  | zero =>
    intro P prev hP
    refine ⟨[], rfl, ⟨rfl, by simp, ?_, by simp, .inl rfl⟩, by simp⟩
    intro k Q Q' h1 h2
    simp at h2
  | succ n ih =>
    intro P prev hP
    obtain ⟨P', hP', hs, hst⟩ := icpStep_ok he hnn hl2 hC hids (x := x) hP
    by_cases htol : |prev - meanGap C (ids.map fun i => P.act (x i))| < tol
    · refine ⟨[P'], ?_, ⟨rfl, by simp, ?_, by simp, .inr ⟨0, rfl, ?_⟩⟩, by simpa using hP'⟩
      · simp only [icpLoop, hs, bind, Except.bind, if_pos htol, Pure.pure, Except.pure, List.map_cons, List.map_nil]
      · intro k Q Q' h1 h2
        cases k with
        | zero =>
          simp at h1 h2
          subst h1 h2
          exact hst
        | succ k => simp at h2
      · simpa [errors] using htol
    · obtain ⟨Ps, hl, hrun, hne⟩ := ih P' (meanGap C (ids.map fun i => P.act (x i))) hP'
      refine ⟨P' :: Ps, ?_, ⟨rfl, ?_, ?_, ?_, ?_⟩, ?_⟩
      · simp only [icpLoop, hs, bind, Except.bind, if_neg htol, hl, Pure.pure, Except.pure, List.map_cons]
      · have := hrun.count; simp at this ⊢; omega
      · intro k Q Q' h1 h2
        cases k with
        | zero =>
          simp at h1 h2
          subst h1 h2
          exact hst
        | succ k => exact hrun.step k Q Q' (by simpa using h1) (by simpa using h2)
      · intro k hk
        cases k with
        | zero => simpa [errors] using le_of_not_gt htol
        | succ k =>
          have := hrun.going k (by simpa using hk)
          simpa [errors] using this
      · rcases hrun.stop with h | ⟨k, hk, hlt⟩
        · left; simp at h ⊢; omega
        · right
          refine ⟨k + 1, by simp at hk ⊢; omega, ?_⟩
          simpa [errors] using hlt
      · intro Q hQ
        rcases List.mem_cons.mp hQ with rfl | h
        · exact hP'
        · exact hne Q h

end run

/-- A rotation is a rotation by a unit quaternion. -/
theorem exists_unit_rot {q : Quat} (hq : q ≠ 0) : ∃ u, IsUnitQ u ∧ ∀ v, rot u v = rot q v := by
  have hn := nsq_pos hq
  have hc : (Real.sqrt (nsq q))⁻¹ ≠ 0 := inv_ne_zero (Real.sqrt_pos.mpr hn).ne'
  refine ⟨(Real.sqrt (nsq q))⁻¹ • q, ?_, ?_⟩
  · have e : nsq ((Real.sqrt (nsq q))⁻¹ • q) = ((Real.sqrt (nsq q))⁻¹) ^ 2 * nsq q := by
      simp [nsq]; ring
    rw [IsUnitQ, e, inv_pow, Real.sq_sqrt hn.le, inv_mul_cancel₀ hn.ne']
  · intro v
    have h0 : (Real.sqrt (nsq q))⁻¹ • q ≠ 0 := smul_ne_zero hc hq
    have : Spec.pure (rot ((Real.sqrt (nsq q))⁻¹ • q) v) = Spec.pure (rot q v) := by
      rw [pure_rot _ h0, pure_rot _ hq]
      have hi : ((Real.sqrt (nsq q))⁻¹ • q)⁻¹ = ((Real.sqrt (nsq q))⁻¹)⁻¹ • q⁻¹ := by
        rw [smul_inv₀]
      rw [hi, smul_mul_assoc, smul_mul_assoc, mul_smul_comm, smul_smul, mul_inv_cancel₀ hc, one_smul]
    have a := congrArg (·.imI) this; have b := congrArg (·.imJ) this; have c := congrArg (·.imK) this
    simp at a b c
    ext i; fin_cases i <;> assumption

end RBM
