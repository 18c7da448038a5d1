import Verif.Spec.Fit
import Verif.Lemmas.SO3

/-!
Optimality of the SVD based fits.
-/

namespace RBM

open Matrix RBM.Spec

/-- tr (Aᵀ B). -/
theorem agreement_eq {q : Quat} (hq : q ≠ 0) (M : Mat3) :
    agreement q M = ∑ i, ∑ j, rotMat q i j * M i j := by
  simp only [agreement, ← rotMat_mulVec hq, dot]
  simp [Fin.sum_univ_three, Matrix.mulVec, dotProduct, vecHead, vecTail]
  ring

theorem orth_sumsq {A : M3} (h : Aᵀ * A = 1) : ∑ i, ∑ j, A i j * A i j = 3 := by
  have e0 := orth_entries h 0 0; have e1 := orth_entries h 1 1; have e2 := orth_entries h 2 2
  simp only [if_true] at e0 e1 e2
  simp only [Fin.sum_univ_three]
  linarith

/-- `from_rotation_matrix` inverts `as_rotation_matrix` on rotation matrices. -/
theorem quatOf_rot {ext : FitExt} (he : FitLaw ext) {R : Mat3} (h : Rᵀ * R = 1) (hd : R.det = 1) :
    rotMat (ext.quatOf R) = R := by
  obtain ⟨p, hp, e⟩ := exists_quat h hd
  have hu := he.unit R
  have hb := he.best R p hp
  rw [agreement_eq hp.ne_zero, agreement_eq hu.ne_zero, e, orth_sumsq h] at hb
  have hA := orth_sumsq (rotMat_orth hu)
  have hR := orth_sumsq h
  have hs : ∑ i, ∑ j, (rotMat (ext.quatOf R) i j - R i j) ^ 2 ≤ 0 := by
    have : ∑ i, ∑ j, (rotMat (ext.quatOf R) i j - R i j) ^ 2 =
        ∑ i, ∑ j, rotMat (ext.quatOf R) i j * rotMat (ext.quatOf R) i j + ∑ i, ∑ j, R i j * R i j
          - 2 * ∑ i, ∑ j, rotMat (ext.quatOf R) i j * R i j := by
      simp only [Fin.sum_univ_three]; ring
    rw [this, hA, hR]; linarith
  have h0 : ∀ i j, rotMat (ext.quatOf R) i j - R i j = 0 := by
    intro i j
    have h1 : 0 ≤ ∑ i, ∑ j, (rotMat (ext.quatOf R) i j - R i j) ^ 2 :=
      Finset.sum_nonneg fun i _ => Finset.sum_nonneg fun j _ => sq_nonneg _
    have h2 := (Finset.sum_eq_zero_iff_of_nonneg fun i _ => Finset.sum_nonneg fun j _ => sq_nonneg _).mp (le_antisymm hs h1) i (Finset.mem_univ i)
    have h3 := (Finset.sum_eq_zero_iff_of_nonneg fun j _ => sq_nonneg _).mp h2 j (Finset.mem_univ j)
    exact pow_eq_zero_iff (two_ne_zero) |>.mp h3
  ext i j
  exact sub_eq_zero.mp (h0 i j)

/-- The matrix part of Kabsch' algorithm: proper case. -/
theorem kabsch_proper {H U Vt : Mat3} {S : Vec} (h : IsSvd H U S Vt) {Q : Mat3} (hQ : Qᵀ * Q = 1) :
    trace (Q * H) ≤ trace (Vtᵀ * Uᵀ * H) := by
  have hW : (Vt * Q * U)ᵀ * (Vt * Q * U) = 1 := orth_mul (orth_mul h.right hQ) h.left
  have e1 : trace (Q * H) = trace (Vt * Q * U * diagonal S) := by
    rw [h.factor, ← Matrix.mul_assoc, ← Matrix.mul_assoc, Matrix.trace_mul_comm, ← Matrix.mul_assoc, ← Matrix.mul_assoc]
  have e2 : trace (Vtᵀ * Uᵀ * H) = trace (diagonal S) := by
    rw [h.factor, Matrix.mul_assoc, Matrix.mul_assoc U, ← Matrix.mul_assoc Uᵀ, h.left, Matrix.one_mul,
      Matrix.trace_mul_comm, Matrix.mul_assoc, orth_comm h.right, Matrix.mul_one]
  rw [e1, e2]
  have := (trace_bound hW h.ge01 h.ge12 h.nonneg).1
  simpa [Matrix.trace, Fin.sum_univ_three, Matrix.mul_diagonal] using this

/-- The reflected factor. -/
theorem flip_eq (Vt : Mat3) : Vt.updateRow 2 (-Vt 2) = diagonal ![1, 1, -1] * Vt := by
  ext i j
  fin_cases i <;> simp [Matrix.updateRow_apply, Matrix.diagonal_mul]

theorem flip_orth : (diagonal ![1, 1, -1] : Mat3)ᵀ * diagonal ![1, 1, -1] = 1 := by
  rw [Matrix.diagonal_transpose, Matrix.diagonal_mul_diagonal]
  ext i j
  fin_cases i <;> fin_cases j <;> simp

/-- The matrix part of Kabsch' algorithm: improper case. -/
theorem kabsch_improper {H U Vt : Mat3} {S : Vec} (h : IsSvd H U S Vt) (hd : (Vtᵀ * Uᵀ).det = -1) {Q : Mat3}
    (hQ : Qᵀ * Q = 1) (hq : Q.det = 1) : trace (Q * H) ≤ trace ((Vt.updateRow 2 (-Vt 2))ᵀ * Uᵀ * H) := by
  have hW : (Vt * Q * U)ᵀ * (Vt * Q * U) = 1 := orth_mul (orth_mul h.right hQ) h.left
  have hWd : (Vt * Q * U).det = -1 := by
    rw [det_mul, det_mul, hq, mul_one]
    rw [det_mul, det_transpose, det_transpose] at hd
    exact hd
  have e1 : trace (Q * H) = trace (Vt * Q * U * diagonal S) := by
    rw [h.factor, ← Matrix.mul_assoc, ← Matrix.mul_assoc, Matrix.trace_mul_comm, ← Matrix.mul_assoc, ← Matrix.mul_assoc]
  have e2 : trace ((Vt.updateRow 2 (-Vt 2))ᵀ * Uᵀ * H) = trace (diagonal ![1, 1, -1] * diagonal S) := by
    rw [flip_eq, transpose_mul, h.factor, Matrix.mul_assoc, Matrix.mul_assoc U, ← Matrix.mul_assoc Uᵀ, h.left, Matrix.one_mul,
      Matrix.trace_mul_comm, Matrix.mul_assoc, ← Matrix.mul_assoc Vt, orth_comm h.right, Matrix.one_mul, Matrix.diagonal_transpose,
      Matrix.trace_mul_comm]
  rw [e1, e2]
  have := (trace_bound hW h.ge01 h.ge12 h.nonneg).2 hWd
  rw [Matrix.diagonal_mul_diagonal]
  simp [Matrix.trace, Fin.sum_univ_three, Matrix.mul_diagonal] at this ⊢
  linarith

/-! ### Sums over pairs -/

theorem sqDist_nonneg (v w : Vec) : 0 ≤ sqDist v w := by
  simp only [sqDist, dot]
  nlinarith [sq_nonneg ((v - w) 0), sq_nonneg ((v - w) 1), sq_nonneg ((v - w) 2)]

theorem sqDist_eq_zero {v w : Vec} (h : sqDist v w ≤ 0) : v = w := by
  simp only [sqDist, dot, Pi.sub_apply] at h
  have h0 : v 0 - w 0 = 0 := by nlinarith [sq_nonneg (v 0 - w 0), sq_nonneg (v 1 - w 1), sq_nonneg (v 2 - w 2)]
  have h1 : v 1 - w 1 = 0 := by nlinarith [sq_nonneg (v 0 - w 0), sq_nonneg (v 1 - w 1), sq_nonneg (v 2 - w 2)]
  have h2 : v 2 - w 2 = 0 := by nlinarith [sq_nonneg (v 0 - w 0), sq_nonneg (v 1 - w 1), sq_nonneg (v 2 - w 2)]
  ext i
  fin_cases i <;> simp <;> linarith

theorem corr_nil : corr [] = 0 := by ext i j; simp [corr]

theorem corr_cons (x : Vec × Vec) (l : List (Vec × Vec)) : corr (x :: l) = Matrix.of (fun i j => x.1 i * x.2 j) + corr l := by
  ext i j; simp [corr]

theorem sum_dot_rot {q : Quat} (hq : q ≠ 0) (l : List (Vec × Vec)) :
    (l.map fun x => dot (rot q x.1) x.2).sum = trace (rotMat q * corr l) := by
  induction l with
  | nil => simp [corr_nil]
  | cons x l ih =>
    rw [List.map_cons, List.sum_cons, ih, corr_cons, Matrix.mul_add, Matrix.trace_add]
    congr 1
    rw [← rotMat_mulVec hq]
    simp [dot, Matrix.trace, Matrix.mul_apply, Fin.sum_univ_three, Matrix.mulVec, dotProduct]
    ring

theorem sum_sqDist_rot {q : Quat} (hq : q ≠ 0) (l : List (Vec × Vec)) :
    (l.map fun x => sqDist (rot q x.1) x.2).sum =
      (l.map fun x => dot x.1 x.1 + dot x.2 x.2).sum - 2 * trace (rotMat q * corr l) := by
  rw [← sum_dot_rot hq]
  induction l with
  | nil => simp
  | cons x l ih =>
    simp only [List.map_cons, List.sum_cons, ih]
    have : sqDist (rot q x.1) x.2 = dot x.1 x.1 + dot x.2 x.2 - 2 * dot (rot q x.1) x.2 := by
      rw [← dot_rot q hq x.1 x.1]
      simp [sqDist, dot]; ring
    linarith

/-- A rotation with maximal trace is best. -/
theorem best_of_trace {l : List (Vec × Vec)} {q : Quat} (hq : IsUnitQ q)
    (h : ∀ p, IsUnitQ p → trace (rotMat p * corr l) ≤ trace (rotMat q * corr l)) : IsBestRotation l q := by
  refine ⟨hq, fun p hp => ?_⟩
  rw [sum_sqDist_rot hq.ne_zero, sum_sqDist_rot hp.ne_zero]
  linarith [h p hp]

theorem crossCov_eq (l1 l2 : List Vec) : crossCov l1 l2 = corr (l1.zip l2) := by
  ext i j
  simp [crossCov, corr, List.zip, List.map_zipWith]

theorem fitRotation_best {ext : FitExt} (he : FitLaw ext) {l1 l2 : List Vec}
    (hd : ((ext.svd (crossCov l1 l2)).2.2ᵀ * (ext.svd (crossCov l1 l2)).1ᵀ).det = 1) :
    IsBestRotation (l1.zip l2) (fitRotation ext l1 l2) := by
  have hs := he.svd (crossCov l1 l2)
  have ho := orth_mul (orth_transpose hs.right) (orth_transpose hs.left)
  refine best_of_trace (he.unit _) fun p hp => ?_
  have e : rotMat (fitRotation ext l1 l2) = (ext.svd (crossCov l1 l2)).2.2ᵀ * (ext.svd (crossCov l1 l2)).1ᵀ :=
    quatOf_rot he ho hd
  rw [e, ← crossCov_eq]
  exact kabsch_proper hs (rotMat_orth hp)

/-! ### Translations -/

theorem sum_shift {α : Type _} (g : α → Vec) (d : Vec) (l : List α) :
    (l.map fun x => dot (g x + d) (g x + d)).sum = (l.map fun x => dot (g x) (g x)).sum + 2 * dot (l.map g).sum d + l.length * dot d d := by
  induction l with
  | nil => simp [dot]
  | cons x l ih =>
    simp only [List.map_cons, List.sum_cons, ih, List.length_cons, Nat.cast_add, Nat.cast_one]
    simp [dot]; ring

theorem sum_rot_sub {α : Type _} (q : Quat) (f g : α → Vec) (l : List α) :
    (l.map fun x => rot q (f x) - g x).sum = rot q (l.map f).sum - (l.map g).sum := by
  induction l with
  | nil => simp
  | cons x l ih =>
    simp only [List.map_cons, List.sum_cons, ih, rot_add]
    abel

theorem sum_apply {l : List Vec} (i : Fin 3) : l.sum i = (l.map fun v => v i).sum := by
  induction l with
  | nil => simp
  | cons x l ih => simp [ih]

theorem sum_centred {l : List Vec} (h : l ≠ []) : (l.map fun v => v - meanRows l).sum = 0 := by
  have hl : (l.length : ℝ) ≠ 0 := by
    have := List.length_pos_iff.mpr h
    positivity
  have : ∀ (m : Vec) (k : List Vec), (k.map fun v => v - m).sum = k.sum - (k.length : ℝ) • m := by
    intro m k
    induction k with
    | nil => simp
    | cons x k ih =>
      rw [List.map_cons, List.sum_cons, ih, List.sum_cons, List.length_cons, Nat.cast_add, Nat.cast_one, add_smul, one_smul]
      abel
  rw [this]
  ext i
  simp only [Pi.sub_apply, Pi.smul_apply, smul_eq_mul, meanRows, Pi.zero_apply, sum_apply]
  field_simp
  ring

/-- Splitting of the error into the centred part and the shift. -/
theorem error_split {l1 l2 : List Vec} (hl : l1.length = l2.length) (h1 : l1 ≠ []) (P : Pose) :
    ((l1.zip l2).map fun x => sqDist (P.act x.1) x.2).sum =
      (((l1.map fun v => v - meanRows l1).zip (l2.map fun v => v - meanRows l2)).map fun x => sqDist (rot P.r x.1) x.2).sum
      + l1.length * dot (rot P.r (meanRows l1) + P.t - meanRows l2) (rot P.r (meanRows l1) + P.t - meanRows l2) := by
  have h2 : l2 ≠ [] := by rintro rfl; exact h1 (List.length_eq_zero_iff.mp hl)
  set m1 := meanRows l1
  set m2 := meanRows l2
  have key := sum_shift (fun x : Vec × Vec => rot P.r (x.1 - m1) - (x.2 - m2)) (rot P.r m1 + P.t - m2) (l1.zip l2)
  have e1 : ∀ x : Vec × Vec, rot P.r (x.1 - m1) - (x.2 - m2) + (rot P.r m1 + P.t - m2) = P.act x.1 - x.2 := by
    intro x; rw [rot_sub, Pose.act]; abel
  have e0 : ((l1.zip l2).map fun x : Vec × Vec => rot P.r (x.1 - m1) - (x.2 - m2)).sum = 0 := by
    rw [sum_rot_sub]
    have a1 : ((l1.zip l2).map fun x : Vec × Vec => x.1 - m1) = l1.map fun v => v - m1 := by
      have : (fun x : Vec × Vec => x.1 - m1) = (fun v : Vec => v - m1) ∘ Prod.fst := rfl
      rw [this, ← List.map_map, List.map_fst_zip (by omega)]
    have a2 : ((l1.zip l2).map fun x : Vec × Vec => x.2 - m2) = l2.map fun v => v - m2 := by
      have : (fun x : Vec × Vec => x.2 - m2) = (fun v : Vec => v - m2) ∘ Prod.snd := rfl
      rw [this, ← List.map_map, List.map_snd_zip (by omega)]
    rw [a1, a2, sum_centred h1, sum_centred h2, rot_zero, sub_zero]
  simp only [e1, e0] at key
  have z : dot (0 : Vec) (rot P.r m1 + P.t - m2) = 0 := by simp [dot]
  rw [z] at key
  have hlen : (l1.zip l2).length = l1.length := by simp [hl]
  rw [hlen] at key
  have e2 : ((l1.map fun v => v - m1).zip (l2.map fun v => v - m2)).map (fun x => sqDist (rot P.r x.1) x.2) =
      (l1.zip l2).map fun x => dot (rot P.r (x.1 - m1) - (x.2 - m2)) (rot P.r (x.1 - m1) - (x.2 - m2)) := by
    rw [List.zip_map, List.map_map]; rfl
  rw [e2]
  simp only [sqDist]
  linarith

/-- `best_fit_transform` returns a best rigid motion. -/
theorem fitTransform_best {ext : FitExt} (he : FitLaw ext) {l1 l2 : List Vec} (hl : l1.length = l2.length) (h1 : l1 ≠ []) :
    ∃ t r, fitTransform ext l1 l2 = .ok (t, r) ∧ IsBestMotion (l1.zip l2) ⟨t, r⟩ := by
  set H := crossCov (l1.map fun v => v - meanRows l1) (l2.map fun v => v - meanRows l2) with hH
  have hs := he.svd H
  have ho := orth_mul (orth_transpose hs.right) (orth_transpose hs.left)
  obtain ⟨R, hR, hRo, hRd, hbest⟩ : ∃ R : Mat3, (if ((ext.svd H).2.2ᵀ * (ext.svd H).1ᵀ).det < 0 then
      ((ext.svd H).2.2.updateRow 2 (-(ext.svd H).2.2 2))ᵀ * (ext.svd H).1ᵀ else (ext.svd H).2.2ᵀ * (ext.svd H).1ᵀ) = R ∧
      Rᵀ * R = 1 ∧ R.det = 1 ∧ ∀ p, IsUnitQ p → trace (rotMat p * H) ≤ trace (R * H) := by
    refine ⟨_, rfl, ?_⟩
    rcases orth_det ho with hd | hd
    · have : ¬ ((ext.svd H).2.2ᵀ * (ext.svd H).1ᵀ).det < 0 := by rw [hd]; norm_num
      rw [if_neg this]
      exact ⟨ho, hd, fun p hp => kabsch_proper hs (rotMat_orth hp)⟩
    · have : ((ext.svd H).2.2ᵀ * (ext.svd H).1ᵀ).det < 0 := by rw [hd]; norm_num
      rw [if_pos this]
      refine ⟨?_, ?_, fun p hp => kabsch_improper hs hd (rotMat_orth hp) (rotMat_det hp)⟩
      · rw [flip_eq]
        exact orth_mul (orth_transpose (orth_mul flip_orth hs.right)) (orth_transpose hs.left)
      · rw [flip_eq, det_mul, det_transpose, det_transpose, det_mul, Matrix.det_diagonal]
        rw [det_mul, det_transpose, det_transpose] at hd
        simp [Fin.prod_univ_three]
        linarith
  refine ⟨meanRows l2 - R *ᵥ meanRows l1, ext.quatOf R, ?_, he.unit R, ?_⟩
  · rw [fitTransform, if_neg h1]
    simp only [← hH, hR]
  · intro P' hP'
    have hu := he.unit R
    have hq := quatOf_rot he hRo hRd
    rw [error_split hl h1, error_split hl h1]
    have hz : rot (ext.quatOf R) (meanRows l1) + (meanRows l2 - R *ᵥ meanRows l1) - meanRows l2 = 0 := by
      rw [← rotMat_mulVec hu.ne_zero, hq]; abel
    have hbr : IsBestRotation ((l1.map fun v => v - meanRows l1).zip (l2.map fun v => v - meanRows l2)) (ext.quatOf R) := by
      refine best_of_trace hu fun p hp => ?_
      rw [← crossCov_eq, hq]
      exact hbest p hp
    have h3 := hbr.2 P'.r hP'
    simp only [hz]
    have z : dot (0 : Vec) 0 = 0 := by simp [dot]
    rw [z, mul_zero, add_zero]
    have h4 : 0 ≤ (l1.length : ℝ) * dot (rot P'.r (meanRows l1) + P'.t - meanRows l2) (rot P'.r (meanRows l1) + P'.t - meanRows l2) := by
      apply mul_nonneg (Nat.cast_nonneg _)
      have := sqDist_nonneg (rot P'.r (meanRows l1) + P'.t) (meanRows l2)
      simpa [sqDist] using this
    linarith

/-- If an exact motion exists, a best motion is exact. -/
theorem exact_of_best {l : List (Vec × Vec)} {P P0 : Pose} (h : IsBestMotion l P) (hu : IsUnitQ P0.r)
    (he : ∀ x ∈ l, P0.act x.1 = x.2) : ∀ x ∈ l, P.act x.1 = x.2 := by
  have h0 : (l.map fun x => sqDist (P0.act x.1) x.2).sum = 0 := by
    apply List.sum_eq_zero
    intro y hy
    obtain ⟨x, hx, rfl⟩ := List.mem_map.mp hy
    rw [he x hx]; simp [sqDist, dot]
  have h1 := h.2 P0 hu
  rw [h0] at h1
  intro x hx
  apply sqDist_eq_zero
  refine le_trans (List.single_le_sum ?_ _ (List.mem_map.mpr ⟨x, hx, rfl⟩)) h1
  intro y hy
  obtain ⟨z, -, rfl⟩ := List.mem_map.mp hy
  exact sqDist_nonneg _ _

theorem exact_of_bestRot {l : List (Vec × Vec)} {q p : Quat} (h : IsBestRotation l q) (hu : IsUnitQ p)
    (he : ∀ x ∈ l, rot p x.1 = x.2) : ∀ x ∈ l, rot q x.1 = x.2 := by
  have h0 : (l.map fun x => sqDist (rot p x.1) x.2).sum = 0 := by
    apply List.sum_eq_zero
    intro y hy
    obtain ⟨x, hx, rfl⟩ := List.mem_map.mp hy
    rw [he x hx]; simp [sqDist, dot]
  have h1 := h.2 p hu
  rw [h0] at h1
  intro x hx
  apply sqDist_eq_zero
  refine le_trans (List.single_le_sum ?_ _ (List.mem_map.mpr ⟨x, hx, rfl⟩)) h1
  intro y hy
  obtain ⟨z, -, rfl⟩ := List.mem_map.mp hy
  exact sqDist_nonneg _ _

/-- A rotation that fixes two independent vectors is the identity. -/
theorem fixes_two {s : Quat} (hs : IsUnitQ s) {v w : Vec} (hv : rot s v = v) (hw : rot s w = w) (hc : cross v w ≠ 0) :
    s = 1 ∨ s = -1 := by
  have hne := hs.ne_zero
  have comm : ∀ u : Vec, rot s u = u → s.imJ * u 2 - s.imK * u 1 = 0 ∧ s.imK * u 0 - s.imI * u 2 = 0 ∧ s.imI * u 1 - s.imJ * u 0 = 0 := by
    intro u hu
    have := pure_rot s hne u
    rw [hu] at this
    have h2 : Spec.pure u * s = s * Spec.pure u := by
      calc Spec.pure u * s = s * Spec.pure u * s⁻¹ * s := by rw [← this]
        _ = _ := by rw [mul_assoc (s * Spec.pure u), inv_mul_cancel₀ hne, mul_one]
    have a := congrArg (·.imI) h2; have b := congrArg (·.imJ) h2; have c := congrArg (·.imK) h2
    simp at a b c
    refine ⟨?_, ?_, ?_⟩ <;> linarith
  obtain ⟨a1, a2, a3⟩ := comm v hv
  obtain ⟨b1, b2, b3⟩ := comm w hw
  have hn : s.re ^ 2 + s.imI ^ 2 + s.imJ ^ 2 + s.imK ^ 2 = 1 := hs
  have hz : s.imI = 0 ∧ s.imJ = 0 ∧ s.imK = 0 := by
    by_contra hcon
    apply hc
    have tw : ∀ n : ℝ, n * s.imI = 0 → n * s.imJ = 0 → n * s.imK = 0 → n = 0 := by
      intro n h1 h2 h3
      by_contra hn0
      exact hcon ⟨(mul_eq_zero.mp h1).resolve_left hn0, (mul_eq_zero.mp h2).resolve_left hn0, (mul_eq_zero.mp h3).resolve_left hn0⟩
    have c0 : v 1 * w 2 - v 2 * w 1 = 0 := by apply tw <;> grind
    have c1 : v 2 * w 0 - v 0 * w 2 = 0 := by apply tw <;> grind
    have c2 : v 0 * w 1 - v 1 * w 0 = 0 := by apply tw <;> grind
    ext i
    fin_cases i <;> simp [cross, c0, c1, c2]
  obtain ⟨z1, z2, z3⟩ := hz
  rw [z1, z2, z3] at hn
  have : s.re = 1 ∨ s.re = -1 := by
    have : (s.re - 1) * (s.re + 1) = 0 := by linarith
    rcases mul_eq_zero.mp this with h | h
    · left; linarith
    · right; linarith
  rcases this with h | h
  · left; ext <;> simp [h, z1, z2, z3]
  · right; ext <;> simp [h, z1, z2, z3]

end RBM
