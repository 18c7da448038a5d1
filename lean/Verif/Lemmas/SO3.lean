import Verif.Spec.Rigid
import Verif.Lemmas.Rigid
import Mathlib.LinearAlgebra.Matrix.Adjugate
import Mathlib.LinearAlgebra.Matrix.Trace

/-!
Orthogonal 3 × 3 matrices: trace inequalities and the quaternion of a rotation matrix.
-/

namespace RBM

open Matrix RBM.Spec

abbrev M3 := Matrix (Fin 3) (Fin 3) ℝ

/-- Entry equations of an orthogonal matrix. -/
theorem orth_entries {A : M3} (h : Aᵀ * A = 1) (i j : Fin 3) :
    A 0 i * A 0 j + A 1 i * A 1 j + A 2 i * A 2 j = if i = j then 1 else 0 := by
  have := congrFun (congrFun h i) j
  simpa [Matrix.mul_apply, Fin.sum_univ_three, Matrix.one_apply] using this

theorem orth_comm {A : M3} (h : Aᵀ * A = 1) : A * Aᵀ = 1 := mul_eq_one_comm.mp h

theorem orth_transpose {A : M3} (h : Aᵀ * A = 1) : Aᵀᵀ * Aᵀ = 1 := by
  rw [transpose_transpose]; exact orth_comm h

theorem orth_mul {A B : M3} (hA : Aᵀ * A = 1) (hB : Bᵀ * B = 1) : (A * B)ᵀ * (A * B) = 1 := by
  rw [transpose_mul, Matrix.mul_assoc, ← Matrix.mul_assoc Aᵀ, hA, Matrix.one_mul, hB]

theorem orth_det {A : M3} (h : Aᵀ * A = 1) : A.det = 1 ∨ A.det = -1 := by
  have := congrArg Matrix.det h
  rw [det_mul, det_transpose, det_one] at this
  exact mul_self_eq_one_iff.mp this

/-- The cofactor matrix of an orthogonal matrix. -/
theorem orth_adj {A : M3} (h : Aᵀ * A = 1) : adjugate A = A.det • Aᵀ := by
  have h1 : Aᵀ * (A * adjugate A) = A.det • Aᵀ := by
    rw [mul_adjugate, Matrix.mul_smul, Matrix.mul_one]
  rwa [← Matrix.mul_assoc, h, Matrix.one_mul] at h1

theorem orth_cof {A : M3} (h : Aᵀ * A = 1) :
    A 1 1 * A 2 2 - A 1 2 * A 2 1 = A.det * A 0 0 ∧ A 0 0 * A 2 2 - A 0 2 * A 2 0 = A.det * A 1 1 ∧
    A 0 0 * A 1 1 - A 0 1 * A 1 0 = A.det * A 2 2 ∧
    A 0 2 * A 1 0 - A 0 0 * A 1 2 = A.det * A 2 1 ∧ A 0 1 * A 2 0 - A 0 0 * A 2 1 = A.det * A 1 2 ∧
    A 1 2 * A 2 0 - A 1 0 * A 2 2 = A.det * A 0 1 ∧ A 0 2 * A 2 1 - A 0 1 * A 2 2 = A.det * A 1 0 ∧
    A 1 0 * A 2 1 - A 1 1 * A 2 0 = A.det * A 0 2 ∧ A 0 1 * A 1 2 - A 0 2 * A 1 1 = A.det * A 2 0 := by
  have e := orth_adj h
  rw [adjugate_fin_three] at e
  have f := fun i j => congrFun (congrFun e i) j
  have f00 := f 0 0; have f11 := f 1 1; have f22 := f 2 2
  have f01 := f 0 1; have f02 := f 0 2; have f10 := f 1 0
  have f12 := f 1 2; have f20 := f 2 0; have f21 := f 2 1
  simp at f00 f11 f22 f01 f02 f10 f12 f20 f21
  refine ⟨?_, ?_, ?_, ?_, ?_, ?_, ?_, ?_, ?_⟩ <;> linarith

theorem orth_diag_le {A : M3} (h : Aᵀ * A = 1) (i : Fin 3) : A i i ≤ 1 := by
  have e := orth_entries h i i
  simp only [if_true] at e
  fin_cases i <;> simp at e ⊢ <;> nlinarith [sq_nonneg (A 0 0 - 1), sq_nonneg (A 1 0), sq_nonneg (A 2 0), sq_nonneg (A 0 1),
    sq_nonneg (A 1 1 - 1), sq_nonneg (A 2 1), sq_nonneg (A 0 2), sq_nonneg (A 1 2), sq_nonneg (A 2 2 - 1)]

/-- A reflection has trace at most one. -/
theorem refl_trace {A : M3} (h : Aᵀ * A = 1) (hd : A.det = -1) : A 0 0 + A 1 1 + A 2 2 ≤ 1 := by
  obtain ⟨c0, c1, c2, -⟩ := orth_cof h
  rw [hd] at c0 c1 c2
  have e0 := orth_entries h 0 0; have e1 := orth_entries h 1 1; have e2 := orth_entries h 2 2
  simp only [if_true] at e0 e1 e2
  generalize A 0 0 = a at *
  generalize A 0 1 = b at *
  generalize A 0 2 = c at *
  generalize A 1 0 = d at *
  generalize A 1 1 = e at *
  generalize A 1 2 = f at *
  generalize A 2 0 = g at *
  generalize A 2 1 = k at *
  generalize A 2 2 = l at *
  have key : (a + e + l) ^ 2 + 2 * (a + e + l) - 3 = -((b - d) ^ 2 + (c - g) ^ 2 + (f - k) ^ 2) := by
    linear_combination 2 * c0 + 2 * c1 + 2 * c2 + e0 + e1 + e2
  have h1 : 0 ≤ (b - d) ^ 2 + (c - g) ^ 2 + (f - k) ^ 2 := by positivity
  clear c0 c1 c2 e0 e1 e2
  by_contra hc
  nlinarith

/-- tr (W S) for proper and improper W and descending nonnegative S. -/
theorem trace_bound {W : M3} (h : Wᵀ * W = 1) {s0 s1 s2 : ℝ} (h0 : s1 ≤ s0) (h1 : s2 ≤ s1) (h2 : 0 ≤ s2) :
    W 0 0 * s0 + W 1 1 * s1 + W 2 2 * s2 ≤ s0 + s1 + s2 ∧
    (W.det = -1 → W 0 0 * s0 + W 1 1 * s1 + W 2 2 * s2 ≤ s0 + s1 - s2) := by
  have a := orth_diag_le h 0; have b := orth_diag_le h 1; have c := orth_diag_le h 2
  refine ⟨by nlinarith, fun hd => ?_⟩
  have t := refl_trace h hd
  nlinarith

/-! ### Rotation matrices and quaternions -/

theorem rotMat_unit {q : Quat} (hq : IsUnitQ q) :
    rotMat q = !![1 - 2 * (q.imJ * q.imJ + q.imK * q.imK), 2 * (q.imI * q.imJ - q.imK * q.re), 2 * (q.imI * q.imK + q.imJ * q.re);
     2 * (q.imI * q.imJ + q.imK * q.re), 1 - 2 * (q.imI * q.imI + q.imK * q.imK), 2 * (q.imJ * q.imK - q.imI * q.re);
     2 * (q.imI * q.imK - q.imJ * q.re), 2 * (q.imJ * q.imK + q.imI * q.re), 1 - 2 * (q.imI * q.imI + q.imJ * q.imJ)] := by
  have hn : q.re * q.re + q.imI * q.imI + q.imJ * q.imJ + q.imK * q.imK = 1 := by
    have : nsq q = 1 := hq
    rw [nsq] at this
    linarith
  simp only [rotMat, hn, div_one]

theorem rotMat_orth {q : Quat} (hq : IsUnitQ q) : (rotMat q)ᵀ * rotMat q = 1 := by
  rw [rotMat_unit hq]
  have hn : q.re ^ 2 + q.imI ^ 2 + q.imJ ^ 2 + q.imK ^ 2 = 1 := hq
  generalize q.re = w at hn; generalize q.imI = x at hn; generalize q.imJ = y at hn; generalize q.imK = z at hn
  have hw : w ^ 2 = 1 - x ^ 2 - y ^ 2 - z ^ 2 := by linarith
  ext i j
  fin_cases i <;> fin_cases j <;> simp [Matrix.mul_apply, Fin.sum_univ_three] <;> ring_nf <;> rw [hw] <;> ring

theorem rotMat_det {q : Quat} (hq : IsUnitQ q) : (rotMat q).det = 1 := by
  rw [rotMat_unit hq]
  have hn : q.re ^ 2 + q.imI ^ 2 + q.imJ ^ 2 + q.imK ^ 2 = 1 := hq
  generalize q.re = w at hn; generalize q.imI = x at hn; generalize q.imJ = y at hn; generalize q.imK = z at hn
  have hw : w ^ 2 = 1 - x ^ 2 - y ^ 2 - z ^ 2 := by linarith
  rw [det_fin_three]
  simp
  ring_nf
  rw [hw]
  ring

theorem rotMat_mulVec {q : Quat} (hq : q ≠ 0) (v : Vec) : rotMat q *ᵥ v = rot q v := rotMat_eq_rot q hq v

theorem exists_quat_trace {A : M3} (h : Aᵀ * A = 1) (hd : A.det = 1) (ht : 0 < 1 + A 0 0 + A 1 1 + A 2 2) :
    ∃ q, IsUnitQ q ∧ rotMat q = A := by
  obtain ⟨w, hw, hw2⟩ : ∃ w : ℝ, 0 < w ∧ 4 * w ^ 2 = 1 + A 0 0 + A 1 1 + A 2 2 := by
    refine ⟨Real.sqrt (1 + A 0 0 + A 1 1 + A 2 2) / 2, by positivity, ?_⟩
    rw [div_pow, Real.sq_sqrt ht.le]; ring
  obtain ⟨c0, c1, c2, c3, c4, c5, c6, c7, c8⟩ := orth_cof h
  have o := orth_entries h
  have p := orth_entries (orth_transpose h)
  have o00 := o 0 0; have o11 := o 1 1; have o22 := o 2 2; have o01 := o 0 1; have o02 := o 0 2; have o12 := o 1 2
  have p00 := p 0 0; have p11 := p 1 1; have p22 := p 2 2; have p01 := p 0 1; have p02 := p 0 2; have p12 := p 1 2
  simp only [transpose_apply] at p00 p11 p22 p01 p02 p12
  simp at o00 o11 o22 o01 o02 o12 p00 p11 p22 p01 p02 p12
  rw [hd] at c0 c1 c2 c3 c4 c5 c6 c7 c8
  set x := (A 2 1 - A 1 2) / (4 * w) with hx
  set y := (A 0 2 - A 2 0) / (4 * w) with hy
  set z := (A 1 0 - A 0 1) / (4 * w) with hz
  have wx : 4 * w * x = A 2 1 - A 1 2 := by rw [hx]; field_simp
  have wy : 4 * w * y = A 0 2 - A 2 0 := by rw [hy]; field_simp
  have wz : 4 * w * z = A 1 0 - A 0 1 := by rw [hz]; field_simp
  clear_value x y z
  have w0 : w ^ 2 ≠ 0 := by positivity
  have hn : w ^ 2 + x ^ 2 + y ^ 2 + z ^ 2 = 1 := by
    apply mul_left_cancel₀ w0
    have e1 : 16 * (w ^ 2 * x ^ 2) = (A 2 1 - A 1 2) ^ 2 := by rw [← wx]; ring
    have e2 : 16 * (w ^ 2 * y ^ 2) = (A 0 2 - A 2 0) ^ 2 := by rw [← wy]; ring
    have e3 : 16 * (w ^ 2 * z ^ 2) = (A 1 0 - A 0 1) ^ 2 := by rw [← wz]; ring
    have e4 : 16 * (w ^ 2 * w ^ 2) = (1 + A 0 0 + A 1 1 + A 2 2) ^ 2 := by rw [← hw2]; ring
    have e5 : (1 + A 0 0 + A 1 1 + A 2 2) ^ 2 + (A 2 1 - A 1 2) ^ 2 + (A 0 2 - A 2 0) ^ 2 + (A 1 0 - A 0 1) ^ 2
        = 4 * (1 + A 0 0 + A 1 1 + A 2 2) := by
      linear_combination o00 + o11 + o22 + 2 * c0 + 2 * c1 + 2 * c2
    linarith
  have big : ∀ (u v a : ℝ), 16 * w ^ 2 * (u * v) = 4 * (1 + A 0 0 + A 1 1 + A 2 2) * a → u * v = a := by
    intro u v a ha
    rw [← hw2] at ha
    have : 16 * w ^ 2 ≠ 0 := by positivity
    apply mul_left_cancel₀ this
    linarith
  have xy : x * y = (A 0 1 + A 1 0) / 4 := by
    apply big
    have : 16 * w ^ 2 * (x * y) = (A 2 1 - A 1 2) * (A 0 2 - A 2 0) := by rw [← wx, ← wy]; ring
    rw [this]; linear_combination c6 + c5 - o01 - p01
  have xz : x * z = (A 0 2 + A 2 0) / 4 := by
    apply big
    have : 16 * w ^ 2 * (x * z) = (A 2 1 - A 1 2) * (A 1 0 - A 0 1) := by rw [← wx, ← wz]; ring
    rw [this]; linear_combination c7 + c8 - o02 - p02
  have yz : y * z = (A 1 2 + A 2 1) / 4 := by
    apply big
    have : 16 * w ^ 2 * (y * z) = (A 0 2 - A 2 0) * (A 1 0 - A 0 1) := by rw [← wy, ← wz]; ring
    rw [this]; linear_combination c3 + c4 - o12 - p12
  have xx : x * x = (1 + A 0 0 - A 1 1 - A 2 2) / 4 := by
    apply big
    have : 16 * w ^ 2 * (x * x) = (A 2 1 - A 1 2) ^ 2 := by rw [← wx]; ring
    rw [this]; linear_combination o11 + o22 - p00 - c0 * 0 + 2 * c0 - 2 * c1 * 0
  have yy : y * y = (1 - A 0 0 + A 1 1 - A 2 2) / 4 := by
    apply big
    have : 16 * w ^ 2 * (y * y) = (A 0 2 - A 2 0) ^ 2 := by rw [← wy]; ring
    rw [this]; linear_combination o00 + o22 - p11 + 2 * c1
  have zz : z * z = (1 - A 0 0 - A 1 1 + A 2 2) / 4 := by
    apply big
    have : 16 * w ^ 2 * (z * z) = (A 1 0 - A 0 1) ^ 2 := by rw [← wz]; ring
    rw [this]; linear_combination o00 + o11 - p22 + 2 * c2
  refine ⟨⟨w, x, y, z⟩, hn, ?_⟩
  have hu : IsUnitQ (⟨w, x, y, z⟩ : Quat) := hn
  rw [rotMat_unit hu]
  ext i j
  fin_cases i <;> fin_cases j <;> simp <;> linarith

/-- Every rotation matrix comes from a unit quaternion. -/
theorem exists_quat {A : M3} (h : Aᵀ * A = 1) (hd : A.det = 1) : ∃ q, IsUnitQ q ∧ rotMat q = A := by
  have step : ∀ p : Quat, IsUnitQ p → 0 < 1 + (A * rotMat p) 0 0 + (A * rotMat p) 1 1 + (A * rotMat p) 2 2 →
      ∃ q, IsUnitQ q ∧ rotMat q = A := by
    intro p hp ht
    obtain ⟨q, hq, e⟩ := exists_quat_trace (orth_mul h (rotMat_orth hp)) (by rw [det_mul, hd, rotMat_det hp, one_mul]) ht
    refine ⟨q * p⁻¹, hq.mul hp.inv, ?_⟩
    have hi : rotMat p * rotMat p⁻¹ = 1 := by
      apply Matrix.ext_of_mulVec_single
      intro j
      rw [← Matrix.mulVec_mulVec, rotMat_mulVec hp.inv.ne_zero, rotMat_mulVec hp.ne_zero, rot_rot_inv _ hp.ne_zero, Matrix.one_mulVec]
    have hm : rotMat (q * p⁻¹) = rotMat q * rotMat p⁻¹ := by
      apply Matrix.ext_of_mulVec_single
      intro j
      rw [← Matrix.mulVec_mulVec, rotMat_mulVec (hq.mul hp.inv).ne_zero, rotMat_mulVec hp.inv.ne_zero, rotMat_mulVec hq.ne_zero,
        rot_mul _ _ hq.ne_zero hp.inv.ne_zero]
    rw [hm, e, Matrix.mul_assoc, hi, Matrix.mul_one]
  have u0 : IsUnitQ (1 : Quat) := isUnitQ_one
  have u1 : IsUnitQ (⟨0, 1, 0, 0⟩ : Quat) := by simp [IsUnitQ, nsq]
  have u2 : IsUnitQ (⟨0, 0, 1, 0⟩ : Quat) := by simp [IsUnitQ, nsq]
  have u3 : IsUnitQ (⟨0, 0, 0, 1⟩ : Quat) := by simp [IsUnitQ, nsq]
  by_contra hc
  have n0 : ¬ _ := fun hh => hc (step _ u0 hh)
  have n1 : ¬ _ := fun hh => hc (step _ u1 hh)
  have n2 : ¬ _ := fun hh => hc (step _ u2 hh)
  have n3 : ¬ _ := fun hh => hc (step _ u3 hh)
  rw [rotMat_unit u0] at n0
  rw [rotMat_unit u1] at n1
  rw [rotMat_unit u2] at n2
  rw [rotMat_unit u3] at n3
  simp [Matrix.mul_apply, Fin.sum_univ_three] at n0 n1 n2 n3
  norm_num at n0 n1 n2 n3
  linarith

end RBM
