import Verif.Spec.Rigid
import Mathlib.Tactic.FieldSimp
import Mathlib.Tactic.LinearCombination

namespace RBM

open Spec Matrix

@[simp] theorem q0_re : (0 : Quat).re = 0 := rfl
@[simp] theorem q0_imI : (0 : Quat).imI = 0 := rfl
@[simp] theorem q0_imJ : (0 : Quat).imJ = 0 := rfl
@[simp] theorem q0_imK : (0 : Quat).imK = 0 := rfl
@[simp] theorem q1_re : (1 : Quat).re = 1 := rfl
@[simp] theorem q1_imI : (1 : Quat).imI = 0 := rfl
@[simp] theorem q1_imJ : (1 : Quat).imJ = 0 := rfl
@[simp] theorem q1_imK : (1 : Quat).imK = 0 := rfl

theorem nsq_eq_normSq (q : Quat) : nsq q = Quaternion.normSq q := by
  simp [nsq, Quaternion.normSq_def']

theorem nsq_pos {q : Quat} (h : q ≠ 0) : 0 < nsq q := by
  rw [nsq_eq_normSq]
  exact lt_of_le_of_ne Quaternion.normSq_nonneg (fun h' => h (Quaternion.normSq_eq_zero.mp h'.symm))

theorem nsq_ne_zero {q : Quat} (h : q ≠ 0) : nsq q ≠ 0 := (nsq_pos h).ne'

theorem nsq_eq_zero {q : Quat} : nsq q = 0 ↔ q = 0 := by
  rw [nsq_eq_normSq, Quaternion.normSq_eq_zero]

theorem nsq_mul (a b : Quat) : nsq (a * b) = nsq a * nsq b := by
  simp [nsq_eq_normSq]

theorem nsq_inv (a : Quat) : nsq a⁻¹ = (nsq a)⁻¹ := by
  simp [nsq_eq_normSq]

theorem Spec.IsUnitQ.ne_zero {q : Quat} (h : IsUnitQ q) : q ≠ 0 := by
  rintro rfl; simp [IsUnitQ, nsq] at h

theorem Spec.IsUnitQ.mul {a b : Quat} (ha : IsUnitQ a) (hb : IsUnitQ b) : IsUnitQ (a * b) := by
  unfold IsUnitQ at *; rw [nsq_mul, ha, hb, one_mul]

theorem Spec.IsUnitQ.inv {a : Quat} (ha : IsUnitQ a) : IsUnitQ a⁻¹ := by
  unfold IsUnitQ at *; rw [nsq_inv, ha, inv_one]

theorem isUnitQ_one : IsUnitQ (1 : Quat) := by simp [IsUnitQ, nsq]

theorem inv_re (q : Quat) : (q⁻¹).re = q.re / nsq q := by
  simp [nsq_eq_normSq, Quaternion.inv_def, div_eq_inv_mul]
theorem inv_imI (q : Quat) : (q⁻¹).imI = - q.imI / nsq q := by
  simp [nsq_eq_normSq, Quaternion.inv_def, div_eq_inv_mul]
theorem inv_imJ (q : Quat) : (q⁻¹).imJ = - q.imJ / nsq q := by
  simp [nsq_eq_normSq, Quaternion.inv_def, div_eq_inv_mul]
theorem inv_imK (q : Quat) : (q⁻¹).imK = - q.imK / nsq q := by
  simp [nsq_eq_normSq, Quaternion.inv_def, div_eq_inv_mul]

@[simp] theorem pure_re (v : Vec) : (Spec.pure v).re = 0 := rfl
@[simp] theorem pure_imI (v : Vec) : (Spec.pure v).imI = v 0 := rfl
@[simp] theorem pure_imJ (v : Vec) : (Spec.pure v).imJ = v 1 := rfl
@[simp] theorem pure_imK (v : Vec) : (Spec.pure v).imK = v 2 := rfl

theorem pure_rot (q : Quat) (hq : q ≠ 0) (v : Vec) : Spec.pure (rot q v) = q * Spec.pure v * q⁻¹ := by
  have h := nsq_ne_zero hq
  ext <;> simp [rot, inv_re, inv_imI, inv_imJ, inv_imK]
  field_simp
  ring

theorem rot_eq_iff (q : Quat) (hq : q ≠ 0) (v w : Vec) :
    rot q v = w ↔ q * Spec.pure v * q⁻¹ = Spec.pure w := by
  rw [← pure_rot q hq]
  constructor
  · rintro rfl; rfl
  · intro h
    funext i
    have h1 := congrArg (fun x : Quat => x.imI) h
    have h2 := congrArg (fun x : Quat => x.imJ) h
    have h3 := congrArg (fun x : Quat => x.imK) h
    simp at h1 h2 h3
    fin_cases i <;> assumption

theorem rot_mul (a b : Quat) (ha : a ≠ 0) (hb : b ≠ 0) (v : Vec) :
    rot (a * b) v = rot a (rot b v) := by
  rw [rot_eq_iff _ (mul_ne_zero ha hb), pure_rot _ ha, pure_rot _ hb, _root_.mul_inv_rev]
  simp [mul_assoc]

@[simp] theorem rot_one (v : Vec) : rot 1 v = v := by
  funext i; fin_cases i <;> simp [rot]

theorem rot_inv_rot (a : Quat) (ha : a ≠ 0) (v : Vec) : rot a⁻¹ (rot a v) = v := by
  rw [← rot_mul _ _ (inv_ne_zero ha) ha, inv_mul_cancel₀ ha, rot_one]

theorem rot_rot_inv (a : Quat) (ha : a ≠ 0) (v : Vec) : rot a (rot a⁻¹ v) = v := by
  rw [← rot_mul _ _ ha (inv_ne_zero ha), mul_inv_cancel₀ ha, rot_one]

theorem pure_add (v w : Vec) : Spec.pure (v + w) = Spec.pure v + Spec.pure w := by
  ext <;> simp
theorem pure_smul (c : ℝ) (w : Vec) : Spec.pure (c • w) = c • Spec.pure w := by
  ext <;> simp

theorem rot_add (q : Quat) (v w : Vec) : rot q (v + w) = rot q v + rot q w := by
  funext i
  fin_cases i <;> simp [rot] <;> ring

theorem rot_smul (q : Quat) (c : ℝ) (w : Vec) : rot q (c • w) = c • rot q w := by
  funext i
  fin_cases i <;> simp [rot] <;> ring

theorem rot_neg (q : Quat) (w : Vec) : rot q (-w) = - rot q w := by
  have := rot_smul q (-1) w; simpa using this

theorem rot_sub (q : Quat) (v w : Vec) : rot q (v - w) = rot q v - rot q w := by
  rw [sub_eq_add_neg, rot_add, rot_neg, sub_eq_add_neg]

@[simp] theorem rot_zero (q : Quat) : rot q 0 = 0 := by
  have := rot_smul q 0 0; simpa using this

theorem rotMat_eq_rot (q : Quat) (hq : q ≠ 0) (v : Vec) : rotateMatrixForm q v = rot q v := by
  have h := nsq_ne_zero hq
  have h' : q.re * q.re + q.imI * q.imI + q.imJ * q.imJ + q.imK * q.imK = nsq q := by
    simp [nsq]; ring
  funext i
  fin_cases i <;>
    simp [rotateMatrixForm, rotMat, h', rot, inv_re, inv_imI, inv_imJ, inv_imK,
      Matrix.mulVec, dotProduct, Fin.sum_univ_three] <;> field_simp <;> simp [nsq] <;> ring

theorem crossForm_eq_rot (q : Quat) (hq : IsUnitQ q) (v : Vec) : rotateCrossForm q v = rot q v := by
  have h : nsq q = 1 := hq
  have h2 : q.re ^ 2 + q.imI ^2 + q.imJ ^2 + q.imK ^2 = 1 := h
  have h' : q.re * q.re + q.imI * q.imI + q.imJ * q.imJ + q.imK * q.imK = 1 := by
    linear_combination h2
  funext i
  fin_cases i <;>
    simp [rotateCrossForm, h', rot, inv_re, inv_imI, inv_imJ, inv_imK, h, imVec,
      crossProduct, vecHead, vecTail]
  · linear_combination (-v 0) * h2
  · linear_combination (-v 1) * h2
  · linear_combination (-v 2) * h2

theorem dot_rot (q : Quat) (hq : q ≠ 0) (v w : Vec) : dot (rot q v) (rot q w) = dot v w := by
  have h := nsq_ne_zero hq
  simp [dot, rot, inv_re, inv_imI, inv_imJ, inv_imK]
  field_simp
  simp [nsq]
  ring

theorem cross_rot (q : Quat) (hq : q ≠ 0) (v w : Vec) :
    Spec.cross (rot q v) (rot q w) = rot q (Spec.cross v w) := by
  have h := nsq_ne_zero hq
  funext i
  fin_cases i <;>
  simp [Spec.cross, rot, inv_re, inv_imI, inv_imJ, inv_imK] <;>
  field_simp <;>
  simp [nsq] <;>
  ring

end RBM
