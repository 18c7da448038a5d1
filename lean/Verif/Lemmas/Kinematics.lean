import Verif.Spec.Kinematics
import Verif.Lemmas.Rigid
import Mathlib.Analysis.Calculus.Deriv.Prod
import Mathlib.Analysis.Calculus.Deriv.Add
import Mathlib.Topology.Algebra.Module.FiniteDimension

namespace RBM

open Spec

/-- The vector part of a quaternion, as a linear map. -/
def imVecL : Quat →ₗ[ℝ] Vec where
  toFun := imVec
  map_add' a b := by ext i; fin_cases i <;> simp [imVec]
  map_smul' c a := by ext i; fin_cases i <;> simp [imVec]

theorem hasDerivAt_imVec {F : ℝ → Quat} {F' : Quat} {τ : ℝ} (h : HasDerivAt F F' τ) : HasDerivAt (fun t => imVec (F t)) (imVec F') τ :=
  (LinearMap.toContinuousLinearMap imVecL).hasFDerivAt.comp_hasDerivAt τ h

theorem rot_unit {q : Quat} (hq : IsUnitQ q) (v : Vec) : rot q v = imVec (q * Spec.pure v * star q) := by
  have : q⁻¹ = star q := by
    rw [Quaternion.instInv]
    have : Quaternion.normSq q = 1 := by rw [← nsq_eq_normSq]; exact hq
    simp [this]
  rw [← this]; rfl

theorem unit_mul_star {q : Quat} (hq : IsUnitQ q) : q * star q = 1 ∧ star q * q = 1 := by
  have h : Quaternion.normSq q = 1 := by rw [← nsq_eq_normSq]; exact hq
  constructor
  · rw [Quaternion.self_mul_star, h]; rfl
  · rw [Quaternion.star_mul_self, h]; rfl

/-- A pure quaternion is that of its vector part. -/
theorem pure_imVec {q : Quat} (h : q.re = 0) : Spec.pure (imVec q) = q := by
  ext <;> simp [Spec.pure, imVec, h]

theorem comm_cross (v w : Vec) : Spec.pure v * Spec.pure w - Spec.pure w * Spec.pure v = (2 : ℝ) • Spec.pure (cross v w) := by
  have c0 : ∀ u, (Spec.pure u).re = 0 := fun _ => rfl
  have c1 : ∀ u, (Spec.pure u).imI = u 0 := fun _ => rfl
  have c2 : ∀ u, (Spec.pure u).imJ = u 1 := fun _ => rfl
  have c3 : ∀ u, (Spec.pure u).imK = u 2 := fun _ => rfl
  ext <;> simp only [Quaternion.re_sub, Quaternion.imI_sub, Quaternion.imJ_sub, Quaternion.imK_sub, Quaternion.re_mul, Quaternion.imI_mul,
    Quaternion.imJ_mul, Quaternion.imK_mul, Quaternion.re_smul, Quaternion.imI_smul, Quaternion.imJ_smul, Quaternion.imK_smul, c0, c1, c2, c3,
    smul_eq_mul] <;> simp [cross] <;> ring

/-- Conjugation, as a linear map. -/
def starL : Quat →ₗ[ℝ] Quat where
  toFun := star
  map_add' a b := star_add a b
  map_smul' c a := by ext <;> simp

theorem hasDerivAt_conj {F : ℝ → Quat} {F' : Quat} {τ : ℝ} (h : HasDerivAt F F' τ) : HasDerivAt (fun t => star (F t)) (star F') τ :=
  (LinearMap.toContinuousLinearMap starL).hasFDerivAt.comp_hasDerivAt τ h

/-- The rate of a curve of unit quaternions is tangent. -/
theorem unit_rate {q : ℝ → Quat} {q' : Quat} {τ : ℝ} (hq : ∀ t, IsUnitQ (q t)) (hd : HasDerivAt q q' τ) :
    (star (q τ) * q').re = 0 := by
  have h1 : HasDerivAt (fun t => star (q t) * q t) (star q' * q τ + star (q τ) * q') τ := (hasDerivAt_conj hd).mul hd
  have h2 : (fun t => star (q t) * q t) = fun _ => (1 : Quat) := funext fun t => (unit_mul_star (hq t)).2
  rw [h2] at h1
  have h3 := h1.unique (hasDerivAt_const τ (1 : Quat))
  have h4 : (star q' * q τ).re = (star (q τ) * q').re := by simp; ring
  have h5 : (star q' * q τ + star (q τ) * q').re = 0 := by rw [h3]; rfl
  rw [Quaternion.re_add, h4] at h5
  linarith

/-- The angular velocity is the vector part of twice the conjugate times the rate. -/
theorem bodyRate_of_deriv {q : ℝ → Quat} {q' : Quat} {τ : ℝ} (hq : ∀ t, IsUnitQ (q t)) (hd : HasDerivAt q q' τ) :
    IsBodyRate q τ (imVec ((2 : ℝ) • (star (q τ) * q'))) := by
  intro p
  have h0 := unit_rate hq hd
  set Ω := star (q τ) * q' with hΩ
  have hq' : q' = q τ * Ω := by rw [hΩ, ← mul_assoc, (unit_mul_star (hq τ)).1, one_mul]
  have hst : star Ω = -Ω := by
    ext
    · simp only [Quaternion.re_star, Quaternion.re_neg, h0, neg_zero]
    · simp
    · simp
    · simp
  have hp : Spec.pure (imVec ((2 : ℝ) • Ω)) = (2 : ℝ) • Ω := pure_imVec (by simp [h0])
  have h1 : HasDerivAt (fun t => q t * Spec.pure p * star (q t)) (q' * Spec.pure p * star (q τ) + q τ * Spec.pure p * star q') τ :=
    (hd.mul_const _).mul (hasDerivAt_conj hd)
  have h2 := hasDerivAt_imVec h1
  have e1 : (fun t => rot (q t) p) = fun t => imVec (q t * Spec.pure p * star (q t)) := funext fun t => rot_unit (hq t) p
  rw [e1, rot_unit (hq τ)]
  have hc := comm_cross (imVec ((2 : ℝ) • Ω)) p
  rw [hp] at hc
  have hc' : Spec.pure (cross (imVec ((2 : ℝ) • Ω)) p) = Ω * Spec.pure p - Spec.pure p * Ω := by
    have : (2 : ℝ) • (Ω * Spec.pure p - Spec.pure p * Ω) = (2 : ℝ) • Spec.pure (cross (imVec ((2 : ℝ) • Ω)) p) := by
      rw [← hc, smul_sub, smul_mul_assoc, mul_smul_comm]
    exact (smul_right_injective Quat (two_ne_zero' ℝ) this).symm
  rw [hc']
  have e2 : q' * Spec.pure p * star (q τ) + q τ * Spec.pure p * star q' = q τ * (Ω * Spec.pure p - Spec.pure p * Ω) * star (q τ) := by
    rw [hq', star_mul, hst]
    noncomm_ring
  rwa [e2] at h2

theorem cross_lin (u : Vec) : (∀ v w, cross u (v + w) = cross u v + cross u w) ∧ (∀ (c : ℝ) v, cross u (c • v) = c • cross u v) ∧
    (∀ v w, cross (v + w) u = cross v u + cross w u) := by
  refine ⟨fun v w => ?_, fun c v => ?_, fun v w => ?_⟩ <;> (ext i; fin_cases i <;> simp [cross] <;> ring)

theorem vec_basis (v : Vec) : v = v 0 • ![1, 0, 0] + v 1 • ![0, 1, 0] + v 2 • ![0, 0, 1] := by
  ext i; fin_cases i <;> simp

/-- Transport theorem: rate of a moving point of a rotating frame. -/
theorem Spec.IsBodyRate.transport {q : ℝ → Quat} {τ : ℝ} {ω : Vec} (hω : IsBodyRate q τ ω) {w : ℝ → Vec} {w' : Vec} (hw : HasDerivAt w w' τ) :
    HasDerivAt (fun t => rot (q t) (w t)) (rot (q τ) (cross ω (w τ)) + rot (q τ) w') τ := by
  have hwi : ∀ i, HasDerivAt (fun t => w t i) (w' i) τ := fun i => (hasDerivAt_pi.mp hw) i
  have e : (fun t => rot (q t) (w t)) = fun t => w t 0 • rot (q t) ![1, 0, 0] + w t 1 • rot (q t) ![0, 1, 0] + w t 2 • rot (q t) ![0, 0, 1] := by
    funext t
    conv_lhs => rw [vec_basis (w t)]
    rw [rot_add, rot_add, rot_smul, rot_smul, rot_smul]
  rw [e]
  have a : ∀ i p, HasDerivAt (fun t => w t i • rot (q t) p) (w τ i • rot (q τ) (cross ω p) + w' i • rot (q τ) p) τ := fun i p => (hwi i).smul (hω p)
  have h : HasDerivAt (fun t => w t 0 • rot (q t) ![1, 0, 0] + w t 1 • rot (q t) ![0, 1, 0] + w t 2 • rot (q t) ![0, 0, 1]) _ τ :=
    ((a 0 ![1, 0, 0]).add (a 1 ![0, 1, 0])).add (a 2 ![0, 0, 1])
  convert h using 1
  conv_lhs => rw [vec_basis (w τ), vec_basis w']
  simp only [rot_add, rot_smul, (cross_lin ω).1, (cross_lin ω).2.1]
  abel

theorem isBodyRate_space {q : ℝ → Quat} {τ : ℝ} {ω : Vec} (h0 : q τ ≠ 0) (hω : IsBodyRate q τ ω) : IsSpaceRate q τ (rot (q τ) ω) := by
  intro p
  have := hω p
  rwa [← cross_rot _ h0] at this

/-- Angular velocities add up along a chain of frames. -/
theorem Spec.IsBodyRate.mul {q1 q2 : ℝ → Quat} {τ : ℝ} {ω1 ω2 : Vec} (h1 : IsBodyRate q1 τ ω1) (h2 : IsBodyRate q2 τ ω2)
    (hn1 : ∀ t, q1 t ≠ 0) (hn2 : ∀ t, q2 t ≠ 0) : IsBodyRate (fun t => q1 t * q2 t) τ (rot (q2 τ)⁻¹ ω1 + ω2) := by
  intro p
  have h := h1.transport (h2 p)
  have e : (fun t => rot (q1 t * q2 t) p) = fun t => rot (q1 t) (rot (q2 t) p) := funext fun t => rot_mul _ _ (hn1 t) (hn2 t) p
  rw [e]
  convert h using 1
  rw [rot_mul _ _ (hn1 τ) (hn2 τ), ← rot_add]
  congr 1
  rw [(cross_lin p).2.2, rot_add, ← cross_rot _ (hn2 τ), rot_rot_inv _ (hn2 τ)]

/-- The angular velocity is unique. -/
theorem Spec.IsBodyRate.unique {q : ℝ → Quat} {τ : ℝ} {ω ω' : Vec} (h0 : q τ ≠ 0) (h : IsBodyRate q τ ω) (h' : IsBodyRate q τ ω') : ω = ω' := by
  have hc : ∀ p, cross ω p = cross ω' p := by
    intro p
    have := (h p).unique (h' p)
    rw [← rot_inv_rot _ h0 (cross ω p), this, rot_inv_rot _ h0]
  have a := hc ![1, 0, 0]
  have b := hc ![0, 1, 0]
  have a1 := congrFun a 1
  have a2 := congrFun a 2
  have b2 := congrFun b 2
  simp [cross] at a1 a2 b2
  ext i; fin_cases i <;> simp [*]

theorem Spec.IsSpaceRate.body {q : ℝ → Quat} {τ : ℝ} {ω : Vec} (h0 : q τ ≠ 0) (h : IsSpaceRate q τ ω) : IsBodyRate q τ (rot (q τ)⁻¹ ω) := by
  intro p
  have := h p
  rwa [← cross_rot _ h0, rot_rot_inv _ h0]

/-- Angular velocities wrt the outer frame add up. -/
theorem Spec.IsSpaceRate.mul {q1 q2 : ℝ → Quat} {τ : ℝ} {ω1 ω2 : Vec} (h1 : IsSpaceRate q1 τ ω1) (h2 : IsSpaceRate q2 τ ω2)
    (hn1 : ∀ t, q1 t ≠ 0) (hn2 : ∀ t, q2 t ≠ 0) : IsSpaceRate (fun t => q1 t * q2 t) τ (rot (q1 τ) ω2 + ω1) := by
  have hne : q1 τ * q2 τ ≠ 0 := mul_ne_zero (hn1 τ) (hn2 τ)
  have c := Spec.IsBodyRate.mul (h1.body (hn1 τ)) (h2.body (hn2 τ)) hn1 hn2
  have b := isBodyRate_space (q := fun t => q1 t * q2 t) hne c
  convert b using 1
  rw [rot_mul _ _ (hn1 τ) (hn2 τ), rot_add, rot_rot_inv _ (hn2 τ), rot_rot_inv _ (hn2 τ), rot_add, rot_rot_inv _ (hn1 τ), add_comm]

/-- Transport theorem with the angular velocity expressed in the outer frame. -/
theorem Spec.IsSpaceRate.transport {q : ℝ → Quat} {τ : ℝ} {ω : Vec} (h0 : q τ ≠ 0) (hω : IsSpaceRate q τ ω) {w : ℝ → Vec} {w' : Vec}
    (hw : HasDerivAt w w' τ) : HasDerivAt (fun t => rot (q t) (w t)) (rot (q τ) w' + cross ω (rot (q τ) (w τ))) τ := by
  have := (hω.body h0).transport hw
  rwa [← cross_rot _ h0, rot_rot_inv _ h0, add_comm] at this

end RBM
