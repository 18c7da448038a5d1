import Verif.Spec.Rigid
import Mathlib.Analysis.Quaternion
import Mathlib.Analysis.Calculus.Deriv.Mul
import Mathlib.Analysis.Calculus.Deriv.Comp

/-!
Angular velocity of a differentiable motion.
-/

namespace RBM.Spec

open RBM

/-- `ω` is the angular velocity at time `τ` of a frame with orientation `q` (as a function of time) wrt
another frame, expressed in the rotating frame: a point fixed in the rotating frame moves with
velocity `ω × p`. -/
def IsBodyRate (q : ℝ → Quat) (τ : ℝ) (ω : Vec) : Prop :=
  ∀ p, HasDerivAt (fun t => rot (q t) p) (rot (q τ) (cross ω p)) τ

/-- The same, expressed in the other frame. -/
def IsSpaceRate (q : ℝ → Quat) (τ : ℝ) (ω : Vec) : Prop :=
  ∀ p, HasDerivAt (fun t => rot (q t) p) (cross ω (rot (q τ) p)) τ

end RBM.Spec
