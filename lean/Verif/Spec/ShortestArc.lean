import Verif.Spec.Rigid
import Verif.Spec.Transform

/-!
The shortest arc between two directions.
-/

namespace RBM.Spec

open RBM

/-- Euclidean length. -/
noncomputable def vlen (v : Vec) : ℝ := Real.sqrt (dot v v)

/-- The vectors have directions, and these are not opposite. -/
def ArcPair (a b : Vec) : Prop := a ≠ 0 ∧ b ≠ 0 ∧ ¬ ∃ c : ℝ, c < 0 ∧ b = c • a

/-- The rotation by `q` turns the direction of `a` into that of `b`. -/
def Aligns (q : Quat) (a b : Vec) : Prop := vlen b • rot q a = vlen a • b

/-- `q` is a unit quaternion whose rotation aligns `a` with `b`, about an axis orthogonal to both, and by the
smallest possible angle (the real part is the cosine of half the angle). -/
structure IsShortestArc (a b : Vec) (q : Quat) : Prop where
  unit : IsUnitQ q
  aligns : Aligns q a b
  axis1 : dot ![q.imI, q.imJ, q.imK] a = 0
  axis2 : dot ![q.imI, q.imJ, q.imK] b = 0
  re : 0 ≤ q.re
  shortest : ∀ q', IsUnitQ q' → Aligns q' a b → |q'.re| ≤ q.re

end RBM.Spec
