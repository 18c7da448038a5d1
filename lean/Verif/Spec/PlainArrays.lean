import Verif.Model.Plumbing
import Verif.Spec.Transform

/-!
Plain numpy arrays as arguments of the top level functions.
-/

namespace RBM.Spec

open RBM

/-- What the top level function returns for a plain array, if the method of the frame returns `r`. -/
def asTop : PyRet → TopRet
  | .single a => .single a
  | .withTs a ts => .withTs a ts

/-- What the top level function returns if the user leaves it to the function whether timestamps are returned (`return_timestamps=None`) and the
method returns `r` when asked for timestamps: they are returned if there are any. -/
def asTopAuto : PyRet → TopRet
  | .single a => .single a
  | .withTs a none => .single a
  | .withTs a (some ts) => .withTs a (some ts)

/-- The argument `timestamps`. -/
def stampsGiven : Option (ND ℝ) → TsArg
  | none => .none
  | some ts => .arr ts

/-- The arguments `axis`, `time_axis` (default: last and first) name the different axes `ax`, `ta` of the array. An `axis` of 0 is read as "not
given". -/
structure AxesGiven (arr : ND ℝ) (axis timeAxis : Option ℤ) (ax ta : ℤ) : Prop where
  axis : (axis = some ax ∧ ax ≠ 0) ∨ (axis = none ∧ ax = -1)
  time : timeAxis = some ta ∨ (timeAxis = none ∧ ta = 0)
  differ : ∃ p q, AxisIs ax arr.ndim p ∧ AxisIs ta arr.ndim q ∧ p ≠ q

end RBM.Spec
