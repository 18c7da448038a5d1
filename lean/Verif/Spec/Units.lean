import Verif.Spec.Motion
import Verif.Model.Velocity
import Verif.Spec.Transform

/-!
Other units and another zero point of the clock.
-/

namespace RBM.Spec

open RBM

/-- The time `t` by a clock with another unit (`k` new units per old unit) and another zero point. -/
def reclock (k c t : ℝ) : ℝ := k * t + c

/-- The frame data by another clock and with another unit of length (`u` new units per old unit). -/
noncomputable def unitsData (k c u : ℝ) (d : FrameData) : FrameData :=
  { d with pose := d.pose.map fun p => (p.1.map (u • ·), p.2), timestamps := d.timestamps.map (List.map (reclock k c)) }

/-- The same frames by another clock and with another unit of length. -/
noncomputable def unitsState (k c u : ℝ) (s : State) : State := { s with data := fun i => (s.data i).map (unitsData k c u) }

/-- The same constructor arguments, in the new units. -/
noncomputable def unitsFrame (k c u : ℝ) (a : FrameArgs) : FrameArgs :=
  { a with translation := a.translation.map (ND.map (u * ·)), timestamps := a.timestamps.map (ND.map (reclock k c)) }

/-- The same call on the registry or the tree, with arguments in the new units. -/
noncomputable def unitsOp (k c u : ℝ) : Op → Op
  | .construct n p a => .construct n p (unitsFrame k c u a)
  | .registerFrame n p a update => .registerFrame n p (unitsFrame k c u a) update
  | op => op

/-- The array in another unit: `w` new units per old unit. -/
noncomputable def scaleArr (w : ℝ) (a : ND ℝ) : ND ℝ := a.map (w * ·)

/-- The same arguments with timestamps by another clock. -/
noncomputable def unitsArgs (k c : ℝ) (o : TArgs) : TArgs := { o with timestamps := o.timestamps.map (ND.map (reclock k c)) }

/-- The same result by another clock, values in another unit. -/
noncomputable def unitsRet (k c w : ℝ) : PyRet → PyRet
  | .single a => .single (scaleArr w a)
  | .withTs a ts => .withTs (scaleArr w a) (ts.map (List.map (reclock k c)))

/-- No timestamps, or the axes are the default ones (time first, space last), or the last axis is not the time axis and not of length four
(arrays with last axis of length four are resampled like orientations). -/
def NotLikeOrientations (arr : ND ℝ) (o : TArgs) : Prop :=
  o.timestamps = none ∨ (o.axis = -1 ∧ o.timeAxis = some 0) ∨ ∃ ta q, o.timeAxis = some ta ∧ AxisIs ta arr.ndim q ∧ q + 1 < arr.ndim ∧ arr.shape.getLast? ≠ some 4

/-- Contract of the external interpolation: it depends on ratios of time differences only. -/
def UnitsLaw (sq : SquadFn) : Prop := ∀ k c qs xs τ, 0 < k → sq qs (xs.map (reclock k c)) (reclock k c τ) = sq qs xs τ

/-- Contract of the external derivative: inversely proportional to the unit of time. -/
def RateLaw (ext : Ext) : Prop :=
  (∀ k ys xs i, 0 < k → ext.deriv ys (xs.map (reclock k 0)) i = 1 / k * ext.deriv ys xs i) ∧
  ∀ k xs, 0 < k → ext.derivErr (xs.map (reclock k 0)) = ext.derivErr xs

end RBM.Spec
