import Verif.Spec.Motion
import Verif.Model.Transform

/-!
Shifting the clock: another zero point for all timestamps.
-/

namespace RBM.Spec

open RBM

/-- The frame data with all timestamps increased by `c`. -/
def shiftData (c : ℝ) (d : FrameData) : FrameData := { d with timestamps := d.timestamps.map (List.map (· + c)) }

/-- The same frames, with all timestamps increased by `c`. -/
def shiftState (c : ℝ) (s : State) : State := { s with data := fun i => (s.data i).map (shiftData c) }

/-- The same arguments with timestamps increased by `c`. -/
def shiftArgs (c : ℝ) (o : TArgs) : TArgs := { o with timestamps := o.timestamps.map (ND.map (· + c)) }

/-- The same result with timestamps increased by `c`. -/
def shiftRet (c : ℝ) : PyRet → PyRet
  | .single a => .single a
  | .withTs a ts => .withTs a (ts.map (List.map (· + c)))

/-- Contract of the external interpolation: it depends on time differences only. -/
def ShiftLaw (sq : SquadFn) : Prop := ∀ c qs xs τ, sq qs (xs.map (· + c)) (τ + c) = sq qs xs τ

end RBM.Spec
