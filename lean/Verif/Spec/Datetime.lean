import Verif.Model.Velocity

/-!
The same instants counted in another unit: `k` ticks per second, `k = 1000000000` for `datetime64[ns]`, `1000000` for `datetime64[us]`.
-/

namespace RBM.Spec

open RBM

/-- Times in seconds as counts of ticks. -/
noncomputable def ticks (k : ℝ) (ts : List ℝ) : List ℝ := ts.map (k * ·)

/-- The same frames, timestamps counted in ticks. -/
noncomputable def ticksState (k : ℝ) (s : State) : State :=
  { s with data := fun i => (s.data i).map fun d => { d with timestamps := d.timestamps.map (ticks k) } }

/-- The same constructor arguments, timestamps counted in ticks. -/
noncomputable def ticksFrame (k : ℝ) (a : FrameArgs) : FrameArgs := { a with timestamps := a.timestamps.map (ND.map (k * ·)) }

/-- The same call on the registry or the tree. -/
noncomputable def ticksOp (k : ℝ) : Op → Op
  | .construct n p a => .construct n p (ticksFrame k a)
  | .registerFrame n p a update => .registerFrame n p (ticksFrame k a) update
  | op => op

/-- The same arguments of a transform. -/
noncomputable def ticksArgs (k : ℝ) (o : TArgs) : TArgs := { o with timestamps := o.timestamps.map (ND.map (k * ·)) }

/-- The same result: equal values, timestamps counted in ticks. -/
noncomputable def ticksRet (k : ℝ) : PyRet → PyRet
  | .single a => .single a
  | .withTs a ts => .withTs a (ts.map (ticks k))

/-- The same twist. -/
noncomputable def ticksTwist (k : ℝ) : TwistRet → TwistRet
  | .pair l a => .pair l a
  | .triple l a ts => .triple l a (ts.map (ticks k))

/-- The same coordinate, its numbers counted in ticks. -/
noncomputable def ticksCoord (k : ℝ) (c : Coord) : Coord :=
  match c.vals with
  | .num a => ⟨c.dims, .num (a.map (k * ·))⟩
  | .lab _ => c

/-- The same metadata, the coordinate `td` counted in ticks. -/
noncomputable def ticksMeta (k : ℝ) (td : String) (m : Meta) : Meta :=
  { m with coords := m.coords.map fun c => if c.1 = td then (c.1, ticksCoord k c.2) else c }

/-- The same DataArray. -/
noncomputable def ticksDArr (k : ℝ) (td : String) (d : DArr) : DArr := ⟨d.data, ticksMeta k td d.info⟩

/-- The same estimate. -/
noncomputable def ticksEst (k : ℝ) (td : String) : EstRet → EstRet
  | .nd a => .nd a
  | .da a m => .da a (ticksMeta k td m)

/-- An estimate multiplied by `w`. -/
noncomputable def scaleEst (w : ℝ) : EstRet → EstRet
  | .nd a => .nd (a.map (Option.map (w * ·)))
  | .da a m => .da (a.map (Option.map (w * ·))) m

end RBM.Spec
