import Verif.Spec.Transform

/-!
Which timestamps a result has.
-/

namespace RBM.Spec

open RBM

/-- The timestamps of a result. `conts`: timestamps of the continuous elements, the one that defines
the sampling first; `events`: timestamps of the discrete frames. -/
def SampledAs (conts events : List (List ℝ)) (ts : Option (List ℝ)) : Prop :=
  match conts, events with
  | first :: rest, _ => ts = some (commonStamps first (first :: rest))
  | [], _ :: _ => ∃ out, ts = some out ∧ StrictlyIncreasing out ∧ ∀ x, x ∈ out ↔ ∃ ev ∈ events, x ∈ ev
  | [], [] => ts = none

/-- The timestamps passed to a transform function. -/
def passedStamps (o : TArgs) : Option (List ℝ) :=
  o.timestamps.map fun t => (List.range (t.shape.headD 0)).map fun k => t.get [k]

/-- One of the three functions for points, vectors and orientations. -/
inductive TransformFn
  | points | vectors | quaternions

/-- The call. -/
noncomputable def TransformFn.call (f : TransformFn) (sq : SquadFn) (s : State) (a : ℕ) (v : ND ℝ) (b : FrameRef) (o : TArgs) : Res PyRet :=
  match f with
  | .points => s.transformPoints sq a v b o
  | .vectors => s.transformVectors sq a v b o
  | .quaternions => s.transformQuaternions sq a v b o

end RBM.Spec
