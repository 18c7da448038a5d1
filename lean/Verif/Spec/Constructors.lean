import Verif.Model.Constructors
import Verif.Spec.Lookups
import Verif.Spec.Fit

/-!
Frames made from labelled arrays.
-/

namespace RBM.Spec

open RBM

/-- Frame `f` has the parent `p` and the poses `P k` at the timestamps `l`; if `inverse`, these are the poses of the parent in the frame. -/
structure TimedFrame (sq : SquadFn) (s : State) (f p : ℕ) (inverse discrete : Bool) (l : List ℝ) (P : ℕ → Pose) : Prop where
  parent : s.parent f = some p
  stored : inverse = false → s.data f = some ⟨some (.many ((List.range l.length).map fun k => (P k).t),
    .many ((List.range l.length).map fun k => (P k).r)), some l, discrete⟩
  lookup : 2 ≤ l.length → StrictlyIncreasing l → (∀ k < l.length, IsUnitQ (P k).r) → discrete = false →
    s.lookupTransform sq (if inverse then p else f) (.byObj (if inverse then f else p)) =
      .ok (.many ((List.range l.length).map fun k => (P k).t), .many ((List.range l.length).map fun k => (P k).r), some l)

/-- The dataset has the timestamps `l` as coordinate `name`, which all of its variables that have it share. -/
def StampsIn (ds : DSet) (name : String) (l : List ℝ) : Prop :=
  ds.var name = none ∧ (∃ v ∈ ds.vars, ∃ c, dictGet v.2.info.coords name = some c) ∧
    ∀ v ∈ ds.vars, name ∈ v.2.info.dims ∨ (∃ c, dictGet v.2.info.coords name = some c) →
      ∃ c, dictGet v.2.info.coords name = some c ∧ c.vals = .num (ofList l)

/-- Row `k` of an array of shape (n, 3) / (n, 4). -/
def vecRow (a : ND ℝ) (k : ℕ) : Vec := vec3 a 1 [k, 0]
def quatRow (a : ND ℝ) (k : ℕ) : Quat := quat4 a 1 [k, 0]

/-- The 3 × 3 matrix. -/
def matOf (mat : ND ℝ) : Mat3 := fun i j => mat.get [i, j]

end RBM.Spec
