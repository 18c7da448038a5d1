import Verif.Spec.Motion
import Verif.Model.Transform

/-!
What it means to transform an array of points, vectors or orientations from one frame to another,
in terms of coordinates in a common ancestor frame.
-/

namespace RBM.Spec

open RBM

/-- `A` is the change of coordinates from frame `a` to frame `b` at time `τ`: for every point `p`,
`p` in `a` and `A p` in `b` are the same point of the common ancestor, and the same for orientations. -/
def IsTransformAt (sq : SquadFn) (s : State) (a b : ℕ) (τ : ℝ) (A : Pose) : Prop :=
  ∃ c, NearestCommon s a b c ∧
    (∀ p, ∃ P, InAncestor s.parent (PoseOf sq s τ) c a p P ∧
      InAncestor s.parent (PoseOf sq s τ) c b (A.act p) P) ∧
    (∀ q, ∃ Q, OrientInAncestor s.parent (PoseOf sq s τ) c a q Q ∧
      OrientInAncestor s.parent (PoseOf sq s τ) c b (A.r * q) Q)

/-- The axis argument `axis` denotes position `p` of an array with `n` dimensions: non-negative
axes count from the front, negative ones from the end. -/
def AxisIs (axis : ℤ) (n p : ℕ) : Prop := p < n ∧ (axis = p ∨ axis = (p : ℤ) - n)

/-- The vector (quaternion) that an array stores along axis `p` through the index `idx`. -/
def vec3 (v : ND ℝ) (p : ℕ) (idx : List ℕ) : Vec := ![v.get (idx.set p 0), v.get (idx.set p 1), v.get (idx.set p 2)]
def quat4 (v : ND ℝ) (p : ℕ) (idx : List ℕ) : Quat :=
  ⟨v.get (idx.set p 0), v.get (idx.set p 1), v.get (idx.set p 2), v.get (idx.set p 3)⟩

/-- The timestamps `ats` fit time axis `q` of the array `v`, and strictly increase. -/
structure TimedArray (v : ND ℝ) (q : ℕ) (ats : List ℝ) : Prop where
  axis : q < v.ndim
  length : v.shape.getD q 0 = ats.length
  two : 2 ≤ ats.length
  sorted : StrictlyIncreasing ats

/-- A one-dimensional numpy array with these entries. -/
def ofList (l : List ℝ) : ND ℝ := ⟨[l.length], fun idx => l.getD (idx.getD 0 0) 0⟩

open Classical in
/-- The timestamps of `ats` that lie in the closed ranges of all `conts`, in order. -/
noncomputable def commonStamps (ats : List ℝ) (conts : List (List ℝ)) : List ℝ :=
  ats.filter fun t => decide (∀ y ∈ conts, InRange y t)

end RBM.Spec
