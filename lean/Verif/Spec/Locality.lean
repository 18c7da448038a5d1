import Verif.Spec.Registry

/-!
Which operations can affect a transform.
-/

namespace RBM.Spec

open RBM

/-- The operation moves frame `j` in the tree: its parent is set, or another frame takes over its name. -/
def Moves (s : State) : Op → ℕ → Prop
  | .setParent i _, j => j = i
  | .register i true, j => ∃ n, s.name i = some n ∧ s.resolve (.byName n) = .ok j
  | .registerFrame (some n) _ _ true, j => s.resolve (.byName n) = .ok j
  | _, _ => False

/-- A sequence of operations. -/
noncomputable def runOps : State → List Op → State
  | s, [] => s
  | s, op :: ops => runOps (s.step op).1 ops

/-- The operations mention only existing objects, and none of them moves one of the frames. -/
def LeavesAlone (frames : List ℕ) : State → List Op → Prop
  | _, [] => True
  | s, op :: ops => op.Refers s ∧ (∀ j ∈ frames, ¬ Moves s op j) ∧ LeavesAlone frames (s.step op).1 ops

/-- The frames between `a` and `b` are the same in both states: those of the path from each up to, but without, the nearest common ancestor. -/
def SameBetween (s s' : State) (a b : ℕ) : Prop :=
  ∃ up down, s.walk a (.byObj b) = .ok (up, down) ∧ ∀ i ∈ up ++ down, s'.parent i = s.parent i ∧ s'.data i = s.data i

end RBM.Spec
