import Verif.Model.Frames

/-!
Specification vocabulary for histories of registry and forest operations.
-/

namespace RBM.Spec

open RBM

/-- What a history can do to the names. -/
inductive Event
  | registered (n : String) (i : ℕ)   -- object `i` was successfully registered under `n`
  | removed (n : String)              -- name `n` was successfully deregistered
  | cleared                           -- the registry was cleared
  | destroyed (i : ℕ)                 -- object `i` was garbage collected
  deriving DecidableEq

/-- Who owns name `n` after a history (latest event first). -/
def owner : List Event → String → Option ℕ
  | [], _ => none
  | .registered m i :: h, n => if m = n then some i else owner h n
  | .removed m :: h, n => if m = n then none else owner h n
  | .cleared :: _, _ => none
  | .destroyed i :: h, n => if owner h n = some i then none else owner h n

/-- The event caused by an operation, read off the call and its outcome only (`register_frame`
allocates the next object; a frame's name is fixed at construction). -/
def eventOf (s : State) : Op → Res Unit → List Event
  | .registerFrame (some n) _ _ _, .ok _ => [.registered n s.size]
  | .register i _, .ok _ => match s.name i with
      | some n => [.registered n i]
      | none => []
  | .deregisterFrame n, .ok _ => [.removed n]
  | .deregister i, .ok _ => match s.name i with
      | some n => [.removed n]
      | none => []
  | .clear, .ok _ => [.cleared]
  | .del i, .ok _ => [.destroyed i]
  | _, _ => []

/-- States reachable from a fresh interpreter by any history, with the history of name events. -/
inductive Reachable : State → List Event → Prop
  | init : Reachable State.init []
  | step {s h} (op : Op) : Reachable s h → op.Refers s →
      Reachable (s.step op).1 (eventOf s op (s.step op).2 ++ h)

/-- `p` is the parent of `i`. -/
def ParentOf (s : State) (i p : ℕ) : Prop := s.parent i = some p

/-- `p` is a proper ancestor of `i`. -/
def Ancestor (s : State) (i p : ℕ) : Prop := Relation.TransGen (ParentOf s) i p

/-- `p` is `i` or an ancestor of `i`. -/
def AncestorOrSelf (s : State) (i p : ℕ) : Prop := Relation.ReflTransGen (ParentOf s) i p

/-- `l` lists `i`, its parent, grandparent, ... up to a root. -/
inductive RootPath (parent : ℕ → Option ℕ) : ℕ → List ℕ → Prop
  | root {i} : parent i = none → RootPath parent i [i]
  | step {i p l} : parent i = some p → RootPath parent p l → RootPath parent i (i :: l)

end RBM.Spec

namespace RBM.Spec

/-- `l` lists the frames met when climbing from `a` up to, but excluding, its ancestor `c`. -/
inductive PathTo (parent : ℕ → Option ℕ) (c : ℕ) : ℕ → List ℕ → Prop
  | here : PathTo parent c c []
  | up {a p l} : a ≠ c → parent a = some p → PathTo parent c p l → PathTo parent c a (a :: l)

/-- `c` is the nearest common ancestor (or self) of `a` and `b`. -/
def NearestCommon (s : RBM.State) (a b c : ℕ) : Prop :=
  AncestorOrSelf s a c ∧ AncestorOrSelf s b c ∧
    ∀ d, AncestorOrSelf s a d → AncestorOrSelf s b d → AncestorOrSelf s c d

end RBM.Spec
