import Verif.Model.Frames

/-!
anytree iterators over the frames below a frame, and `render_tree`.
-/

namespace RBM

/-- anytree `PreOrderIter` (external): the node, then its children's subtrees in order. The first argument bounds the depth. -/
def preorder (children : ℕ → List ℕ) : ℕ → ℕ → List ℕ
  | 0, _ => []
  | f + 1, i => i :: (children i).flatMap (preorder children f)

/-- `PreOrderIter(node)`. -/
def State.preOrder (s : State) (i : ℕ) : List ℕ := preorder s.children s.size i

/-- anytree `NodeMixin.root`. -/
def State.root (s : State) (i : ℕ) : ℕ := (s.pathReverse i).getLast?.getD i

/-- anytree `_is_last`: every child with a flag that is `false` for the last one (`not is_last`). -/
def withContinues : List ℕ → List (ℕ × Bool)
  | [] => []
  | [c] => [(c, false)]
  | c :: d :: l => (c, true) :: withContinues (d :: l)

/-- anytree `RenderTree.__item` with `ContStyle` (external): the prefix of a line. -/
def renderPre (continues : List Bool) : String :=
  match continues.getLast? with
  | none => ""
  | some b => String.join (continues.dropLast.map fun c => if c then "│   " else "    ") ++ if b then "├── " else "└── "

/-- anytree `RenderTree.__next` (external): nodes with the flags of their line. -/
def renderRows (children : ℕ → List ℕ) : ℕ → List Bool → ℕ → List (List Bool × ℕ)
  | 0, _, _ => []
  | f + 1, continues, i => (continues, i) :: (withContinues (children i)).flatMap fun c => renderRows children f (continues ++ [c.2]) c.1

/-- reference_frames.py:45-54 `render_tree`: the printed lines. A frame without name is printed as `None`. -/
def State.renderTree (s : State) (root : FrameRef) : Res (List String) :=
  match s.resolve root with
  | .error e => .error e
  | .ok i => .ok ((renderRows s.children s.size [] i).map fun r => renderPre r.1 ++ (s.name r.2).getD "None")

end RBM
