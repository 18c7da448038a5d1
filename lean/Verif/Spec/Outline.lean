import Verif.Spec.Registry
import Verif.Model.Tree

/-!
What an indented outline of the frames below a frame looks like.
-/

namespace RBM.Spec

open RBM

/-- `rows` (indentation level and frame of every line) is an outline of the frames below `i`: every frame below `i`, and `i` itself, has exactly one line;
`i` comes first, without indentation; for every other line the nearest line before it that is less indented is the line of its parent, and is indented by
one level less; the children of a frame come in the order in which they were attached. -/
structure Outline (s : State) (i : ℕ) (rows : List (ℕ × ℕ)) : Prop where
  once : (rows.map Prod.snd).Nodup
  all : ∀ j, j ∈ rows.map Prod.snd ↔ AncestorOrSelf s j i
  first : ∃ rest, rows = (0, i) :: rest
  parent : ∀ before after d j, rows = before ++ (d, j) :: after → before ≠ [] →
    ∃ b1 d' p b2, before = b1 ++ (d', p) :: b2 ∧ s.parent j = some p ∧ d = d' + 1 ∧ ∀ x ∈ b2, d ≤ x.1
  order : ∀ p, AncestorOrSelf s p i → (s.children p).Sublist (rows.map Prod.snd)

/-- `line` shows frame `j` at level `d`: four characters for every level, the last four of which are a branch, then the name (`None` for frames without
name). The branch of the last child of a frame is a corner. -/
def ShowsFrame (s : State) (d j : ℕ) (line : String) : Prop :=
  ∃ pre : String, line = pre ++ (s.name j).getD "None" ∧ pre.length = 4 * d ∧
    ∀ p, 0 < d → s.parent j = some p →
      ∃ indent : String, pre = indent ++ if (s.children p).getLast? = some j then "└── " else "├── "

end RBM.Spec
