import Verif.Model.ND

/-!
Selecting samples of a series.
-/

namespace RBM.Spec

open RBM

/-- The samples at positions `sel` of axis `q`. -/
def selectSamples (v : ND ℝ) (q : ℕ) (sel : List ℕ) : ND ℝ :=
  ⟨v.shape.set q sel.length, fun idx => v.get (idx.set q (sel.getD (idx.getD q 0) 0))⟩

/-- At least two different positions in order. -/
structure Selection (sel : List ℕ) (n : ℕ) : Prop where
  two : 2 ≤ sel.length
  sorted : sel.Pairwise (· < ·)
  lt : ∀ k ∈ sel, k < n

end RBM.Spec
