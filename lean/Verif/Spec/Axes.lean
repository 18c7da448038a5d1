import Verif.Spec.Transform

/-!
Two numbers for the same axis.
-/

namespace RBM.Spec

/-- `i` and `j` denote the same axis of an array with `n` dimensions, counted from the front or from the back. -/
def SameAxis (n : ℕ) (i j : ℤ) : Prop := ∃ p, AxisIs i n p ∧ AxisIs j n p

/-- The same for an optional axis. -/
def SameAxisOpt (n : ℕ) (i j : Option ℤ) : Prop := (i = none ∧ j = none) ∨ ∃ k l, i = some k ∧ j = some l ∧ SameAxis n k l

/-- A result of a transform in which the axes of the array `arr` have kept their places: without timestamps the transform is static, with timestamps
there are at least two axes, and one output sample at least if there are more than two. -/
def AxesKept (arr : ND ℝ) (timestamps : Option (ND ℝ)) (ts : Option (List ℝ)) : Prop :=
  (timestamps = none → ts = none) ∧ (timestamps ≠ none → 2 ≤ arr.ndim ∧ (arr.ndim = 2 ∨ ts ≠ some []))

end RBM.Spec
