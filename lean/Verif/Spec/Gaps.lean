import Verif.Model.Gaps
import Verif.Spec.Velocity

/-!
Vocabulary for series with missing (NaN) samples.
-/

namespace RBM.Spec

open RBM

/-- `ks` lists, in order, the positions along axis `p` where no entry of the array is missing. -/
structure Present (arr : ND (Option ℝ)) (p : ℕ) (ks : List ℕ) : Prop where
  sorted : ks.Pairwise (· < ·)
  mem : ∀ i, i ∈ ks ↔ i < arr.shape.getD p 0 ∧ ∀ idx, Valid arr.shape idx → idx.getD p 0 = i → arr.get idx ≠ none

/-- `arr'` and `ts'` are the samples of `arr` and `ts` at the positions `ks` along axis `p`. -/
structure Selected (arr : ND (Option ℝ)) (ts : List ℝ) (p : ℕ) (ks : List ℕ) (arr' : ND ℝ) (ts' : List ℝ) : Prop where
  shape : arr'.shape = arr.shape.set p ks.length
  entries : ∀ (idx : List ℕ) (i : ℕ), Valid arr'.shape idx → ks[idx.getD p 0]? = some i → arr.get (idx.set p i) = some (arr'.get idx)
  length : ts'.length = ks.length
  times : ∀ k i : ℕ, ks[k]? = some i → ts'[k]? = ts[i]?

/-- `arr'` has the entries of `arr` that are not missing, and arbitrary ones elsewhere. -/
def Completes (arr' : ND ℝ) (arr : ND (Option ℝ)) : Prop :=
  arr'.shape = arr.shape ∧ ∀ idx x, Valid arr.shape idx → arr.get idx = some x → arr'.get idx = x

/-- All steps between consecutive timestamps are equal. -/
def Uniform (ts : List ℝ) : Prop := ∀ (k : ℕ) (a b c d : ℝ), ts[k]? = some a → ts[k + 1]? = some b → ts[0]? = some c → ts[1]? = some d →
  b - a = d - c

/-- Sample `i` is lost for differences when samples are missing: a direct neighbour is missing, or the sample itself is
missing and is the first, the last, or the timestamps are not evenly spaced. -/
def Lost (ts : List ℝ) (missing : ℕ → Prop) (i : ℕ) : Prop :=
  (∃ k < ts.length, (k + 1 = i ∨ k = i + 1) ∧ missing k) ∨ (missing i ∧ (i = 0 ∨ i + 1 = ts.length ∨ ¬ Uniform ts))

/-- Row `i` of a two dimensional array with `k` columns has no missing entry. -/
def RowPresent (arr : ND (Option ℝ)) (k i : ℕ) : Prop := ∀ j < k, arr.get [i, j] ≠ none

/-- All rows that enter the statistic of row `i` (`jump`) are complete. -/
def JumpKnown (arr : ND (Option ℝ)) (n k i : ℕ) : Prop :=
  ∀ m, (1 ≤ i ∧ i + 1 < n ∧ i ≤ m + 1 ∧ m ≤ i + 1) ∨ (i + 2 < n ∧ i ≤ m ∧ m ≤ i + 2) → RowPresent arr k m

/-- Outcomes that agree: the same exception, or arrays of the same shape with the same valid entries. -/
inductive Agree : Res (ND (Option ℝ)) → Res (ND (Option ℝ)) → Prop
  | error (e : PyErr) : Agree (.error e) (.error e)
  | ok (a b : ND (Option ℝ)) : a.Same b → Agree (.ok a) (.ok b)

end RBM.Spec
