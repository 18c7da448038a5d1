import Verif.Spec.Velocity

/-!
Stacks of velocities: arrays of shape `(n, m, 3)`, that is `m` series of `n` vectors each.
-/

namespace RBM.Spec

open RBM

/-- `v` are `m` series of vectors at the strictly increasing times `ts`. -/
structure IsStack (v : ND ℝ) (m : ℕ) (ts : List ℝ) : Prop where
  shape : v.shape = [ts.length, m, 3]
  two : 2 ≤ ts.length
  sorted : StrictlyIncreasing ts

/-- The series number `j`: `v[:, j]`. -/
def column (v : ND ℝ) (j : ℕ) : ND ℝ := ⟨[v.shape.getD 0 0, 3], fun idx => v.get [idx.getD 0 0, j, idx.getD 1 0]⟩

/-- The vector of series `j` in row `i`: `v[i, j]`. -/
def cell (v : ND ℝ) (i j : ℕ) : Vec := fun c => v.get [i, j, (c : ℕ)]

/-- `f` acts on the stack `v` of `m` series like on each series separately: same timestamps, same values. -/
def ColumnWise (f : ND ℝ → Res PyRet) (v : ND ℝ) (m : ℕ) : Prop :=
  ∃ out ots, f v = .ok (.withTs out (some ots)) ∧ out.shape = [ots.length, m, 3] ∧ ∀ j, j < m → ∃ w, f (column v j) = .ok (.withTs w (some ots)) ∧
    w.shape = [ots.length, 3] ∧ ∀ i c, i < ots.length → c < 3 → out.get [i, j, c] = w.get [i, c]

end RBM.Spec
