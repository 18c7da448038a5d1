import Verif.Spec.Motion

/-!
Velocities from positions sampled in time.
-/

namespace RBM.Spec

open RBM

/-- The mean velocity between the samples `j` and `j + 1`. -/
noncomputable def meanVelocity {V : Type} [AddCommGroup V] [Module ℝ V] (ts : List ℝ) (x : ℕ → V) (j : ℕ) : V :=
  (1 / (ts.getD (j + 1) 0 - ts.getD j 0)) • (x (j + 1) - x j)

/-- `w` is the velocity at sample `k` estimated from the neighbouring samples: at the ends the mean velocity of the first or last
interval, elsewhere the mean of the mean velocities of the two adjacent intervals, the shorter interval having the larger weight. -/
structure IsEstimate {V : Type} [AddCommGroup V] [Module ℝ V] (ts : List ℝ) (x : ℕ → V) (k : ℕ) (w : V) : Prop where
  first : k = 0 → w = meanVelocity ts x 0
  last : k + 1 = ts.length → w = meanVelocity ts x (k - 1)
  inner : 0 < k → k + 1 < ts.length → ∀ h0 h1 : ℝ, h0 = ts.getD k 0 - ts.getD (k - 1) 0 → h1 = ts.getD (k + 1) 0 - ts.getD k 0 →
    w = (h1 / (h0 + h1)) • meanVelocity ts x (k - 1) + (h0 / (h0 + h1)) • meanVelocity ts x k

end RBM.Spec
