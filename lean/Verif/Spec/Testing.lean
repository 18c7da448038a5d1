import Verif.Spec.Broadcast
import Verif.Spec.Velocity

/-!
The test motion of `testing.make_test_motion`.
-/

namespace RBM.Spec

/-- The angle (and displacement) at sample `k`: a sine with amplitude `a` and frequency `f`, sampled at the rate `fs`. -/
noncomputable def sine (a f fs : ℝ) (k : ℕ) : ℝ := a * Real.sin (2 * Real.pi * f * ((k : ℝ) / fs))

/-- The axis of sample `k` of `n`: the first third moves along x, the second along y, the last along z. -/
def thirdAxis (n k : ℕ) : Vec :=
  if k < (n + 2) / 3 then ![1, 0, 0] else if k < (n + 2) / 3 + (n + 1) / 3 then ![0, 1, 0] else ![0, 0, 1]

/-- Contract of `pd.date_range(start=0, periods=n, freq=f"{step}S")`: steps of a whole number of nanoseconds, at least 0.1 ms (shorter ones
are printed in scientific notation, which pandas does not read). -/
def DateRangeLaw (dateRange : ℝ → ℕ → Res (List ℤ)) : Prop :=
  ∀ k n : ℕ, 100000 ≤ k → dateRange ((k : ℝ) / 1000000000) n = .ok ((List.range n).map fun j : ℕ => (j : ℤ) * k)

end RBM.Spec
