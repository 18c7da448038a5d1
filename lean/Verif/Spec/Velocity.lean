import Verif.Model.Velocity
import Verif.Spec.Plumbing

/-!
Contracts of the external numerical routines used for velocities, and the vocabulary of the velocity
properties.
-/

namespace RBM.Spec

open RBM

/-- `filtfilt` with a Butterworth low-pass: a constant signal passes unchanged. -/
def FiltLaw (ext : Ext) : Prop := ∀ c (n : ℕ) (m : ℝ) (i : ℕ), 0 < c → c < 1 → 24 < n → i < n →
  ext.filt c (List.replicate n m) i = m

/-- `derivative` accepts at least `n0` samples at strictly increasing times, is local to its lane, and
is exact for signals that are affine in time. -/
structure DerivLaw (ext : Ext) (n0 : ℕ) : Prop where
  accepts : ∀ ts : List ℝ, n0 ≤ ts.length → StrictlyIncreasing ts → ext.derivErr ts = none
  affine : ∀ (ts : List ℝ) (c m : ℝ) (i : ℕ), n0 ≤ ts.length → StrictlyIncreasing ts → i < ts.length →
    ext.deriv (ts.map fun τ => c + m * τ) ts i = m

/-- The entries of `arr` along axis `p` through `idx`, as a function of the timestamps, follow `f`. -/
def Follows (arr : ND ℝ) (p : ℕ) (ts : List ℝ) (idx : List ℕ) (f : ℝ → ℝ) : Prop :=
  ∀ (k : ℕ) τ, ts[k]? = some τ → arr.get (idx.set p k) = f τ

end RBM.Spec

namespace RBM.Spec

open RBM

/-- Euclidean norm of the second difference of the rows of `arr` around row `i`; zero for the first and
last of the `n` rows. -/
noncomputable def bend (arr : ND ℝ) (n k i : ℕ) : ℝ :=
  if 1 ≤ i ∧ i + 1 < n then Real.sqrt (∑ j ∈ Finset.range k, (arr.get [i + 1, j] - 2 * arr.get [i, j] + arr.get [i - 1, j]) ^ 2) else 0

/-- The statistic by which the code judges row `i` an outlier: the bend at the row itself plus the bend
at the next row. -/
noncomputable def jump (arr : ND ℝ) (n k i : ℕ) : ℝ := bend arr n k i + bend arr n k (i + 1)

/-- `w` is `v` with the rows that are not retained replaced: retained rows are unchanged, rows between two
retained ones are interpolated linearly in time between the nearest retained rows, rows before the first
or after the last retained row are NaN. -/
structure Interpolated (v w : ND (Option ℝ)) (n k : ℕ) (ts : List ℝ) (retained : ℕ → Prop) : Prop where
  kept : ∀ i j, i < n → j < k → retained i → w.get [i, j] = v.get [i, j]
  between : ∀ i j a b x y, a < i → i < b → b < n → j < k → retained a → retained b → (∀ m, a < m → m < b → ¬ retained m) →
    v.get [a, j] = some x → v.get [b, j] = some y → ∃ t, 0 ≤ t ∧ t ≤ 1 ∧
      (1 - t) * ts.getD a 0 + t * ts.getD b 0 = ts.getD i 0 ∧ w.get [i, j] = some ((1 - t) * x + t * y)
  outside : ∀ i j, i < n → j < k → ((∀ m, m ≤ i → ¬ retained m) ∨ (∀ m, i ≤ m → m < n → ¬ retained m)) → w.get [i, j] = none

end RBM.Spec

namespace RBM.Spec

open RBM

/-- The time derivative of the quaternions along axis `pa` of `arr`, as computed by the external routine along
the time axis `p`. -/
noncomputable def quatRate (ext : Ext) (arr : ND ℝ) (pa p : ℕ) (ts : List ℝ) (idx : List ℕ) : Quat :=
  let D := fun c => ext.deriv ((List.range ts.length).map fun k => arr.get ((idx.set pa c).set p k)) ts (idx.getD p 0)
  ⟨D 0, D 1, D 2, D 3⟩

end RBM.Spec

namespace RBM.Spec

open RBM

/-- The array `v` has the vector `w` along axis `pa` through the index `idx`. -/
def HasVec (v : ND (Option ℝ)) (pa : ℕ) (idx : List ℕ) (w : Vec) : Prop := ∀ j : Fin 3, v.get (idx.set pa j) = some (w j)

/-- The rotation about the unit axis `u` by the angle `θ`. -/
noncomputable def axisAngle (u : Vec) (θ : ℝ) : Quat :=
  ⟨Real.cos (θ / 2), Real.sin (θ / 2) * u 0, Real.sin (θ / 2) * u 1, Real.sin (θ / 2) * u 2⟩

end RBM.Spec

namespace RBM.Spec

open RBM

/-- The rows of an `(n, 3)` array. -/
def rowsOf (a : ND ℝ) : List Vec := (List.range (a.shape.getD 0 0)).map fun i => vec3 a 1 [i, 0]

/-- An array that is one constant vector (no timestamps) or a series of vectors with strictly increasing
timestamps. -/
def IsSeries (a : ND ℝ) : Option (List ℝ) → Prop
  | none => a.shape = [3]
  | some ts => a.shape = [ts.length, 3] ∧ 2 ≤ ts.length ∧ StrictlyIncreasing ts

/-- The value of such an array at time `τ`: the constant vector, or the linear interpolation. -/
def ValueAt (a : ND ℝ) (ts : Option (List ℝ)) (τ : ℝ) (v : Vec) : Prop :=
  match ts with
  | none => v = vec3 a 0 [0]
  | some ts => IsLinInterp ts (rowsOf a) τ v

end RBM.Spec

namespace RBM.Spec

open RBM

/-- The array has the value `v` at its sample time `τ` (a constant vector has it at all times). -/
def SampleAt (a : ND ℝ) (ts : Option (List ℝ)) (τ : ℝ) (v : Vec) : Prop :=
  match ts with
  | none => v = vec3 a 0 [0]
  | some ts => ∃ k : ℕ, ts[k]? = some τ ∧ v = vec3 a 1 [k, 0]

end RBM.Spec

namespace RBM.Spec

open RBM

/-- The numerical time derivative of a series of quaternions at sample `k`, by components. -/
noncomputable def quatDeriv (ext : Ext) (qs : List Quat) (ts : List ℝ) (k : ℕ) : Quat :=
  ⟨ext.deriv (qs.map (·.re)) ts k, ext.deriv (qs.map (·.imI)) ts k, ext.deriv (qs.map (·.imJ)) ts k, ext.deriv (qs.map (·.imK)) ts k⟩

end RBM.Spec

namespace RBM.Spec

open RBM

/-- Shape of a constant vector or a series of vectors. -/
def seriesShape : Option (List ℝ) → List ℕ
  | none => [3]
  | some ts => [ts.length, 3]

/-- The timestamps shared by several series: those of the first one that has timestamps, as far as they lie in the ranges
of all. -/
noncomputable def sharedStamps (l : List (Option (List ℝ))) : Option (List ℝ) :=
  match l.filterMap id with
  | [] => none
  | y :: ys => some (commonStamps y (y :: ys))

end RBM.Spec
