import Verif.Spec.Transform
import Mathlib.Analysis.SpecialFunctions.Trigonometric.Basic

/-!
Polar and spherical coordinates (ISO 80000-2: `theta` is the angle to the z axis, `phi` the azimuth).
-/

namespace RBM.Spec

open RBM Real

/-- `(r, phi)` are the polar coordinates of the point `(x, y)`; at the origin the angle is zero. -/
def IsPolar (x y r phi : ℝ) : Prop :=
  x = r * cos phi ∧ y = r * sin phi ∧ 0 ≤ r ∧ -π < phi ∧ phi ≤ π ∧ (r = 0 → phi = 0)

/-- `(r, theta, phi)` are the spherical coordinates of the point `(x, y, z)`, which is not the origin;
on the z axis the azimuth is zero. -/
def IsSpherical (x y z r theta phi : ℝ) : Prop :=
  x = r * sin theta * cos phi ∧ y = r * sin theta * sin phi ∧ z = r * cos theta ∧
  0 < r ∧ 0 ≤ theta ∧ theta ≤ π ∧ -π < phi ∧ phi ≤ π ∧ (sin theta = 0 → phi = 0)

/-- The array holds `n`-tuples along axis `p`. -/
structure TupleAxis (arr : ND ℝ) (axis : ℤ) (p n : ℕ) : Prop where
  axis : AxisIs axis arr.ndim p
  len : arr.shape.getD p 0 = n

/-- Entry `k` of the tuple that the array stores along axis `p` through the index `idx`. -/
def entry (v : ND ℝ) (p : ℕ) (idx : List ℕ) (k : ℕ) : ℝ := v.get (idx.set p k)

/-- The supported conversions with the number of coordinates, and the name and labels of the new axis. -/
inductive Conversion : (outof into : String) → (n : ℕ) → (dim : String) → (labels : List String) → Prop
  | toPolar : Conversion "cartesian" "polar" 2 "polar_axis" ["r", "phi"]
  | fromPolar : Conversion "polar" "cartesian" 2 "cartesian_axis" ["x", "y"]
  | toSpherical : Conversion "cartesian" "spherical" 3 "spherical_axis" ["r", "theta", "phi"]
  | fromSpherical : Conversion "spherical" "cartesian" 3 "cartesian_axis" ["x", "y", "z"]

/-- `out` holds the converted coordinates of `arr` (tuples along axis `p`). -/
def Converted (outof into : String) (arr out : ND ℝ) (p : ℕ) : Prop :=
  out.shape = arr.shape ∧ ∀ idx, Valid arr.shape idx →
    (outof = "cartesian" → into = "polar" →
      IsPolar (entry arr p idx 0) (entry arr p idx 1) (entry out p idx 0) (entry out p idx 1)) ∧
    (outof = "polar" → into = "cartesian" →
      entry out p idx 0 = entry arr p idx 0 * cos (entry arr p idx 1) ∧
      entry out p idx 1 = entry arr p idx 0 * sin (entry arr p idx 1)) ∧
    (outof = "cartesian" → into = "spherical" →
      IsSpherical (entry arr p idx 0) (entry arr p idx 1) (entry arr p idx 2) (entry out p idx 0) (entry out p idx 1) (entry out p idx 2)) ∧
    (outof = "spherical" → into = "cartesian" →
      entry out p idx 0 = entry arr p idx 0 * sin (entry arr p idx 1) * cos (entry arr p idx 2) ∧
      entry out p idx 1 = entry arr p idx 0 * sin (entry arr p idx 1) * sin (entry arr p idx 2) ∧
      entry out p idx 2 = entry arr p idx 0 * cos (entry arr p idx 1))

/-- Spherical coordinates of the origin do not exist. -/
def InDomain (outof into : String) (arr : ND ℝ) (p : ℕ) : Prop :=
  outof = "cartesian" → into = "spherical" → ∀ idx, Valid arr.shape idx →
    ¬ (entry arr p idx 0 = 0 ∧ entry arr p idx 1 = 0 ∧ entry arr p idx 2 = 0)

/-- Tuples for which forth and back is the identity: positive radius, angles in the usual ranges; for
Cartesian tuples as `InDomain`. -/
def Invertible (outof into : String) (arr : ND ℝ) (p : ℕ) : Prop :=
  InDomain outof into arr p ∧
  (outof = "polar" → ∀ idx, Valid arr.shape idx →
    0 < entry arr p idx 0 ∧ -π < entry arr p idx 1 ∧ entry arr p idx 1 ≤ π) ∧
  (outof = "spherical" → ∀ idx, Valid arr.shape idx →
    0 < entry arr p idx 0 ∧ 0 < entry arr p idx 1 ∧ entry arr p idx 1 < π ∧
      -π < entry arr p idx 2 ∧ entry arr p idx 2 ≤ π)

end RBM.Spec
