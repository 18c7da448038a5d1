import Verif.Model.Transform
import Mathlib.Analysis.SpecialFunctions.Complex.Arg
import Mathlib.Analysis.SpecialFunctions.Trigonometric.Inverse

/-!
`coordinate_systems.py` and the numpy functions it uses.
-/

noncomputable section

namespace RBM

namespace ND

/-- `np.take(a, k, axis)` for an integer `k`: `AxisError` and `IndexError` if out of range. -/
def take (a : ND ℝ) (k : ℕ) (axis : ℤ) : Res (ND ℝ) :=
  match normAxis axis a.ndim with
  | none => .error .valueError
  | some p => if k < a.shape.getD p 0 then .ok ⟨a.shape.eraseIdx p, fun idx => a.get (idx.insertIdx p k)⟩
      else .error .indexError

/-- `np.linalg.norm(a, axis=axis)`. -/
def norm (a : ND ℝ) (axis : ℤ) : Res (ND ℝ) :=
  match normAxis axis a.ndim with
  | none => .error .valueError
  | some p => .ok ⟨a.shape.eraseIdx p, fun idx =>
      Real.sqrt (((List.range (a.shape.getD p 0)).map fun k => a.get (idx.insertIdx p k) ^ 2).sum)⟩

/-- `np.stack(arrays, axis)` for arrays `a :: as`: all shapes must be equal, the axis counts in the
result. -/
def stack (a : ND ℝ) (as : List (ND ℝ)) (axis : ℤ) : Res (ND ℝ) :=
  if as.any (fun b => b.shape != a.shape) then .error .valueError
  else match normAxis axis (a.ndim + 1) with
  | none => .error .valueError
  | some p => .ok ⟨a.shape.insertIdx p (as.length + 1), fun idx =>
      ((a :: as).getD (idx.getD p 0) a).get (idx.eraseIdx p)⟩

end ND

/-- `np.arctan2(y, x)` (external): the angle of the point `(x, y)`. Signed zeros are not modelled. -/
def arctan2 (y x : ℝ) : ℝ := Complex.arg ⟨x, y⟩

/-- `if arr.shape[axis] != n: raise ValueError` (coordinate_systems.py:22-26 and others). -/
def checkAxis (arr : ND ℝ) (axis : ℤ) (n : ℕ) : Res Unit := do
  let k ← pyShape arr.shape axis
  if k = n then return () else throw .valueError

/-- coordinate_systems.py:6-30 `cartesian_to_polar`. -/
def cartesianToPolar (arr : ND ℝ) (axis : ℤ := -1) : Res (ND ℝ) := do
  checkAxis arr axis 2
  let r ← arr.norm axis
  let y ← arr.take 1 axis
  let x ← arr.take 0 axis
  let phi ← ND.bop arctan2 y x
  ND.stack r [phi] axis

/-- coordinate_systems.py:33-57 `polar_to_cartesian`. -/
def polarToCartesian (arr : ND ℝ) (axis : ℤ := -1) : Res (ND ℝ) := do
  checkAxis arr axis 2
  let r ← arr.take 0 axis
  let phi ← arr.take 1 axis
  let x ← ND.bop (fun r c => r * c) r (phi.map Real.cos)
  let y ← ND.bop (fun r c => r * c) r (phi.map Real.sin)
  ND.stack x [y] axis

open Classical in
/-- coordinate_systems.py:60-87 `cartesian_to_spherical`. At the origin `z / r` is NaN. -/
def cartesianToSpherical (arr : ND ℝ) (axis : ℤ := -1) : Res (ND ℝ) := do
  checkAxis arr axis 3
  let r ← arr.norm axis
  let z ← arr.take 2 axis
  let zr ← ND.bop (fun z r => z / r) z r
  if ∃ idx, Valid r.shape idx ∧ r.get idx = 0 then throw .nonfinite
  let theta := zr.map Real.arccos
  let y ← arr.take 1 axis
  let x ← arr.take 0 axis
  let phi ← ND.bop arctan2 y x
  ND.stack r [theta, phi] axis

/-- coordinate_systems.py:90-125 `spherical_to_cartesian`. -/
def sphericalToCartesian (arr : ND ℝ) (axis : ℤ := -1) : Res (ND ℝ) := do
  checkAxis arr axis 3
  let r ← arr.take 0 axis
  let theta ← arr.take 1 axis
  let phi ← arr.take 2 axis
  let s ← ND.bop (fun r c => r * c) r (theta.map Real.sin)
  let x ← ND.bop (fun r c => r * c) s (phi.map Real.cos)
  let y ← ND.bop (fun r c => r * c) s (phi.map Real.sin)
  let z ← ND.bop (fun r c => r * c) r (theta.map Real.cos)
  ND.stack x [y, z] axis

end RBM
