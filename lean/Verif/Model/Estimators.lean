import Verif.Model.Plumbing
import Mathlib.LinearAlgebra.Matrix.Determinant.Basic

/-!
`estimators.py`: `_reshape_vectors`, `shortest_arc_rotation`, `best_fit_rotation`,
`best_fit_transform`, `iterative_closest_point`.
-/

noncomputable section

namespace RBM

open Matrix

abbrev Mat3 := Matrix (Fin 3) (Fin 3) ℝ

/-! ### numpy (external) -/

/-- `np.sum(a, axis=axis, keepdims=True)`. -/
def ND.sumKeep (a : ND ℝ) (axis : ℤ) : Res (ND ℝ) :=
  match normAxis axis a.ndim with
  | none => .error .valueError
  | some p => .ok ⟨a.shape.set p 1, fun idx => ((List.range (a.shape.getD p 0)).map fun k => a.get (idx.set p k)).sum⟩

/-- `np.concatenate((a, b), axis=axis)`: the shapes agree except along the axis. -/
def ND.concat2 (a b : ND ℝ) (axis : ℤ) : Res (ND ℝ) :=
  match normAxis axis a.ndim with
  | none => .error .valueError
  | some p =>
    if a.ndim ≠ b.ndim ∨ a.shape.eraseIdx p ≠ b.shape.eraseIdx p then .error .valueError
    else .ok ⟨a.shape.set p (a.shape.getD p 0 + b.shape.getD p 0), fun idx =>
      if idx.getD p 0 < a.shape.getD p 0 then a.get idx else b.get (idx.set p (idx.getD p 0 - a.shape.getD p 0))⟩

/-- `np.cross(a, b, axis=axis)`. Axes of length two are accepted by numpy but make the caller fail
with the same exception. -/
def npCrossAxis (a b : ND ℝ) (axis : ℤ) : Res (ND ℝ) :=
  match normAxis axis a.ndim, normAxis axis b.ndim with
  | some pa, some pb => match crossLast (a.moveaxis pa (a.ndim - 1)) (b.moveaxis pb (b.ndim - 1)) with
    | .error e => .error e
    | .ok c => match normAxis axis c.ndim with
      | none => .error .valueError
      | some pc => .ok (c.moveaxis (c.ndim - 1) pc)
  | _, _ => .error .valueError

/-- All indices of an array of the given shape, in C order. -/
def allIdx : List ℕ → List (List ℕ)
  | [] => [[]]
  | n :: sh => (List.range n).flatMap fun i => (allIdx sh).map fun l => i :: l

/-- The rows of `a.reshape(-1, 3)` for an array with last axis of length three. -/
def ND.rows3 (a : ND ℝ) : List Vec :=
  (allIdx a.shape.dropLast).map fun i => ![a.get (i ++ [0]), a.get (i ++ [1]), a.get (i ++ [2])]

/-! ### shortest_arc_rotation -/

/-- core.py:387-456 `_maybe_unpack_dataarray(arr, dim, axis, None)`: without a `timestamps` argument, when
the time coordinate is not used afterwards. For DataArrays with more than one axis the first axis
counts as the time axis. -/
def unpackNoTime (arr : PyArr) (dim : Option String) (axis : Option ℤ) : Res (ND ℝ × ℤ × Option Meta) :=
  match arr with
  | .nd a =>
    match dim with
    | some _ => .error .valueError
    | none => .ok (a, orDefault axis (-1), none)
  | .da d => do
    let (ax, _) ← unpackAxis d dim axis
    if d.data.ndim > 1 ∧ ax % d.data.ndim = 0 then throw .valueError
    return (d.data, ax, some d.info)

open Classical in
/-- estimators.py:268-275: the quaternions. Division by a vanishing norm is NaN. -/
def shortestArc (v1 v2 : ND ℝ) (axis : ℤ) : Res (ND ℝ) := do
  let sn1 ← (v1.map fun x => x ^ 2).sumKeep axis
  let sn2 ← (v2.map fun x => x ^ 2).sumKeep axis
  let prod ← ND.bop (fun x y => x * y) v1 v2
  let d12 ← prod.sumKeep axis
  let c12 ← npCrossAxis v1 v2 axis
  let ss ← ND.bop (fun x y => x * y) sn1 sn2
  let re ← ND.bop (fun x y => x + y) (ss.map Real.sqrt) d12
  let rotation ← re.concat2 c12 axis
  let sq ← (rotation.map fun x => x ^ 2).sumKeep axis
  let n := sq.map Real.sqrt
  if ∃ idx, Valid n.shape idx ∧ n.get idx = 0 then throw .nonfinite
  ND.bop (fun x y => x / y) rotation n

/-- estimators.py:236-281 `shortest_arc_rotation`. -/
def shortestArcRotation (x : XrOps) (v1 : PyArr) (v2 : ND ℝ) (dim : Option String := none) (axis : Option ℤ := none) :
    Res PyArr := do
  let (a, ax, info) ← unpackNoTime v1 dim axis
  let r ← shortestArc a v2 ax
  match info with
  | none => return .nd r
  | some m =>
    let m ← replaceDim m ax "quaternion" 3
    let d ← makeDataArray x r m none none
    return .da d

/-! ### best_fit_rotation, best_fit_transform -/

/-- `np.linalg.svd` of a 3 × 3 matrix and numpy-quaternion `from_rotation_matrix` (external). -/
structure FitExt where
  svd : Mat3 → Mat3 × Vec × Mat3
  quatOf : Mat3 → Quat

/-- estimators.py:17-40 `_reshape_vectors`. -/
def reshapeVectors (v1 v2 : PyArr) (axis : Option ℤ) (dim : Option String) (sameShape : Bool := true) :
    Res (List Vec × List Vec × Bool) := do
  let u ← maybeUnpack v1 dim axis none .no
  let (w, _, _) ← unpackNoTime v2 none (some u.axis)
  let k1 ← pyShape u.arr.shape u.axis
  let k2 ← pyShape w.shape u.axis
  if k1 ≠ 3 ∨ k2 ≠ 3 then throw .valueError
  if u.arr.ndim < 2 then throw .valueError
  let a ← u.arr.swapaxesZ u.axis (-1)
  let b ← w.swapaxesZ u.axis (-1)
  let a := a.rows3
  let b := b.rows3
  if sameShape ∧ a.length ≠ b.length then throw .valueError
  return (a, b, u.info.isSome)

/-- `np.dot(v1.T, v2)` (estimators.py:318, 383). -/
def crossCov (l1 l2 : List Vec) : Mat3 := fun i j => (List.zipWith (fun a b : Vec => a i * b j) l1 l2).sum

/-- estimators.py:317-323: the rotation for rows. -/
def fitRotation (ext : FitExt) (l1 l2 : List Vec) : Quat :=
  let (U, _, Vt) := ext.svd (crossCov l1 l2)
  ext.quatOf (Vtᵀ * Uᵀ)

/-- `np.mean(v, axis=0)` of a nonempty list of rows. -/
def meanRows (l : List Vec) : Vec := fun i => (l.map fun v => v i).sum / l.length

open Classical in
/-- estimators.py:376-399 `best_fit_transform` for rows of equal number. The mean of no rows is NaN,
for which `svd` raises `LinAlgError`. -/
def fitTransform (ext : FitExt) (l1 l2 : List Vec) : Res (Vec × Quat) :=
  if l1 = [] then .error .linAlgError
  else
    let m1 := meanRows l1
    let m2 := meanRows l2
    let H := crossCov (l1.map fun v => v - m1) (l2.map fun v => v - m2)
    let (U, _, Vt) := ext.svd H
    let R := Vtᵀ * Uᵀ
    let R := if R.det < 0 then (Vt.updateRow 2 (-Vt 2))ᵀ * Uᵀ else R
    .ok (m2 - R *ᵥ m1, ext.quatOf R)

/-- A one dimensional result, labelled if the input was a DataArray (estimators.py:43-60, 325-333). -/
def packVec (was : Bool) (dim : String) (labels : List String) (name : String) (l : List ℝ) : PyArr :=
  if was then .da ⟨ND.vec1 l, ⟨[(dim, labelCoord dim labels)], [dim], some name, []⟩⟩ else .nd (ND.vec1 l)

/-- A quaternion as a result. -/
def packQuat (was : Bool) (q : Quat) : PyArr :=
  packVec was "quaternion_axis" ["w", "x", "y", "z"] "rotation" [q.re, q.imI, q.imJ, q.imK]

/-- A translation as a result. -/
def packTrans (was : Bool) (t : Vec) : PyArr :=
  packVec was "cartesian_axis" ["x", "y", "z"] "translation" [t 0, t 1, t 2]

/-- estimators.py:284-340 `best_fit_rotation`. -/
def bestFitRotation (ext : FitExt) (v1 v2 : PyArr) (dim : Option String := none) (axis : Option ℤ := none) : Res PyArr := do
  let (l1, l2, was) ← reshapeVectors v1 v2 axis dim
  return packQuat was (fitRotation ext l1 l2)

/-- estimators.py:343-411 `best_fit_transform`. -/
def bestFitTransform (ext : FitExt) (v1 v2 : PyArr) (dim : Option String := none) (axis : Option ℤ := none) :
    Res (PyArr × PyArr) := do
  let (l1, l2, was) ← reshapeVectors v1 v2 axis dim
  let (t, r) ← fitTransform ext l1 l2
  return (packTrans was t, packQuat was r)

/-! ### iterative_closest_point -/

/-- `v[idx]`. -/
def gather (l : List Vec) : List ℕ → Res (List Vec)
  | [] => .ok []
  | i :: is => match l[i]? with
    | none => .error .indexError
    | some v => do
      let r ← gather l is
      return v :: r

/-- Euclidean distance. -/
def vdist (a b : Vec) : ℝ := Real.sqrt ((a 0 - b 0) ^ 2 + (a 1 - b 1) ^ 2 + (a 2 - b 2) ^ 2)

/-- estimators.py:510 / 493: `rotate_vectors(r, v) + t` for one rotation. -/
def moveRows (t : Vec) (r : Quat) (l : List Vec) : Res (List Vec) :=
  match rotateVectors (.one r) (.many l) with
  | .ok (.many m) => .ok (m.map fun v => v + t)
  | .ok (.one _) => .error .valueError      -- not reached
  | .error e => .error e

/-- estimators.py:414-419 and 502-510: one iteration. `nn` is the index found by `cKDTree(v2).query`
(external); for an empty tree it is `0`, which is out of range. Returns the moved points and the
mean distance before the move. -/
def icpStep (ext : FitExt) (nn : List Vec → Vec → ℕ) (v2 cur : List Vec) : Res (List Vec × ℝ) := do
  let m ← gather v2 (cur.map fun v => nn v2 v)
  let (t, r) ← fitTransform ext cur m
  let cur' ← moveRows t r cur
  return (cur', (List.zipWith vdist cur m).sum / cur.length)

open Classical in
/-- estimators.py:499-516: the loop, returning all point sets after the start, last one last. -/
def icpLoop (ext : FitExt) (nn : List Vec → Vec → ℕ) (v2 : List Vec) (tol : ℝ) : ℕ → List Vec → ℝ → Res (List (List Vec))
  | 0, _, _ => .ok []
  | k + 1, cur, prev => do
    let (cur', err) ← icpStep ext nn v2 cur
    if |prev - err| < tol then return [cur']
    else do
      let rest ← icpLoop ext nn v2 tol k cur' err
      return cur' :: rest

/-- estimators.py:489-494: the points the iterations start with. -/
def icpStart (l1 : List Vec) : Option (Vec × Quat) → Res (List Vec)
  | none => .ok l1
  | some (t, r) => moveRows t r l1

/-- estimators.py:485-519 for rows. Simplification: `init_transform` is a pair of arrays of shapes
`(3,)` and `(4,)`. -/
def icpRows (ext : FitExt) (nn : List Vec → Vec → ℕ) (l1 l2 : List Vec) (init : Option (Vec × Quat)) (maxIter : ℕ) (tol : ℝ) :
    Res (Vec × Quat) := do
  let start ← icpStart l1 init
  let its ← icpLoop ext nn l2 tol maxIter start 0
  fitTransform ext l1 (its.getLastD start)

/-- estimators.py:422-524 `iterative_closest_point`. -/
def iterativeClosestPoint (ext : FitExt) (nn : List Vec → Vec → ℕ) (v1 v2 : PyArr) (dim : Option String := none)
    (axis : Option ℤ := none) (init : Option (Vec × Quat) := none) (maxIter : ℕ := 20) (tol : ℝ := 1 / 1000) :
    Res (PyArr × PyArr) := do
  let (l1, l2, was) ← reshapeVectors v1 v2 axis dim false
  let (t, r) ← icpRows ext nn l1 l2 init maxIter tol
  return (packTrans was t, packQuat was r)

end RBM
