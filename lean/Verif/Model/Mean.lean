import Verif.Model.Utils
import Verif.Model.Estimators

/-!
`qmean` with an `axis` argument (utils.py:84-134).
-/

noncomputable section

namespace RBM

/-- The entries of a shape or an index, whose first position counts as `k`, at positions that are not in `axes`. -/
def dropAxesFrom (axes : List ℕ) : ℕ → List ℕ → List ℕ
  | _, [] => []
  | k, x :: l => if k ∈ axes then dropAxesFrom axes (k + 1) l else x :: dropAxesFrom axes (k + 1) l

/-- What is left of a shape or an index after a reduction over `axes`. -/
def dropAxes (axes l : List ℕ) : List ℕ := dropAxesFrom axes 0 l

/-- utils.py:113 and the axes of `np.mean` (utils.py:118): the same axis twice is a ValueError. -/
def meanAxes (axis : AxisArg) (ndim : ℕ) : Res (List ℕ) := do
  match ← resolveAxis axis ndim with
  | .int a => return [a.toNat]
  | .tuple l => if (l.map Int.toNat).Nodup then return l.map Int.toNat else throw .valueError
  | .none => throw .typeError      -- not reached

/-- utils.py:115-118: the quaternions whose outer products are averaged at position `idx` of the result. -/
def meanGroup (q : ND Quat) (axes idx : List ℕ) : List Quat :=
  ((allIdx q.shape).filter fun i => decide (dropAxes axes i = idx)).map q.get

/-- utils.py:115-126: `np.unravel_index` takes the numbers 0 to 3 from `argsort` for positions in the flattened array of all eigenvalues, so that all
leading indices are 0 and the eigenvectors of the first matrix are used everywhere. The mean over an empty axis is NaN, for which `eig` raises
`LinAlgError`. -/
def qmeanOver (eig : Mat4 → (Fin 4 → ℝ) × Mat4) (argsort : (Fin 4 → ℝ) → Fin 4 → Fin 4) (q : ND Quat) (axes : List ℕ) : Res (ND Quat) :=
  let rest := dropAxes axes q.shape
  if 0 ∈ q.shape ∧ 0 ∉ rest then .error .linAlgError
  else
    let v := (eig (meanOuter (meanGroup q axes (List.replicate rest.length 0)))).2
    .ok ⟨rest, fun idx =>
      let l := (eig (meanOuter (meanGroup q axes idx))).1
      ofQvec fun i => v (argsort l (Fin.rev i)) 0⟩

/-- utils.py:84-134 `qmean`. Simplification: for float arrays whose quaternion axis is not of length 4, numpy computes something else; here a
ValueError. -/
def qmean (eig : Mat4 → (Fin 4 → ℝ) × Mat4) (argsort : (Fin 4 → ℝ) → Fin 4 → Fin 4) (q : QArr) (axis : AxisArg := .none) (qaxis : ℤ := -1) : Res QArr :=
  match q with
  | .float q => do
    let q ← q.swapaxesZ qaxis (-1)
    let q ← asQuatArray q
    let axes ← meanAxes axis q.ndim
    let m ← qmeanOver eig argsort q axes
    let r ← (asFloatArray m).swapaxesZ (-1) qaxis
    return .float r
  | .quat q => do
    let axes ← meanAxes axis q.ndim
    let m ← qmeanOver eig argsort q axes
    return .quat m

end RBM
