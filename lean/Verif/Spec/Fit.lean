import Verif.Spec.Rigid
import Verif.Spec.Transform
import Verif.Spec.Plumbing
import Verif.Model.Estimators

/-!
Best fits: contracts of the external routines and what the best rotation / rigid motion between
corresponding vectors is.
-/

namespace RBM.Spec

open RBM Matrix

/-- `np.linalg.svd`: orthogonal factors and descending nonnegative singular values. -/
structure IsSvd (H U : Mat3) (S : Vec) (Vt : Mat3) : Prop where
  left : Uᵀ * U = 1
  right : Vtᵀ * Vt = 1
  factor : H = U * diagonal S * Vt
  ge01 : S 1 ≤ S 0
  ge12 : S 2 ≤ S 1
  nonneg : 0 ≤ S 2

/-- How much the rotation by `q` agrees with a matrix: inner product of the images of the basis vectors with
the columns. -/
noncomputable def agreement (q : Quat) (M : Mat3) : ℝ :=
  dot (rot q ![1, 0, 0]) (fun i => M i 0) + dot (rot q ![0, 1, 0]) (fun i => M i 1) + dot (rot q ![0, 0, 1]) (fun i => M i 2)

/-- Contracts of the external routines: `svd` is a singular value decomposition,
`from_rotation_matrix` (which works on nonorthogonal matrices, too) returns a unit quaternion whose
rotation agrees best with the matrix. -/
structure FitLaw (ext : FitExt) : Prop where
  svd : ∀ H, IsSvd H (ext.svd H).1 (ext.svd H).2.1 (ext.svd H).2.2
  unit : ∀ M, IsUnitQ (ext.quatOf M)
  best : ∀ M q, IsUnitQ q → agreement q M ≤ agreement (ext.quatOf M) M

/-- Squared distance. -/
def sqDist (v w : Vec) : ℝ := dot (v - w) (v - w)

/-- `q` is a least squares rotation of the first onto the second vectors of the pairs. -/
def IsBestRotation (pairs : List (Vec × Vec)) (q : Quat) : Prop :=
  IsUnitQ q ∧ ∀ p, IsUnitQ p → (pairs.map fun x => sqDist (rot q x.1) x.2).sum ≤ (pairs.map fun x => sqDist (rot p x.1) x.2).sum

/-- `P` is a least squares rigid motion of the first onto the second points of the pairs. -/
def IsBestMotion (pairs : List (Vec × Vec)) (P : Pose) : Prop :=
  IsUnitQ P.r ∧ ∀ P' : Pose, IsUnitQ P'.r →
    (pairs.map fun x => sqDist (P.act x.1) x.2).sum ≤ (pairs.map fun x => sqDist (P'.act x.1) x.2).sum

/-- The matrix `Σ a bᵀ`. -/
def corr (pairs : List (Vec × Vec)) : Mat3 := fun i j => (pairs.map fun x => x.1 i * x.2 j).sum

/-- `ids` lists the positions of all vectors along axis `p` of an array of shape `sh`. -/
def Lists (ids : List (List ℕ)) (sh : List ℕ) (p : ℕ) : Prop :=
  ids.Nodup ∧ ∀ idx, idx ∈ ids ↔ Valid (sh.set p 1) idx

/-- The corresponding vectors of two arrays with the vectors along axis `p` / `p'`. -/
def pairsOf (a b : ND ℝ) (p : ℕ) (ids : List (List ℕ)) : List (Vec × Vec) := ids.map fun i => (vec3 a p i, vec3 b p i)

/-- Is it a DataArray? -/
def _root_.RBM.PyArr.isDa : PyArr → Bool
  | .nd _ => false
  | .da _ => true

/-- The axis that is used: the position of `dim` for DataArrays, or `axis`, or the last one. -/
def spatialAxis (dim : Option String) (axis : Option ℤ) (p : ℕ) : ℤ := if dim.isSome then (p : ℤ) else axis.getD (-1)

/-- The first array has its vectors along axis `p`: given by `axis` (not the first axis for a plain
array, not zero for a DataArray), or by `dim` for a DataArray. -/
def VectorArg (v1 : PyArr) (dim : Option String) (axis : Option ℤ) (p : ℕ) : Prop :=
  (∃ a, v1 = .nd a ∧ dim = none ∧ AxisIs (axis.getD (-1)) a.ndim p ∧ p ≠ 0) ∨
  (∃ d, v1 = .da d ∧ DArr.Ok d ∧ dim = none ∧ AxisIs (axis.getD (-1)) d.data.ndim p ∧ axis ≠ some 0) ∨
  (∃ d n, v1 = .da d ∧ DArr.Ok d ∧ dim = some n ∧ axis = none ∧ DimAt d n p)

/-- Two arrays (or DataArrays) of vectors along axis `p` and `p'`. -/
structure Clouds (v1 v2 : PyArr) (dim : Option String) (axis : Option ℤ) (p p' : ℕ) : Prop where
  first : VectorArg v1 dim axis p
  ndim : 2 ≤ v1.data.ndim
  len : v1.data.shape.getD p 0 = 3
  second : AxisIs (spatialAxis dim axis p) v2.data.ndim p'
  len' : v2.data.shape.getD p' 0 = 3
  labels : ∀ d, v2 = .da d → DArr.Ok d ∧ (p' ≠ 0 ∨ (dim.isSome ∧ p = 0))

/-- Arrays of the same shape. -/
structure SameClouds (v1 v2 : PyArr) (dim : Option String) (axis : Option ℤ) (p : ℕ) : Prop where
  clouds : Clouds v1 v2 dim axis p p
  shape : v1.data.shape = v2.data.shape

/-- The result is a quaternion: four numbers, labelled if the first argument was a DataArray. -/
structure QuatResult (v1 r : PyArr) (q : Quat) : Prop where
  shape : r.data.shape = [4]
  value : quat4 r.data 0 [0] = q
  plain : (∃ a, v1 = .nd a) → ∃ b, r = .nd b
  labelled : (∃ d, v1 = .da d) → ∃ d, r = .da d ∧ DArr.Ok d ∧ d.info.dims = ["quaternion_axis"] ∧ d.info.name = some "rotation"

/-- The result is a translation. -/
structure TransResult (v1 r : PyArr) (t : Vec) : Prop where
  shape : r.data.shape = [3]
  value : vec3 r.data 0 [0] = t
  plain : (∃ a, v1 = .nd a) → ∃ b, r = .nd b
  labelled : (∃ d, v1 = .da d) → ∃ d, r = .da d ∧ DArr.Ok d ∧ d.info.dims = ["cartesian_axis"] ∧ d.info.name = some "translation"

end RBM.Spec
