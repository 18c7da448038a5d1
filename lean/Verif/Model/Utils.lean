import Verif.Model.Transform
import Mathlib.Analysis.SpecialFunctions.Trigonometric.Basic

/-!
`utils.py`: `qinv`, `qmul`, `qmean`, `from_euler_angles`.
-/

noncomputable section

namespace RBM

/-- A numpy array holding quaternions: of quaternion dtype or of float dtype. -/
inductive QArr
  | quat (q : ND Quat)
  | float (q : ND ℝ)

namespace QArr
def isQuat : QArr → Bool
  | quat _ => true
  | float _ => false
end QArr

open Classical in
/-- `1 / q` for an array of quaternion dtype (numpy-quaternion, external); the reciprocal of a zero
quaternion is NaN. -/
def npQInv (q : ND Quat) : Res (ND Quat) :=
  if ∃ idx, Valid q.shape idx ∧ q.get idx = 0 then .error .nonfinite else .ok (q.map fun x => x⁻¹)

/-- utils.py:20-45 `qinv`. -/
def qinv (q : QArr) (qaxis : ℤ := -1) : Res QArr :=
  match q with
  | .float q => do
    let q ← q.swapaxesZ qaxis (-1)
    let q ← asQuatArray q
    let qi ← npQInv q
    let r ← (asFloatArray qi).swapaxesZ (-1) qaxis
    return .float r
  | .quat q => do
    let qi ← npQInv q
    return .quat qi

/-- `reduce(operator.mul, q, 1)` (utils.py:74, 77): the initial value is the integer 1, which
multiplies an array without changing its shape. -/
def qreduce : List (ND Quat) → Res (ND Quat)
  | [] => .error .valueError    -- not reached: at least two arguments
  | q :: qs => qs.foldlM (fun acc x => ND.bop (fun a b => a * b) acc x) (q.map fun x => 1 * x)

/-- The generator expression utils.py:73 (all arrays are converted before use; the order of
conversion errors and multiplication errors is not distinguished, both are `ValueError`). -/
def toQuats (qaxis : ℤ) : List QArr → Res (List (ND Quat))
  | [] => .ok []
  | .float q :: qs => do
    let q ← q.swapaxesZ qaxis (-1)
    let q ← asQuatArray q
    let r ← toQuats qaxis qs
    return q :: r
  | .quat q :: qs => do
    let r ← toQuats qaxis qs
    return q :: r

/-- utils.py:48-81 `qmul`. -/
def qmul (q : List QArr) (qaxis : ℤ := -1) : Res QArr :=
  if q.length < 2 then .error .valueError
  else if q.all (fun x => !x.isQuat) then do
    let q ← toQuats qaxis q
    let qm ← qreduce q
    let r ← (asFloatArray qm).swapaxesZ (-1) qaxis
    return .float r
  else if q.all (fun x => x.isQuat) then do
    let q ← toQuats qaxis q
    let qm ← qreduce q
    return .quat qm
  else .error .valueError

/-! ### qmean -/

abbrev Mat4 := Matrix (Fin 4) (Fin 4) ℝ

/-- The four components of a quaternion. -/
def qvec (q : Quat) : Fin 4 → ℝ := fun i => qcomp q i
/-- `as_quat_array` of one row. -/
def ofQvec (v : Fin 4 → ℝ) : Quat := ⟨v 0, v 1, v 2, v 3⟩

/-- utils.py:117-120: the mean of the outer products of all quaternions (`axis=None`). -/
def meanOuter (qs : List Quat) : Mat4 := fun i j => (qs.map fun q => qvec q i * qvec q j).sum / qs.length

/-- utils.py:84-134 `qmean(q, axis=None)` for an array of any shape with the quaternions `qs`, with
`eig` = `np.linalg.eig` and `argsort` = `ndarray.argsort` as parameters. `eig` returns the
eigenvalues and the matrix whose columns are eigenvectors. utils.py:124-125: `idx = (perm, 0)`, so
component `i` of the result is `v[perm[i], 0]`. The eigenvalues of the symmetric matrix are real.
Without quaternions the mean is NaN and `eig` raises `LinAlgError`. For
arrays and the `axis` argument see Model/Mean. -/
def qmeanAll (eig : Mat4 → (Fin 4 → ℝ) × Mat4) (argsort : (Fin 4 → ℝ) → Fin 4 → Fin 4) (qs : List Quat) : Res Quat :=
  if qs = [] then .error .linAlgError
  else
    let A := meanOuter qs
    let l := (eig A).1
    let v := (eig A).2
    let perm := fun i : Fin 4 => argsort l (Fin.rev i)
    .ok (ofQvec fun i => v (perm i) 0)

/-! ### Euler angles -/

/-- numpy-quaternion `from_rotation_vector` for one vector (external): `exp` of half the vector. -/
def fromRotationVector (v : Vec) : Quat :=
  let h : Vec := fun i => v i / 2
  let n := Real.sqrt (h 0 * h 0 + h 1 * h 1 + h 2 * h 2)
  if n = 0 then ⟨1, 0, 0, 0⟩
  else ⟨Real.cos n, Real.sin n / n * h 0, Real.sin n / n * h 1, Real.sin n / n * h 2⟩

/-- `order.index(c)` (utils.py:359-361); `ValueError` if missing. -/
def strIndex (order : List Char) (c : Char) : Res ℕ :=
  if c ∈ order then .ok (order.idxOf c) else .error .valueError

/-- `rotors[order.index(c)] = x` (utils.py:359-361): the list has three entries. `IndexError` is
converted to `ValueError` (utils.py:362-365). -/
def setRotor {α : Type _} (rotors : List (Option α)) (order : List Char) (c : Char) (x : Option α) : Res (List (Option α)) := do
  let k ← strIndex order c
  if k < rotors.length then return rotors.set k x else throw .valueError

/-- utils.py:357-365. -/
def arrange {α : Type _} (order : List Char) (r p y : Option α) : Res (List (Option α)) := do
  let l ← setRotor [none, none, none] order 'r' r
  let l ← setRotor l order 'p' p
  setRotor l order 'y' y

/-- utils.py:368-371: `q = quaternion(1, 0, 0, 0)`, `q = q * r` for every rotor that is given. -/
def chainRotors : List (Option (ND Quat)) → ND Quat → Res (ND Quat)
  | [], q => .ok q
  | none :: rs, q => chainRotors rs q
  | some r :: rs, q => do
    let q ← ND.bop (fun a b => a * b) q r
    chainRotors rs q

/-- Keyword arguments of `from_euler_angles`. -/
structure EulerArgs where
  rpy : Option (ND ℝ) := none
  roll : Option (ND ℝ) := none
  pitch : Option (ND ℝ) := none
  yaw : Option (ND ℝ) := none
  axis : ℤ := -1
  order : List Char := ['r', 'p', 'y']

/-- `rpy[..., k]` (utils.py:314-316) for an array with at least one axis. -/
def takeLast (a : ND ℝ) (k : ℕ) : Res (ND ℝ) :=
  match a.shape.getLast? with
  | none => .error .indexError
  | some n => if k < n then .ok ⟨a.shape.dropLast, fun idx => a.get (idx ++ [k])⟩ else .error .indexError

/-- utils.py:308-319. -/
def splitRpy (o : EulerArgs) : Res (Option (ND ℝ) × Option (ND ℝ) × Option (ND ℝ) × Option (List ℕ)) :=
  match o.rpy with
  | some rpy =>
    if o.roll.isSome ∨ o.pitch.isSome ∨ o.yaw.isSome then .error .valueError
    else do
      let rpy ← rpy.swapaxesZ o.axis (-1)
      let r ← takeLast rpy 0
      let p ← takeLast rpy 1
      let y ← takeLast rpy 2
      return (some r, some p, some y, some rpy.shape.dropLast)
  | none => .ok (o.roll, o.pitch, o.yaw, none)

/-- utils.py:328-350 for one angle: check the shape and build the rotors about axis `e`. -/
def angleRotors (e : ℝ → Vec) (a : Option (ND ℝ)) (shape : Option (List ℕ)) :
    Res (Option (ND Quat) × Option (List ℕ)) :=
  match a with
  | none => .ok (none, shape)
  | some a =>
    match shape with
    | none => .ok (some (a.map fun x => fromRotationVector (e x)), some a.shape)
    | some sh => if sh ≠ a.shape then .error .valueError
        else .ok (some (a.map fun x => fromRotationVector (e x)), some sh)

/-- utils.py:321-326: roll overwrites the shape without a check, which makes no difference because
it comes first. -/
def rollRotors (a : Option (ND ℝ)) (shape : Option (List ℕ)) : Res (Option (ND Quat) × Option (List ℕ)) :=
  match a with
  | none => .ok (none, shape)
  | some a => .ok (some (a.map fun x => fromRotationVector ![x, 0, 0]), some a.shape)

/-- utils.py:266-382 `from_euler_angles(..., return_quaternion=True)`. -/
def fromEulerQ (o : EulerArgs) : Res (ND Quat) := do
  let (roll, pitch, yaw, shape) ← splitRpy o
  let (roll, shape) ← rollRotors roll shape
  let (pitch, shape) ← angleRotors (fun x => ![0, x, 0]) pitch shape
  let (yaw, shape) ← angleRotors (fun x => ![0, 0, x]) yaw shape
  if shape = none then throw .valueError
  let rotors ← arrange o.order roll pitch yaw
  chainRotors rotors ⟨[], fun _ => ⟨1, 0, 0, 0⟩⟩

/-- utils.py:373-376 with `return_quaternion=False`. -/
def fromEuler (o : EulerArgs) : Res (ND ℝ) := do
  let q ← fromEulerQ o
  (asFloatArray q).swapaxesZ (-1) o.axis

end RBM
