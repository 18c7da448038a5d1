import Mathlib.Analysis.Quaternion
import Mathlib.LinearAlgebra.CrossProduct

/-!
Basic vocabulary of the model: exceptions, vectors, quaternions, "row level" arrays and the two
rotation formulas used by the library.
-/

namespace RBM

open Matrix

/-- Python exceptions that the library (or numpy/scipy/anytree below it) raises.
`nonfinite` is not an exception: it marks a result containing NaN/inf, for which numpy returns
normally (simplification: the model stops at the first such result). -/
inductive PyErr
  | valueError | typeError | keyError | indexError | attributeError | runtimeError
  | notImplementedError | zeroDivisionError | loopError | treeError | walkError | assertionError | linAlgError
  | nonfinite | overflowError | traitError | lookupException | serializationError | osError | bagException
  deriving DecidableEq, Repr

/-- Outcome of a Python call. -/
abbrev Res (α : Type _) := Except PyErr α

/-- A row of three floats (idealised to ℝ). -/
abbrev Vec := Fin 3 → ℝ

/-- A numpy-quaternion scalar (idealised to ℝ). -/
abbrev Quat := Quaternion ℝ

/-- A numpy array seen as rows: `one` is shape `(k,)`, `many` is shape `(n, k)`. -/
inductive Arr (α : Type _)
  | one (a : α)
  | many (l : List α)

namespace Arr

/-- Elementwise map. -/
def map {α β} (f : α → β) : Arr α → Arr β
  | one a => one (f a)
  | many l => many (l.map f)

/-- numpy broadcasting of a binary row operation between shapes `(k,)`/`(n,k)`. -/
def bzip {α β γ} (f : α → β → γ) : Arr α → Arr β → Res (Arr γ)
  | one a, one b => .ok (one (f a b))
  | one a, many bs => .ok (many (bs.map (f a)))
  | many as, one b => .ok (many (as.map fun a => f a b))
  | many as, many bs =>
      if as.length = bs.length then .ok (many (List.zipWith f as bs))
      else match as, bs with
        | [a], bs => .ok (many (bs.map (f a)))
        | as, [b] => .ok (many (as.map fun a => f a b))
        | _, _ => .error .valueError

end Arr

/-- `q[..., 1:]`: the vector part of a quaternion. -/
def imVec (q : Quat) : Vec := ![q.imI, q.imJ, q.imK]

/-- numpy-quaternion `as_rotation_matrix` (external; called through `quat_rv` in
utils.py:242-243): for a nonzero quaternion, with `n = w²+x²+y²+z²`. -/
noncomputable def rotMat (q : Quat) : Matrix (Fin 3) (Fin 3) ℝ :=
  let w := q.re; let x := q.imI; let y := q.imJ; let z := q.imK
  let n := w * w + x * x + y * y + z * z
  !![1 - 2 * (y * y + z * z) / n, 2 * (x * y - z * w) / n, 2 * (x * z + y * w) / n;
     2 * (x * y + z * w) / n, 1 - 2 * (x * x + z * z) / n, 2 * (y * z - x * w) / n;
     2 * (x * z - y * w) / n, 2 * (y * z + x * w) / n, 1 - 2 * (x * x + y * y) / n]

/-- utils.py:242-243 (`quat_rv` for a single quaternion and a single vector). -/
noncomputable def rotateMatrixForm (q : Quat) (v : Vec) : Vec := rotMat q *ᵥ v

/-- utils.py:255-261 for one quaternion and one vector: `m = |q|`,
`v + 2 * cross(r, s*v + cross(r, v)) / m`. -/
noncomputable def rotateCrossForm (q : Quat) (v : Vec) : Vec :=
  let r := imVec q
  let s := q.re
  let m := Real.sqrt (q.re * q.re + q.imI * q.imI + q.imJ * q.imJ + q.imK * q.imK)
  v + (2 / m) • (r ⨯₃ (s • v + r ⨯₃ v))

open Classical in
/-- utils.py:197-263 `rotate_vectors(q, v)` with `axis=-1`, `one_to_one=True` for `q` of
quaternion shape `()`/`(n,)` and `v` of shape `(3,)`/`(n,3)`. A zero quaternion raises
`ZeroDivisionError` in `quat_rv` and yields NaN in the array branch. -/
noncomputable def rotateVectors : Arr Quat → Arr Vec → Res (Arr Vec)
  | .one q, v => if q = 0 then .error .zeroDivisionError else .ok (v.map (rotateMatrixForm q))
  | .many _, .one _ => .error .valueError          -- q.ndim != v.ndim - 1
  | .many qs, .many vs =>
      match Arr.bzip rotateCrossForm (.many qs) (.many vs) with
      | .error e => .error e
      | .ok r => if 0 ∈ qs then .error .nonfinite else .ok r

open Classical in
/-- utils.py:20-45 `qinv` / the expression `1 / as_quat_array(r)` in core.py:272-275, for shapes
`(4,)`/`(n,4)`; the reciprocal of a zero quaternion is NaN. -/
noncomputable def qinvArr : Arr Quat → Res (Arr Quat)
  | .one q => if q = 0 then .error .nonfinite else .ok (.one q⁻¹)
  | .many qs => if 0 ∈ qs then .error .nonfinite else .ok (.many (qs.map (·⁻¹)))

end RBM
