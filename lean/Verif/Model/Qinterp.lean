import Verif.Model.Utils
import Verif.Model.Lookups

/-!
`qinterp` (utils.py:137-194) and the DataArray accessor (accessors.py).
-/

noncomputable section

namespace RBM

/-- numpy-quaternion `squad(R_in, t_in, t_out)` along the first axis (external): an empty one dimensional array if there is nothing to interpolate or
nothing asked for; an error of numpy's broadcasting (converted to RuntimeError, utils.py:184-188) if the times do not fit; it accesses `R_in[-2]`;
otherwise every lane is interpolated separately. (Simplification: the single time that numpy would broadcast counts as not fitting.) -/
def squadAxis0 (sq : SquadFn) (q : ND Quat) (tin tout : List ℝ) : Res (ND Quat) :=
  match q.shape with
  | [] => .error .indexError      -- not reached
  | n :: rest =>
    if (n :: rest).prod = 0 ∨ tout = [] then .ok ⟨[0], fun _ => 0⟩
    else if tin.length ≠ n then .error .runtimeError
    else if n < 2 then .error .indexError
    else .ok ⟨tout.length :: rest, fun idx =>
      sq ((List.range n).map fun i => q.get (i :: idx.drop 1)) tin (tout.getD (idx.getD 0 0) 0)⟩

/-- `axis % n` (utils.py:165, 170), which accepts all integers. -/
def pyModAxis (axis : ℤ) (n : ℕ) : Res ℕ :=
  if n = 0 then .error .zeroDivisionError else .ok (axis % n).toNat

/-- utils.py:182-189: interpolation along `axis` of an array of quaternion dtype. -/
def interpAxis (sq : SquadFn) (q : ND Quat) (tin tout : List ℝ) (axis : ℕ) : Res (ND Quat) := do
  let q ← q.swapaxesZ axis 0
  let qi ← squadAxis0 sq q tin tout
  qi.swapaxesZ 0 axis

/-- utils.py:137-194 `qinterp`. The times are one dimensional. -/
def qinterp (sq : SquadFn) (q : QArr) (tin tout : List ℝ) (axis : ℤ := 0) (qaxis : ℤ := -1) : Res QArr :=
  match q with
  | .float q => do
    let axis ← pyModAxis axis q.ndim
    let qaxis ← pyModAxis qaxis q.ndim
    let axis := if axis + 1 = q.ndim then qaxis else axis
    let q ← q.swapaxesZ qaxis (-1)
    let q ← asQuatArray q
    let qi ← interpAxis sq q tin tout axis
    let r ← (asFloatArray qi).swapaxesZ (-1) qaxis
    return .float r
  | .quat q => do
    let axis ← pyModAxis axis q.ndim
    let qi ← interpAxis sq q tin tout axis
    return .quat qi

/-- `.values` of the result for a float array. -/
def QArr.floats : QArr → ND ℝ
  | .float q => q
  | .quat q => asFloatArray q

/-- `coords[dim]` as times (accessors.py:76, utils.py:166): `0 .. n-1` without such a coordinate (xarray, external); labels cannot be converted to float. -/
def coordTimes (d : DArr) (dim : String) : Res (List ℝ) :=
  match dictGet d.info.coords dim with
  | none => .ok ((List.range (d.data.shape.getD (d.info.dims.idxOf dim) 0)).map fun i : ℕ => (i : ℝ))
  | some c => match c.vals with
    | .lab _ => .error .valueError
    | .num v => .ok v.entries

/-- accessors.py:85-92: the coordinates that exist are resampled, the coordinate of the dimension itself (if there is one) is replaced. -/
def accCoords (x : XrOps) (dim : String) (ts : List ℝ) (coords : List (String × Coord)) : List (String × Coord) :=
  if (dictGet coords dim).isSome then dictSet (resampleCoords x dim ts coords) dim ⟨[dim], .num (ND.vec1 ts)⟩
  else resampleCoords x dim ts coords

/-- accessors.py:16-101 `DataArrayAccessor.qinterp`: `coords` is the dictionary of new coordinates. -/
def accQinterp (sq : SquadFn) (x : XrOps) (d : DArr) (coords : List (String × ND ℝ)) (qdim : String := "quaternion_axis") : Res DArr :=
  match coords with
  | [(dim, new)] =>
    if dim ∉ d.info.dims then .error .valueError
    else if new.ndim ≠ 1 then .error .notImplementedError
    else if qdim ∉ d.info.dims then .error .valueError
    else do
      let tin ← coordTimes d dim
      let out ← qinterp sq (.float d.data) tin new.entries (d.info.dims.idxOf dim) (d.info.dims.idxOf qdim)
      mkDArr out.floats { d.info with coords := accCoords x dim new.entries d.info.coords }
  | _ => .error .notImplementedError

/-- accessors.py:103-137 `DataArrayAccessor.qinv`. -/
def accQinv (d : DArr) (qdim : String := "quaternion_axis") : Res DArr :=
  if qdim ∉ d.info.dims then .error .valueError
  else do
    let inv ← qinv (.float d.data) (d.info.dims.idxOf qdim)
    return { d with data := inv.floats }

end RBM
