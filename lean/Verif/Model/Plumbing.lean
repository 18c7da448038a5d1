import Verif.Model.Transform
import Verif.Model.Coords

/-!
Argument handling of the top level functions (core.py:318-595, __init__.py:110-650): axis
resolution, unpacking of `xarray.DataArray` arguments and packing of results.
-/

noncomputable section

namespace RBM

/-! ### Axis arguments -/

/-- An `axis` argument: integer, tuple or `None`. -/
inductive AxisArg
  | int (a : ℤ)
  | tuple (l : List ℤ)
  | none
  deriving DecidableEq

/-- core.py:318-333 `_resolve_axis`. -/
def resolveAxis (axis : AxisArg) (ndim : ℕ) : Res AxisArg :=
  let axis : AxisArg := match axis with
    | .int a => if a < 0 then .int (ndim + a) else .int a
    | .tuple l => .tuple (l.map fun a => if a < 0 then ndim + a else a)
    | .none => .tuple ((List.range ndim).map fun (i : ℕ) => (i : ℤ))
  match axis with
  | .tuple l => if l.any (fun a => decide (a < 0 ∨ a ≥ ndim)) then .error .indexError else .ok (.tuple l)
  | .int a => if a < 0 ∨ a ≥ ndim then .error .indexError else .ok (.int a)
  | .none => .error .typeError     -- not reached

/-! ### DataArrays -/

/-- Values of a coordinate: numbers or labels. -/
inductive CVals
  | num (a : ND ℝ)
  | lab (a : ND String)

namespace CVals
def shape : CVals → List ℕ
  | num a => a.shape
  | lab a => a.shape
def isNum : CVals → Bool
  | num _ => true
  | lab _ => false
end CVals

/-- A coordinate of a DataArray. -/
structure Coord where
  dims : List String
  vals : CVals

/-- The metadata of a DataArray. Attribute values are strings or `None`. -/
structure Meta where
  coords : List (String × Coord)
  dims : List String
  name : Option String
  attrs : List (String × Option String)

/-- `xarray.DataArray` (external). -/
structure DArr where
  data : ND ℝ
  info : Meta

/-- An array argument. -/
inductive PyArr
  | nd (a : ND ℝ)
  | da (d : DArr)

def PyArr.data : PyArr → ND ℝ
  | nd a => a
  | da d => d.data

/-- A `timestamps` argument: `None`, a string, `False` or an array. -/
inductive TsArg
  | none
  | name (s : String)
  | no
  | arr (a : ND ℝ)

/-- What `np.asarray` makes of the timestamps in the transform methods: strings and `False` become
zero-dimensional arrays. -/
def TsArg.toND : TsArg → Option (ND ℝ)
  | none => .none
  | name _ => some ⟨[], fun _ => 0⟩
  | no => some ⟨[], fun _ => 0⟩
  | arr a => some a

/-- `axis or -1`, `time_axis or 0` (core.py:398, 399, 414, 424): zero counts as missing. -/
def orDefault (x : Option ℤ) (d : ℤ) : ℤ :=
  match x with
  | none => d
  | some k => if k = 0 then d else k

/-- `t.index(x)` of a tuple. -/
def tupleIndex (l : List String) (x : String) : Res ℕ :=
  if x ∈ l then .ok (l.idxOf x) else .error .valueError

/-- `t[k]` of a tuple. -/
def tupleGet (l : List String) (k : ℤ) : Res String :=
  match normAxis k l.length with
  | some i => .ok (l.getD i "")
  | none => .error .indexError

/-- `d.coords[dim]` / `d[dim]` for a dimension: the coordinate, or `0 .. n-1` if there is none
(xarray, external). Labels cannot be used as timestamps. -/
def DArr.dimCoord (d : DArr) (dim : String) : Res (ND ℝ) :=
  match dictGet d.info.coords dim with
  | some ⟨_, .num a⟩ => .ok a
  | some ⟨_, .lab _⟩ => .error .typeError
  | none => .ok ⟨[d.data.shape.getD (d.info.dims.idxOf dim) 0], fun idx => idx.getD 0 0⟩

/-- Result of `_maybe_unpack_dataarray`; `info = none` for plain arrays. -/
structure Unpacked where
  arr : ND ℝ
  axis : ℤ
  dim : Option String
  timeAxis : Option ℤ
  timeDim : Option String
  ts : TsArg
  info : Option Meta

/-- core.py:441-444: the check at the end of `_maybe_unpack_dataarray`. -/
def checkAxes (u : Unpacked) : Res Unpacked :=
  match u.ts with
  | .none => .ok u
  | _ =>
    if u.arr.ndim = 0 then .error .zeroDivisionError
    else match u.timeAxis with
    | .none => .error .typeError
    | some ta => if u.axis % u.arr.ndim = ta % u.arr.ndim then .error .valueError else .ok u

/-- core.py:405-415: spatial axis and dimension of a DataArray. -/
def unpackAxis (d : DArr) (dim : Option String) (axis : Option ℤ) : Res (ℤ × String) :=
  match dim, axis with
  | some _, some _ => .error .valueError
  | some n, none => do
      let i ← tupleIndex d.info.dims n
      return (i, n)
  | none, a => do
      let ax := orDefault a (-1)
      let n ← tupleGet d.info.dims ax
      return (ax, n)

/-- core.py:416-435: time axis, time dimension and timestamps of a DataArray. -/
def unpackTime (d : DArr) (timeAxis : Option ℤ) (ts : TsArg) : Res (Option ℤ × Option String × TsArg) :=
  match ts with
  | .name n => do
      let i ← tupleIndex d.info.dims n
      let t ← d.dimCoord n
      return (some i, some n, .arr t)
  | .none =>
      if d.data.ndim > 1 then do
        let ta := orDefault timeAxis 0
        let n ← tupleGet d.info.dims ta
        let t ← d.dimCoord n
        return (some ta, some n, .arr t)
      else .ok (timeAxis, none, .none)
  | .no => .ok (timeAxis, none, .none)
  | .arr _ => .error .notImplementedError

/-- core.py:387-456 `_maybe_unpack_dataarray`. -/
def maybeUnpack (arr : PyArr) (dim : Option String) (axis : Option ℤ) (timeAxis : Option ℤ) (ts : TsArg) :
    Res Unpacked :=
  match arr with
  | .nd a =>
    match dim with
    | some _ => .error .valueError
    | none => checkAxes ⟨a, orDefault axis (-1), none, some (orDefault timeAxis 0), none, ts, none⟩
  | .da d => do
    let (ax, n) ← unpackAxis d dim axis
    let (ta, td, t) ← unpackTime d timeAxis ts
    checkAxes ⟨d.data, ax, some n, ta, td, t, some d.info⟩

/-- `xr.DataArray(arr, coords, dims, name, attrs)` (external): the number of dimensions and the
lengths of the coordinates must fit. -/
def mkDArr (arr : ND ℝ) (m : Meta) : Res DArr :=
  if m.dims.length ≠ arr.ndim then .error .valueError
  else if m.coords.all (fun c => decide ((∀ x ∈ c.2.dims, x ∈ m.dims) ∧
      c.2.vals.shape = c.2.dims.map fun x => arr.shape.getD (m.dims.idxOf x) 0)) then .ok ⟨arr, m⟩
  else .error .valueError

/-- Resampling of coordinates by xarray (external): `interp` for numbers, `sel(method="nearest")`
for labels. -/
structure XrOps where
  interp : Coord → String → List ℝ → Coord
  sel : Coord → String → List ℝ → Coord

/-- One dimensional array. -/
def ND.vec1 (l : List ℝ) : ND ℝ := ⟨[l.length], fun idx => l.getD (idx.getD 0 0) 0⟩

/-- The entries of a one dimensional array. -/
def ND.entries (a : ND ℝ) : List ℝ := (List.range (a.shape.headD 0)).map fun i => a.get [i]

/-- core.py:477-487: resample all other coordinates along the time dimension. -/
def resampleCoords (x : XrOps) (timeDim : String) (ts : List ℝ) (coords : List (String × Coord)) :
    List (String × Coord) :=
  coords.map fun c =>
    if timeDim ∈ c.2.dims ∧ c.1 ≠ timeDim then
      (c.1, if c.2.vals.isNum then x.interp c.2 timeDim ts else x.sel c.2 timeDim ts)
    else c

/-- core.py:459-496 `_make_dataarray` (`time_dim` is a string or `None`). -/
def makeDataArray (x : XrOps) (arr : ND ℝ) (m : Meta) (timeDim : Option String) (tsOut : Option (List ℝ)) : Res DArr :=
  match timeDim with
  | none =>
    match tsOut with
    | none => mkDArr arr m
    | some ts => mkDArr arr { m with coords := dictSet m.coords "time" ⟨["time"], .num (ND.vec1 ts)⟩, dims := "time" :: m.dims }
  | some td =>
    match dictGet m.coords td with
    | none => .error .valueError
    | some c =>
      match tsOut with
      | none => .error .assertionError
      | some ts =>
        open Classical in
        match c.vals with
        | .lab _ => .error .typeError
        | .num old =>
          if old.entries = ts then mkDArr arr m
          else mkDArr arr { m with
            coords := dictSet (resampleCoords x td ts m.coords) td ⟨[td], .num (ND.vec1 ts)⟩ }

/-! ### The transform functions -/

/-- A transform method of `ReferenceFrame`, given the `what` argument. -/
abbrev MethodFn := String → ℕ → ND ℝ → FrameRef → TArgs → Res PyRet

/-- Result of a top level function. -/
inductive TopRet
  | single (a : ND ℝ)
  | withTs (a : ND ℝ) (ts : Option (List ℝ))
  | da (d : DArr)

/-- `_resolve_rf(attrs[what])`. -/
def attrFrame : Option String → FrameRef
  | some n => .byName n
  | none => .other

/-- core.py:528-545: the source frame. Warnings are not modelled. -/
def resolveOutof (s : State) (outof : Option FrameRef) (info : Option Meta) (what : String) : Res ℕ :=
  match outof with
  | some f => s.resolve f
  | none =>
    match info with
    | none => .error .valueError
    | some m =>
      match dictGet m.attrs what with
      | none => .error .valueError
      | some v => s.resolve (attrFrame v)

/-- Keyword arguments of the top level transform functions. -/
structure TopArgs where
  outof : Option FrameRef := none
  dim : Option String := none
  axis : Option ℤ := none
  timestamps : TsArg := .none
  timeAxis : Option ℤ := none
  returnTimestamps : Option Bool := some false

/-- core.py:583-595: what `_transform` returns. -/
def packResult (x : XrOps) (u : Unpacked) (info : Option Meta) (rt : Option Bool) (arr : ND ℝ) (ts : Option (List ℝ)) : Res TopRet :=
  match info with
  | some m => do
      let d ← makeDataArray x arr m u.timeDim ts
      return .da d
  | none =>
      if rt = some true ∨ (rt = none ∧ ts.isSome) then .ok (.withTs arr ts) else .ok (.single arr)

/-- core.py:499-595 `_transform` with a given method and `what` argument. -/
def transformTop (x : XrOps) (s : State) (method : MethodFn) (what : String) (arr : PyArr) (into : FrameRef) (o : TopArgs) :
    Res TopRet := do
  let u ← maybeUnpack arr o.dim o.axis o.timeAxis o.timestamps
  let src ← resolveOutof s o.outof u.info what
  let dst ← s.resolve into
  let info := u.info.map fun m => { m with
    attrs := dictSet (dictSet m.attrs what (s.name dst)) "representation_frame" (s.name dst) }
  let r ← method what src u.arr (.byObj dst) ⟨u.axis, u.timeAxis, u.ts.toND, true⟩
  match r with
  | .single _ => throw .valueError    -- not reached: return_timestamps=True
  | .withTs a ts => packResult x u info o.returnTimestamps a ts

/-- __init__.py:110-181 `transform_vectors`. -/
def topVectors (sq : SquadFn) (x : XrOps) (s : State) (arr : PyArr) (into : FrameRef) (o : TopArgs := {}) : Res TopRet :=
  transformTop x s (fun _ a v dst t => s.transformVectors sq a v dst t) "representation_frame" arr into o

/-- __init__.py:184-255 `transform_points`. -/
def topPoints (sq : SquadFn) (x : XrOps) (s : State) (arr : PyArr) (into : FrameRef) (o : TopArgs := {}) : Res TopRet :=
  transformTop x s (fun _ a v dst t => s.transformPoints sq a v dst t) "reference_frame" arr into o

/-- __init__.py:258-329 `transform_quaternions`. -/
def topQuaternions (sq : SquadFn) (x : XrOps) (s : State) (arr : PyArr) (into : FrameRef) (o : TopArgs := {}) : Res TopRet :=
  transformTop x s (fun _ a v dst t => s.transformQuaternions sq a v dst t) "reference_frame" arr into o

/-! ### Coordinate systems -/

/-- __init__.py:97-104 `_cs_funcs[outof][into]`. -/
def csFunc (outof into : String) : Option (ND ℝ → ℤ → Res (ND ℝ)) :=
  if outof = "cartesian" then
    if into = "polar" then some (fun arr axis => cartesianToPolar arr axis)
    else if into = "spherical" then some (fun arr axis => cartesianToSpherical arr axis) else none
  else if outof = "polar" then
    if into = "cartesian" then some (fun arr axis => polarToCartesian arr axis) else none
  else if outof = "spherical" then
    if into = "cartesian" then some (fun arr axis => sphericalToCartesian arr axis) else none
  else none

/-- Coordinate with labels. -/
def labelCoord (dim : String) (l : List String) : Coord := ⟨[dim], .lab ⟨[l.length], fun idx => l.getD (idx.getD 0 0) ""⟩⟩

/-- core.py:361-377: name and labels of the new dimension; other combinations fail with
`UnboundLocalError` (here `runtimeError`). -/
def newDim (into : String) (n : ℕ) : Res (String × List String) :=
  if n = 2 ∧ into = "cartesian" then .ok ("cartesian_axis", ["x", "y"])
  else if n = 2 ∧ into = "polar" then .ok ("polar_axis", ["r", "phi"])
  else if n = 3 ∧ into = "cartesian" then .ok ("cartesian_axis", ["x", "y", "z"])
  else if n = 3 ∧ into = "spherical" then .ok ("spherical_axis", ["r", "theta", "phi"])
  else if n = 3 ∧ into = "quaternion" then .ok ("quaternion_axis", ["w", "x", "y", "z"])
  else .error .runtimeError

/-- core.py:356-384 `_replace_dim`. -/
def replaceDim (m : Meta) (axis : ℤ) (into : String) (n : ℕ) : Res Meta := do
  let old ← tupleGet m.dims axis
  let (nd, labels) ← newDim into n
  return { m with
    dims := m.dims.map fun d => if d ≠ old then d else nd
    coords := dictSet (m.coords.filter fun c => decide (old ∉ c.2.dims)) nd (labelCoord nd labels) }

/-- __init__.py:603-614: the source coordinate system. -/
def resolveCs (outof : Option String) (info : Option Meta) : Res (Option String) :=
  match outof with
  | some n => .ok (some n)
  | none =>
    match info with
    | none => .error .valueError
    | some m => match dictGet m.attrs "coordinate_system" with
      | none => .error .valueError
      | some v => .ok v

/-- __init__.py:572-650 `transform_coordinates`. -/
def transformCoordinates (x : XrOps) (arr : PyArr) (into : String) (outof : Option String := none) (dim : Option String := none)
    (axis : Option ℤ := none) (replace : Bool := true) : Res PyArr := do
  let u ← maybeUnpack arr dim axis none .no
  let cs ← resolveCs outof u.info
  match cs.bind fun o => csFunc o into with
  | none => throw .valueError
  | some f =>
    let info := u.info.map fun m =>
      if (dictGet m.attrs "coordinate_system").isSome then { m with attrs := dictSet m.attrs "coordinate_system" (some into) } else m
    let out ← f u.arr u.axis
    match info with
    | none => return .nd out
    | some m =>
      let m ← if replace then do
          let n ← pyShape out.shape u.axis
          replaceDim m u.axis into n
        else pure m
      let d ← makeDataArray x out m none none
      return .da d

end RBM
