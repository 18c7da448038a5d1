import Verif.Model.Plumbing
import Mathlib.Analysis.SpecialFunctions.Complex.Arg

/-!
Velocity estimation and velocity transforms (core.py:728-819, estimators.py:63-233,
reference_frames.py:302-310, 778-1321, __init__.py:332-569, 749-994).
-/

noncomputable section

namespace RBM

/-- External numerical routines: `quaternion.squad`, `quaternion.derivative` along one lane (values,
times, sample number), the exception `derivative` raises for these timestamps, if any, and
`scipy.signal.filtfilt(*butter(7, cutoff), x)` along one lane (cutoff, values, sample number). -/
structure Ext where
  squad : SquadFn
  deriv : List ℝ → List ℝ → ℕ → ℝ
  derivErr : List ℝ → Option PyErr
  filt : ℝ → List ℝ → ℕ → ℝ

/-- The entries of an array along (normalised) axis `p` through the index `idx`. -/
def ND.lane {α} (a : ND α) (p : ℕ) (idx : List ℕ) : List α :=
  (List.range (a.shape.getD p 0)).map fun i => a.get (idx.set p i)

/-! ### numpy.gradient (external) -/

open Classical in
/-- One entry of `np.gradient(ys, xs)`: central differences inside (second order accurate for
non-uniform spacing, the simplified formula for uniform spacing), one-sided differences at the
edges. -/
def gradAt (xs ys : List ℝ) (i : ℕ) : ℝ :=
  let n := xs.length
  let x := fun k => xs.getD k 0
  let y := fun k => ys.getD k 0
  if i = 0 then (y 1 - y 0) / (x 1 - x 0)
  else if i + 1 = n then (y (n - 1) - y (n - 2)) / (x (n - 1) - x (n - 2))
  else if ∀ k, k + 1 < n → x (k + 1) - x k = x 1 - x 0 then (y (i + 1) - y (i - 1)) / (2 * (x 1 - x 0))
  else
    let dx1 := x i - x (i - 1)
    let dx2 := x (i + 1) - x i
    let a := -dx2 / (dx1 * (dx1 + dx2))
    let b := (dx2 - dx1) / (dx1 * dx2)
    let c := dx1 / (dx2 * (dx1 + dx2))
    a * y (i - 1) + b * y i + c * y (i + 1)

/-- The spacings for which `np.gradient` divides by zero. -/
def gradDegenerate (xs : List ℝ) : Prop :=
  (∃ k, k + 1 < xs.length ∧ xs.getD (k + 1) 0 = xs.getD k 0) ∨
  (∃ k, k + 2 < xs.length ∧ xs.getD (k + 2) 0 = xs.getD k 0)

open Classical in
/-- `np.gradient(a, xs, axis=axis)`; fewer than two samples fail in `diffx[0]`. -/
def npGradient (a : ND ℝ) (xs : List ℝ) (axis : ℤ) : Res (ND ℝ) :=
  match normAxis axis a.ndim with
  | none => .error .valueError
  | some p =>
    if xs.length ≠ a.shape.getD p 0 then .error .valueError
    else if xs.length < 2 then .error .indexError
    else if gradDegenerate xs then .error .nonfinite
    else .ok ⟨a.shape, fun idx => gradAt xs (a.lane p idx) (idx.getD p 0)⟩

/-! ### Outliers and filtering -/

/-- core.py:806/780: `np.linalg.norm(np.diff(a, n=2, axis=0), axis=1)[i]` of an `(n, k)` array. -/
def secondDiff (a : ND ℝ) (i : ℕ) : ℝ :=
  Real.sqrt (((List.range (a.shape.getD 1 0)).map fun j =>
    ((a.get [i + 2, j] - a.get [i + 1, j]) - (a.get [i + 1, j] - a.get [i, j])) ^ 2).sum)

/-- core.py:807/784: entry `i` of `np.hstack((d, 0.0, 0.0)) + np.hstack((0.0, d, 0.0))` where `d`
has `n - 2` entries. -/
def jumpStat (d : ℕ → ℝ) (n i : ℕ) : ℝ :=
  (if i + 2 < n then d i else 0) + (if 1 ≤ i ∧ i + 1 < n then d (i - 1) else 0)

/-- One query of `interp1d(xs, ys, bounds_error=False)`: NaN (`none`) outside of the range. -/
def interpFill (xs ys : List ℝ) (t : ℝ) : Option ℝ :=
  match interpLoc xs t with
  | .ok loc => some (interpVal xs ys t loc)
  | .error _ => none

open Classical in
/-- core.py:808-813 and 785-790 for an `(n, k)` array `v` of velocities (`d`: norms of the second
differences): keep the samples with small statistic and interpolate at all timestamps. `interp1d`
sorts its input; the model assumes increasing timestamps. -/
def removeOutliers (v : ND ℝ) (ts : List ℝ) (d : ℕ → ℝ) (thresh : ℝ) : Res (ND (Option ℝ)) :=
  let keep := (List.range ts.length).filter fun i => decide (jumpStat d ts.length i ≤ thresh)
  if keep = [] then .error .valueError
  else .ok ⟨v.shape, fun idx =>
    interpFill (keep.map fun i => ts.getD i 0) (keep.map fun i => v.get (idx.set 0 i)) (ts.getD (idx.getD 0 0) 0)⟩

/-- core.py:800-813 / 779-790: optional outlier removal. `ok` says whether the array is two dimensional
with time axis 0, otherwise numpy fails in `norm`, `hstack` or with a mask of the wrong length. -/
def maybeOutliers (v : ND ℝ) (ts : List ℝ) (d : ℕ → ℝ) (p : ℕ) : Option ℝ → Res (ND (Option ℝ))
  | none => .ok (v.map some)
  | some th =>
    if v.ndim ≠ 2 then .error .valueError
    else if p ≠ 0 then .error .indexError
    else removeOutliers v ts d th

open Classical in
/-- core.py:816-817 / 792-793: `filtfilt(*butter(7, cutoff), v, axis=p)`: `butter` wants a cutoff
between 0 and 1, `filtfilt` more than 24 samples; NaN anywhere in a lane spoils the whole lane. -/
def maybeFilter (ext : Ext) (v : ND (Option ℝ)) (p : ℕ) : Option ℝ → Res (ND (Option ℝ))
  | none => .ok v
  | some c =>
    if ¬ (0 < c ∧ c < 1) then .error .valueError
    else if v.shape.getD p 0 ≤ 24 then .error .valueError
    else .ok ⟨v.shape, fun idx =>
      if none ∈ v.lane p idx then none
      else some (ext.filt c ((v.lane p idx).map fun x => x.getD 0) (idx.getD p 0))⟩

/-! ### Estimators -/

/-- `timestamps.dtype` and the use as a one dimensional array. Simplification: zero dimensional
timestamps, which `np.gradient` would use as a spacing, are rejected. -/
def stampList : Option (ND ℝ) → Res (List ℝ)
  | none => .error .attributeError
  | some a => match a.shape with
    | [n] => .ok ((List.range n).map fun i => a.get [i])
    | _ => .error .valueError

/-- core.py:797-819 `_estimate_linear_velocity`. Values that are NaN are `none`. -/
def estimateLinear (ext : Ext) (tr : ND ℝ) (ts : List ℝ) (timeAxis : ℤ := 0) (outlier cutoff : Option ℝ := none) :
    Res (ND (Option ℝ)) := do
  let v ← npGradient tr ts timeAxis
  match normAxis timeAxis tr.ndim with
  | none => throw .valueError
  | some p =>
    let v ← maybeOutliers v ts (secondDiff tr) p outlier
    maybeFilter ext v p cutoff

/-- numpy-quaternion `as_rotation_vector(q)` (external): vector part of `2 log(q / |q|)`; the
thresholds for a vanishing vector part are idealised to zero. -/
def rotVec (q : Quat) : Vec :=
  let b := Real.sqrt (q.imI ^ 2 + q.imJ ^ 2 + q.imK ^ 2)
  if b = 0 then (if q.re < 0 then ![2 * Real.pi, 0, 0] else 0)
  else (2 * Complex.arg ⟨q.re, b⟩ / b) • imVec q

/-- The rotation vectors of a float array with quaternions along the last axis. -/
def rotVecs (r : ND ℝ) : ND ℝ :=
  ⟨r.shape.dropLast ++ [3], fun idx =>
    let i := idx.dropLast
    rotVec ⟨r.get (i ++ [0]), r.get (i ++ [1]), r.get (i ++ [2]), r.get (i ++ [3])⟩ (Fin.ofNat 3 (idx.getLast?.getD 0))⟩

/-- core.py:752-766: `2 * conj(q) * dq` with the derivative along (normalised) axis `p`. Arrays
without NaN only. -/
def angularFromDerivative (ext : Ext) (r : ND ℝ) (ts : List ℝ) (p : ℕ) : ND ℝ :=
  let dr : ND ℝ := ⟨r.shape, fun idx => ext.deriv (r.lane p idx) ts (idx.getD p 0)⟩
  ⟨r.shape.dropLast ++ [3], fun idx =>
    let i := idx.dropLast
    let q : Quat := ⟨r.get (i ++ [0]), r.get (i ++ [1]), r.get (i ++ [2]), r.get (i ++ [3])⟩
    let dq : Quat := ⟨dr.get (i ++ [0]), dr.get (i ++ [1]), dr.get (i ++ [2]), dr.get (i ++ [3])⟩
    qcomp ((2 : ℝ) • (star q * dq)) (idx.getLast?.getD 0 + 1)⟩

/-- core.py:752-776: the estimate before outlier handling, `r` with the quaternions along the last
axis. -/
def rawAngular (ext : Ext) (r : ND ℝ) (ts : List ℝ) (p : ℕ) (mode : String) : Res (ND ℝ) :=
  if mode = "quaternion" then
    if ts.length ≠ r.shape.getD p 0 then .error .indexError
    else match ext.derivErr ts with
      | some e => .error e
      | none => if r.shape.getLast? ≠ some 4 then .error .valueError else .ok (angularFromDerivative ext r ts p)
  else if mode = "rotation_vector" then
    if r.shape.getLast? ≠ some 4 then .error .valueError else npGradient (rotVecs r) ts p
  else .error .valueError

/-- core.py:740-748: axes after swapping. -/
def angularAxes (ndim : ℕ) (axis timeAxis : ℤ) : ℕ × ℕ :=
  let ax := (axis % ndim).toNat
  let p := (timeAxis % ndim).toNat
  (ax, if p + 1 = ndim then ax else p)

/-- core.py:728-794 `_estimate_angular_velocity`. Simplification: arrays with fewer than two dimensions
(rejected before by `_maybe_unpack_dataarray`) are reported as `valueError`. -/
def estimateAngular (ext : Ext) (rot : ND ℝ) (ts : List ℝ) (axis : ℤ := -1) (timeAxis : ℤ := 0)
    (mode : String := "quaternion") (outlier cutoff : Option ℝ := none) : Res (ND (Option ℝ)) :=
  if rot.ndim < 2 then .error .valueError
  else do
    let (ax, p) := angularAxes rot.ndim axis timeAxis
    let r := rot.swapaxes ax (rot.ndim - 1)
    let v ← rawAngular ext r ts p mode
    let v ← maybeOutliers v ts (secondDiff (rotVecs r)) p outlier
    let v ← maybeFilter ext v p cutoff
    return v.swapaxes ax (v.ndim - 1)

/-- What the public estimators return: an array or DataArray, possibly with NaN. -/
inductive EstRet
  | nd (a : ND (Option ℝ))
  | da (a : ND (Option ℝ)) (info : Meta)

/-- `xr.DataArray(...)` for an array that may contain NaN. -/
def mkEst (x : XrOps) (a : ND (Option ℝ)) (m : Meta) (timeDim : Option String) (ts : TsArg) : Res EstRet := do
  let d ← makeDataArray x (a.map fun o => o.getD 0) m timeDim (match ts with
    | .arr t => some t.entries
    | _ => none)
  return .da a d.info

/-- estimators.py:63-145 `estimate_linear_velocity`. -/
def estimateLinearVelocity (ext : Ext) (x : XrOps) (arr : PyArr) (dim : Option String := none) (axis : Option ℤ := none)
    (timestamps : TsArg := .none) (timeAxis : Option ℤ := none) (outlier cutoff : Option ℝ := none) : Res EstRet := do
  let u ← maybeUnpack arr dim axis timeAxis timestamps
  let ts ← match u.ts with
    | .arr a => stampList (some a)
    | _ => stampList none
  let v ← estimateLinear ext u.arr ts (u.timeAxis.getD 0) outlier cutoff
  match u.info with
  | none => return .nd v
  | some m => mkEst x v m u.timeDim u.ts

/-- estimators.py:148-233 `estimate_angular_velocity`. -/
def estimateAngularVelocity (ext : Ext) (x : XrOps) (arr : PyArr) (dim : Option String := none) (axis : Option ℤ := none)
    (timestamps : TsArg := .none) (timeAxis : Option ℤ := none) (mode : String := "quaternion")
    (outlier cutoff : Option ℝ := none) : Res EstRet := do
  let u ← maybeUnpack arr dim axis timeAxis timestamps
  let ts ← match u.ts with
    | .arr a => stampList (some a)
    | _ => stampList none
  let v ← estimateAngular ext u.arr ts u.axis (u.timeAxis.getD 0) mode outlier cutoff
  match u.info with
  | none => return .nd v
  | some m => do
    let m ← replaceDim m u.axis "cartesian" 3
    mkEst x v m u.timeDim u.ts

/-! ### Lookups -/

open Classical in
/-- An array with NaN that is processed further. Simplification: if one entry is NaN, the whole result is reported as not
finite (numpy keeps the rows that do not depend on it). -/
def ND.finite (a : ND (Option ℝ)) : Res (ND ℝ) :=
  if ∃ idx, Valid a.shape idx ∧ a.get idx = none then .error .nonfinite else .ok (a.map fun o => o.getD 0)

/-- Keyword arguments of the velocity lookups. -/
structure VelArgs where
  outlier : Option ℝ := none
  cutoff : Option ℝ := none
  mode : String := "quaternion"
  allowStatic : Bool := false
  returnTimestamps : Bool := false

/-- `_resolve_rf(ref or self.parent)` with `TypeError` turned into `ValueError`
(reference_frames.py:1101-1105): `None` and the empty string select the parent. -/
def State.resolveOr (s : State) (a : ℕ) (ref : Option FrameRef) : Res ℕ :=
  let ref : Option FrameRef := if ref = some (.byName "") then none else ref
  match ref with
  | some .other => .error .valueError
  | some r => s.resolve r
  | none => match s.parent a with
    | some p => .ok p
    | none => .error .valueError

/-- What `lookup_twist` returns. -/
inductive TwistRet
  | pair (linear angular : ND ℝ)
  | triple (linear angular : ND ℝ) (ts : Option (List ℝ))

/-- reference_frames.py:302-310 `_match_arrays`. -/
def matchArrays (sq : SquadFn) (arrays : List MArray) : Res (List (ND ℝ) × Option (List ℝ)) := do
  let m ← addArrays arrays Matcher.empty
  m.getArrays sq

/-- `f.transform_vectors(arr, to, timestamps=ts, return_timestamps=True)`. -/
def State.vectorsWithTs (sq : SquadFn) (s : State) (a : ℕ) (arr : ND ℝ) (dst : ℕ) (o : TArgs) :
    Res (ND ℝ × Option (List ℝ)) := do
  match ← s.transformVectors sq a arr (.byObj dst) { o with returnTimestamps := true } with
  | .withTs a ts => return (a, ts)
  | .single _ => throw .valueError      -- not reached

/-- `np.zeros(3)`. -/
def zeros3 : ND ℝ := ⟨[3], fun _ => 0⟩

/-- The timestamps argument made of a list. -/
def stampArg (ts : Option (List ℝ)) : Option (ND ℝ) := ts.map ND.vec1

/-- reference_frames.py:1119-1124: estimate and convert. -/
def linearRows (ext : Ext) (t : Arr Vec) (ts : List ℝ) (o : VelArgs) : Res (ND ℝ) := do
  let v ← estimateLinear ext (ND.ofVecs t) ts 0 o.outlier o.cutoff
  v.finite

/-- reference_frames.py:1125-1127 / 1297-1303. -/
def angularRows (ext : Ext) (r : Arr Quat) (ts : List ℝ) (o : VelArgs) : Res (ND ℝ) := do
  let v ← estimateAngular ext (ND.ofQuats r) ts (-1) 0 o.mode o.outlier o.cutoff
  v.finite

/-- reference_frames.py:1048-1150 `lookup_twist`. -/
def State.lookupTwist (ext : Ext) (s : State) (a : ℕ) (reference representIn : Option FrameRef := none) (o : VelArgs := {}) :
    Res TwistRet := do
  let ref ← s.resolveOr a reference
  let rep ← s.resolveOr a representIn
  let (t, r, ts) ← s.lookupTransform ext.squad a (.byObj ref)
  match ts with
  | none => if o.allowStatic then return .triple zeros3 zeros3 none else throw .valueError
  | some ts =>
    let linear ← linearRows ext t ts o
    let angular ← angularRows ext r ts { o with outlier := none }
    let (linear, lts) ← s.vectorsWithTs ext.squad ref linear rep { timestamps := stampArg (some ts) }
    let (angular, ats) ← s.vectorsWithTs ext.squad a angular rep { timestamps := stampArg (some ts) }
    match ← matchArrays ext.squad [⟨angular, ats⟩, ⟨linear, lts⟩] with
    | ([angular, linear], tts) =>
      if o.returnTimestamps then return .triple linear angular tts else return .pair linear angular
    | _ => throw .valueError      -- not reached

/-- reference_frames.py:1152-1230 `lookup_linear_velocity`. -/
def State.lookupLinearVelocity (ext : Ext) (s : State) (a : ℕ) (reference representIn : Option FrameRef := none)
    (o : VelArgs := {}) : Res PyRet := do
  let ref ← s.resolveOr a reference
  let rep ← s.resolveOr a representIn
  let (t, _, ts) ← s.lookupTransform ext.squad a (.byObj ref)
  match ts with
  | none => if o.allowStatic then return .withTs zeros3 none else throw .valueError
  | some ts =>
    let linear ← linearRows ext t ts o
    let (linear, lts) ← s.vectorsWithTs ext.squad ref linear rep { timestamps := stampArg (some ts) }
    return pyReturn o.returnTimestamps linear lts

/-- reference_frames.py:1232-1321 `lookup_angular_velocity`. -/
def State.lookupAngularVelocity (ext : Ext) (s : State) (a : ℕ) (reference representIn : Option FrameRef := none)
    (o : VelArgs := {}) : Res PyRet := do
  let ref ← s.resolveOr a reference
  let rep ← s.resolveOr a representIn
  let (_, r, ts) ← s.lookupTransform ext.squad a (.byObj ref)
  match ts with
  | none => if o.allowStatic then return .withTs zeros3 none else throw .valueError
  | some ts =>
    let angular ← angularRows ext r ts o
    let (angular, ats) ← s.vectorsWithTs ext.squad a angular rep { timestamps := stampArg (some ts) }
    return pyReturn o.returnTimestamps angular ats

/-! ### Transforms -/

/-- `x, ts = f(..., allow_static=True, return_timestamps=True)`: unpacking of a pair. -/
def unpackPair : Res PyRet → Res (ND ℝ × Option (List ℝ))
  | .ok (.withTs a ts) => .ok (a, ts)
  | .ok (.single _) => .error .valueError
  | .error e => .error e

/-- Unpacking of a triple. -/
def unpackTriple : Res TwistRet → Res (ND ℝ × ND ℝ × Option (List ℝ))
  | .ok (.triple l a ts) => .ok (l, a, ts)
  | .ok (.pair _ _) => .error .valueError
  | .error e => .error e

/-- `arr += angular`: numpy refuses to enlarge the left operand. -/
def ND.iadd (a b : ND ℝ) : Res (ND ℝ) :=
  match ND.bop (fun x y => x + y) a b with
  | .error e => .error e
  | .ok c => if c.shape = a.shape then .ok c else .error .valueError

/-- reference_frames.py:864-888: transform, match, add. -/
def State.addAngular (ext : Ext) (s : State) (a : ℕ) (arr : ND ℝ) (dst : FrameRef) (o : TArgs)
    (ang : ND ℝ) (angTs : Option (List ℝ)) : Res PyRet := do
  let (arr, ts) ← unpackPair (s.transformVectors ext.squad a arr dst { o with returnTimestamps := true })
  match ← matchArrays ext.squad [⟨arr, ts⟩, ⟨ang, angTs⟩] with
  | ([arr, ang], tsOut) =>
    let arr ← ND.iadd arr ang
    return pyReturn o.returnTimestamps arr tsOut
  | _ => throw .valueError      -- not reached

/-- reference_frames.py:778-891 `transform_angular_velocity`. -/
def State.transformAngularVelocity (ext : Ext) (s : State) (a : ℕ) (arr : ND ℝ) (dst : FrameRef)
    (what : String := "reference_frame") (o : TArgs := {}) (cutoff : Option ℝ := none) : Res PyRet :=
  if what = "reference_frame" then do
    let (ang, angTs) ← unpackPair (s.lookupAngularVelocity ext a (some dst) (some dst)
      { cutoff := cutoff, allowStatic := true, returnTimestamps := true })
    s.addAngular ext a arr dst o ang angTs
  else if what = "moving_frame" then do
    let b ← s.resolve dst
    let (ang, angTs) ← unpackPair (s.lookupAngularVelocity ext b (some (.byObj a)) (some dst)
      { cutoff := cutoff, allowStatic := true, returnTimestamps := true })
    s.addAngular ext a arr dst o ang angTs
  else if what = "representation_frame" then s.transformVectors ext.squad a arr dst o
  else .error .valueError

/-- reference_frames.py:1013-1041: transform, match, add. -/
def State.addLinear (ext : Ext) (s : State) (a : ℕ) (arr : ND ℝ) (dst : FrameRef) (o : TArgs)
    (lin ang : ND ℝ) (linTs angTs : Option (List ℝ)) (tr : Arr Vec) (trTs : Option (List ℝ)) : Res PyRet := do
  let (arr, ts) ← unpackPair (s.transformVectors ext.squad a arr dst { o with returnTimestamps := true })
  let (tr, trTs) ← unpackPair (s.transformVectors ext.squad a (ND.ofVecs tr) dst
    { timestamps := stampArg trTs, returnTimestamps := true })
  match ← matchArrays ext.squad [⟨arr, ts⟩, ⟨lin, linTs⟩, ⟨ang, angTs⟩, ⟨tr, trTs⟩] with
  | ([arr, lin, ang, tr], tsOut) =>
    let sum ← ND.bop (fun x y => x + y) arr lin
    let cr ← npCross ang tr (-1)
    let out ← ND.bop (fun x y => x + y) sum cr
    return pyReturn o.returnTimestamps out tsOut
  | _ => throw .valueError      -- not reached

/-- `_resolve_rf(frame)` for an optional frame: `None` is a `TypeError`. -/
def State.resolveOpt (s : State) : Option FrameRef → Res ℕ
  | none => .error .typeError
  | some r => s.resolve r

/-- reference_frames.py:893-1046 `transform_linear_velocity`. -/
def State.transformLinearVelocity (ext : Ext) (s : State) (a : ℕ) (arr : ND ℝ) (dst : FrameRef)
    (what : String := "reference_frame") (movingFrame referenceFrame : Option FrameRef := none) (o : TArgs := {})
    (outlier cutoff : Option ℝ := none) : Res PyRet :=
  if what = "reference_frame" then do
    let (lin, ang, linTs) ← unpackTriple (s.lookupTwist ext a (some dst) (some dst)
      { cutoff := cutoff, outlier := outlier, allowStatic := true, returnTimestamps := true })
    let m ← s.resolveOpt movingFrame
    let (tr, _, trTs) ← s.lookupTransform ext.squad m (.byObj a)
    s.addLinear ext a arr dst o lin ang linTs linTs tr trTs
  else if what = "moving_frame" then do
    let b ← s.resolve dst
    let (lin, linTs) ← unpackPair (s.lookupLinearVelocity ext b (some (.byObj a)) (some (.byObj b))
      { cutoff := cutoff, outlier := outlier, allowStatic := true, returnTimestamps := true })
    let (ang, angTs) ← unpackPair (s.lookupAngularVelocity ext a referenceFrame (some (.byObj b))
      { cutoff := cutoff, allowStatic := true, returnTimestamps := true })
    let (tr, _, trTs) ← s.lookupTransform ext.squad b (.byObj a)
    s.addLinear ext a arr (.byObj b) o lin ang linTs angTs tr trTs
  else if what = "representation_frame" then s.transformVectors ext.squad a arr dst o
  else .error .valueError

/-! ### Top level functions -/

/-- __init__.py:332-437 `transform_angular_velocity`. -/
def topAngularVelocity (ext : Ext) (x : XrOps) (s : State) (arr : PyArr) (into : FrameRef)
    (what : String := "reference_frame") (o : TopArgs := {}) (cutoff : Option ℝ := none) : Res TopRet :=
  transformTop x s (fun w a v dst t => s.transformAngularVelocity ext a v dst w t cutoff) what arr into o

/-- __init__.py:440-569 `transform_linear_velocity`. -/
def topLinearVelocity (ext : Ext) (x : XrOps) (s : State) (arr : PyArr) (into : FrameRef)
    (what : String := "reference_frame") (movingFrame referenceFrame : Option FrameRef := none) (o : TopArgs := {})
    (outlier cutoff : Option ℝ := none) : Res TopRet :=
  transformTop x s (fun w a v dst t => s.transformLinearVelocity ext a v dst w movingFrame referenceFrame t outlier cutoff)
    what arr into o

end RBM
