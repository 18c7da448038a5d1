import Verif.Model.Velocity

/-!
The top level lookup functions (__init__.py:653-994) and the datasets they return (core.py:598-725).
-/

noncomputable section

namespace RBM

/-- `xarray.Dataset` (external): the variables in order; a variable carries the coordinates along its dimensions. -/
structure DSet where
  vars : List (String × DArr)

/-- `ds[name]`. -/
def DSet.var (d : DSet) (name : String) : Option DArr := dictGet d.vars name

/-- One variable of `xr.Dataset(data_vars, coords)`: the coordinates that it shares dimensions with. -/
def dsVar (coords : List (String × Coord)) (name : String) (dims : List String) (arr : ND ℝ) (attrs : List (String × Option String)) : Res (String × DArr) := do
  let d ← mkDArr arr ⟨coords.filter fun c => decide (∀ x ∈ c.2.dims, x ∈ dims), dims, some name, attrs⟩
  return (name, d)

/-- The coordinate `"time": timestamps`. -/
def timeCoord (ts : List ℝ) : String × Coord := ("time", ⟨["time"], .num (ND.vec1 ts)⟩)
/-- The coordinate `"cartesian_axis": ["x", "y", "z"]`. -/
def cartesianCoord : String × Coord := ("cartesian_axis", labelCoord "cartesian_axis" ["x", "y", "z"])
/-- The coordinate `"quaternion_axis": ["w", "x", "y", "z"]`. -/
def quaternionCoord : String × Coord := ("quaternion_axis", labelCoord "quaternion_axis" ["w", "x", "y", "z"])

/-- The `"time"` entry of the coordinates (core.py:613-636), if there are timestamps. -/
def stampCoords : Option (List ℝ) → List (String × Coord)
  | some ts => [timeCoord ts]
  | none => []

/-- core.py:598-654 `_make_transform_or_pose_dataset`; `frame.name` is the argument `frame`. -/
def makeTransformOrPoseDataset (translation rotation : ND ℝ) (frame : Option String) (ts : Option (List ℝ)) (pose : Bool := false) : Res DSet := do
  let linear := if pose then "position" else "translation"
  let angular := if pose then "orientation" else "rotation"
  let linearLong := if pose then "Position" else "Translation"
  let angularLong := if pose then "Orientation" else "Rotation"
  let coords := stampCoords ts ++ [cartesianCoord, quaternionCoord]
  let dims (d : String) := if ts.isSome then ["time", d] else [d]
  let l ← dsVar coords linear (dims "cartesian_axis") translation
    [("representation_frame", frame), ("reference_frame", frame), ("motion_type", some linear), ("long_name", some linearLong), ("units", some "m")]
  let a ← dsVar coords angular (dims "quaternion_axis") rotation
    [("representation_frame", frame), ("reference_frame", frame), ("motion_type", some angular), ("long_name", some angularLong)]
  return ⟨[l, a]⟩

/-- The attributes of a velocity (core.py:671-691, 714-723). -/
def velocityAttrs (representIn reference moving : Option String) (motion long units : String) : List (String × Option String) :=
  [("representation_frame", representIn), ("reference_frame", reference), ("moving_frame", moving), ("motion_type", some motion),
   ("long_name", some long), ("units", some units)]

/-- core.py:657-693 `_make_twist_dataset`. The timestamps of a moving frame are never `None`. -/
def makeTwistDataset (angular linear : ND ℝ) (moving reference representIn : Option String) (ts : List ℝ) : Res DSet := do
  let coords := [timeCoord ts, cartesianCoord]
  let a ← dsVar coords "angular_velocity" ["time", "cartesian_axis"] angular
    (velocityAttrs representIn reference moving "angular_velocity" "Angular velocity" "rad/s")
  let l ← dsVar coords "linear_velocity" ["time", "cartesian_axis"] linear
    (velocityAttrs representIn reference moving "linear_velocity" "Linear velocity" "m/s")
  return ⟨[a, l]⟩

/-- core.py:696-725 `_make_velocity_dataarray` for the two motion types that are used. -/
def makeVelocityDataArray (v : ND ℝ) (isAngular : Bool) (moving reference representIn : Option String) (ts : List ℝ) : Res DArr :=
  let motion := if isAngular then "angular_velocity" else "linear_velocity"
  let long := if isAngular then "Angular velocity" else "Linear velocity"
  let units := if isAngular then "rad/s" else "m/s"
  mkDArr v ⟨[timeCoord ts, cartesianCoord], ["time", "cartesian_axis"], some motion, velocityAttrs representIn reference moving motion long units⟩

/-- What the top level lookups return. -/
inductive LookupRet
  | pair (a b : ND ℝ)
  | triple (a b : ND ℝ) (ts : Option (List ℝ))
  | ds (d : DSet)

/-- __init__.py:653-701 `lookup_transform`. -/
def topLookupTransform (sq : SquadFn) (s : State) (outof into : FrameRef) (asDataset returnTimestamps : Bool := false) : Res LookupRet := do
  let b ← s.resolve into
  let a ← s.resolve outof
  let (t, r, ts) ← s.lookupTransform sq a (.byObj b)
  if asDataset then do
    let d ← makeTransformOrPoseDataset (ND.ofVecs t) (ND.ofQuats r) (s.name a) ts
    return .ds d
  else if returnTimestamps then return .triple (ND.ofVecs t) (ND.ofQuats r) ts
  else return .pair (ND.ofVecs t) (ND.ofQuats r)

/-- __init__.py:704-746 `lookup_pose`. -/
def topLookupPose (sq : SquadFn) (s : State) (frame reference : FrameRef) (asDataset returnTimestamps : Bool := false) : Res LookupRet := do
  let b ← s.resolve reference
  let a ← s.resolve frame
  let (t, r, ts) ← s.lookupTransform sq a (.byObj b)
  if asDataset then do
    let d ← makeTransformOrPoseDataset (ND.ofVecs t) (ND.ofQuats r) (s.name b) ts true
    return .ds d
  else if returnTimestamps then return .triple (ND.ofVecs t) (ND.ofQuats r) ts
  else return .pair (ND.ofVecs t) (ND.ofQuats r)

/-- `x or y` for frame arguments: `None` and the empty string are replaced (__init__.py:811, 812). -/
def frameOr (x : Option FrameRef) (y : Option FrameRef) : Option FrameRef :=
  if x = none ∨ x = some (.byName "") then y else x

/-- __init__.py:810-812: frame, reference and representation frame of a velocity lookup. -/
def velocityFrames (s : State) (frame : FrameRef) (reference representIn : Option FrameRef) : Res (ℕ × ℕ × ℕ) := do
  let a ← s.resolve frame
  let ref ← s.resolveOpt (frameOr reference ((s.parent a).map .byObj))
  let rep ← s.resolveOpt (frameOr representIn (some (.byObj ref)))
  return (a, ref, rep)

/-- The timestamps that velocity lookups return are not `None` without `allow_static`. -/
def someStamps : Option (List ℝ) → Res (List ℝ)
  | some ts => .ok ts
  | none => .error .valueError      -- not reached

/-- __init__.py:749-834 `lookup_twist`. -/
def topLookupTwist (ext : Ext) (s : State) (frame : FrameRef) (reference representIn : Option FrameRef := none) (o : VelArgs := {})
    (asDataset : Bool := false) : Res LookupRet := do
  let (a, ref, rep) ← velocityFrames s frame reference representIn
  let (linear, angular, ts) ← unpackTriple (s.lookupTwist ext a (some (.byObj ref)) (some (.byObj rep))
    { o with allowStatic := false, returnTimestamps := true })
  if asDataset then do
    let ts ← someStamps ts
    let d ← makeTwistDataset angular linear (s.name a) (s.name ref) (s.name rep) ts
    return .ds d
  else if o.returnTimestamps then return .triple linear angular ts
  else return .pair linear angular

/-- __init__.py:837-911 `lookup_linear_velocity`. -/
def topLookupLinear (ext : Ext) (s : State) (frame : FrameRef) (reference representIn : Option FrameRef := none) (o : VelArgs := {})
    (asDataArray : Bool := false) : Res TopRet := do
  let (a, ref, rep) ← velocityFrames s frame reference representIn
  let (linear, ts) ← unpackPair (s.lookupLinearVelocity ext a (some (.byObj ref)) (some (.byObj rep))
    { o with allowStatic := false, returnTimestamps := true })
  if asDataArray then do
    let ts ← someStamps ts
    let d ← makeVelocityDataArray linear false (s.name a) (s.name ref) (s.name rep) ts
    return .da d
  else if o.returnTimestamps then return .withTs linear ts
  else return .single linear

/-- __init__.py:914-994 `lookup_angular_velocity`. -/
def topLookupAngular (ext : Ext) (s : State) (frame : FrameRef) (reference representIn : Option FrameRef := none) (o : VelArgs := {})
    (asDataArray : Bool := false) : Res TopRet := do
  let (a, ref, rep) ← velocityFrames s frame reference representIn
  let (angular, ts) ← unpackPair (s.lookupAngularVelocity ext a (some (.byObj ref)) (some (.byObj rep))
    { o with allowStatic := false, returnTimestamps := true })
  if asDataArray then do
    let ts ← someStamps ts
    let d ← makeVelocityDataArray angular true (s.name a) (s.name ref) (s.name rep) ts
    return .da d
  else if o.returnTimestamps then return .withTs angular ts
  else return .single angular

end RBM
