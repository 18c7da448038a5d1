import Verif.Model.RosBroadcaster

/-!
`ros/visualization.py`: colours, markers and marker publishers.
-/

noncomputable section

namespace RBM.Ros

open RBM

/-! ### Colours -/

/-- Value of an ASCII hexadecimal digit. (Python also accepts other Unicode digits; not modelled.) -/
def hexVal (c : Char) : Option ℕ :=
  let n := c.toNat
  if 48 ≤ n ∧ n ≤ 57 then some (n - 48)
  else if 97 ≤ n ∧ n ≤ 102 then some (n - 87)
  else if 65 ≤ n ∧ n ≤ 70 then some (n - 55)
  else none

/-- `int(s, 16)` of a string of at most two characters: surrounding white space is ignored, one sign is allowed. (Prefix `0x` and underscores need
more characters.) -/
def pyHex (s : List Char) : Res ℤ :=
  let strip := fun l : List Char => l.dropWhile fun c => c.isWhitespace
  match (strip (strip s).reverse).reverse with
  | [c] => match hexVal c with
    | some d => .ok d
    | none => .error .valueError
  | [c, d] => match hexVal c, hexVal d with
    | some x, some y => .ok (16 * x + y)
    | none, some y => if c = '+' then .ok y else if c = '-' then .ok (-(y : ℤ)) else .error .valueError
    | _, none => .error .valueError
  | _ => .error .valueError

/-- `std_msgs/ColorRGBA`. -/
structure RGBA where
  r : ℝ
  g : ℝ
  b : ℝ
  a : ℝ

/-- visualization.py:7-23 `hex_to_rgba`. -/
def hexToRgba (s : List Char) : Res RGBA := do
  let h := s.dropWhile fun c => c = '#'
  let r ← pyHex ((h.drop 0).take 2)
  let g ← pyHex ((h.drop 2).take 2)
  let b ← pyHex ((h.drop 4).take 2)
  let a ← pyHex ((h.drop 6).take 2)
  return ⟨(r : ℝ) / 255, (g : ℝ) / 255, (b : ℝ) / 255, (a : ℝ) / 255⟩

/-! ### Markers -/

/-- `visualization_msgs/Marker`; the fields that are never set (stamp, namespace, lifetime, ...) are left out. -/
structure Marker where
  type : ℤ
  frameId : Option String
  scale : XYZ
  color : RGBA
  position : XYZ
  orientation : XYZW
  points : List XYZ

/-- The `scale` argument: a float, an iterable of floats, or anything else that is not iterable (an `int`). -/
inductive ScaleArg
  | float (x : ℝ)
  | seq (l : List ℝ)
  | int (k : ℤ)

/-- visualization.py:66-69. -/
def ScaleArg.vec : ScaleArg → Res XYZ
  | .float x => .ok ⟨x, x, x⟩
  | .seq l => mkXYZ l
  | .int _ => .error .typeError

/-- `Quaternion(*orientation)` (genpy, external): four arguments in the order x, y, z, w, or none for zeros. -/
def mkXYZWDirect : List ℝ → Res XYZW
  | [] => .ok ⟨0, 0, 0, 0⟩
  | [x, y, z, w] => .ok ⟨x, y, z, w⟩
  | _ => .error .typeError

/-- visualization.py:26-81 `get_marker`; `Marker.LINE_STRIP` is 4, and type 0 (an arrow) is falsy. -/
def getMarker (type : Option ℤ := none) (frameId : Option String := some "world") (scale : ScaleArg := .float 1)
    (color : List Char := "#ffffffff".toList) (position : List ℝ := [0, 0, 0]) (orientation : List ℝ := [0, 0, 0, 1]) : Res Marker := do
  let t := if type.getD 0 = 0 then 4 else type.getD 0
  let s ← scale.vec
  let c ← hexToRgba color
  let o ← mkXYZWDirect orientation
  let p ← mkXYZ position
  return ⟨t, frameId, s, c, p, o, []⟩

/-! ### Publishing changes -/

/-- Where the thread of `_spin_blocking` is. -/
inductive MPC
  | idle | starting | check
  deriving DecidableEq

/-- visualization.py:84-115: a marker publisher. `last` is the serialized last message; `log` lists the published messages, latest first. -/
structure MarkerPub (M B : Type) where
  marker : M
  last : B
  stopped : Bool
  pc : MPC
  shutdown : Bool
  log : List M

/-- visualization.py:117-124 `publish`; `ser` is the serialization (genpy, external). -/
def MarkerPub.publish {M B : Type} [DecidableEq B] (ser : M → B) (σ : MarkerPub M B) : MarkerPub M B :=
  if ser σ.marker ≠ σ.last then { σ with last := ser σ.marker, log := σ.marker :: σ.log } else σ

/-- What can happen: the user changes the marker, calls a method, the node is shut down, the thread makes a step. -/
inductive MEv (M : Type)
  | set (m : M)
  | publish | spin | stop | shutdown | run

/-- visualization.py:126-164 `_spin_blocking`, `spin`, `stop`. Simplification: `spin` is not called while a thread of an earlier call is running, and
calls do not overlap with a step of the thread. -/
def MarkerPub.step {M B : Type} [DecidableEq B] (ser : M → B) (σ : MarkerPub M B) : MEv M → MarkerPub M B
  | .set m => { σ with marker := m }
  | .publish => σ.publish ser
  | .spin => if σ.pc = .idle then { σ with pc := .starting } else σ
  | .stop => { σ with stopped := true }
  | .shutdown => { σ with shutdown := true }
  | .run =>
    match σ.pc with
    | .idle => σ
    | .starting => { σ with stopped := false, pc := .check }
    | .check => if σ.shutdown ∨ σ.stopped then { σ with stopped := true, pc := .idle } else σ.publish ser

/-- A publisher after its construction; `empty` are the bytes of an empty buffer. -/
def MarkerPub.start {M B : Type} (m : M) (empty : B) : MarkerPub M B := ⟨m, empty, false, .idle, false, []⟩

/-- A history, in order of time. -/
def MarkerPub.exec {M B : Type} [DecidableEq B] (ser : M → B) (σ : MarkerPub M B) (evs : List (MEv M)) : MarkerPub M B := evs.foldl (MarkerPub.step ser) σ

/-! ### Trajectories -/

/-- `a[::k]` for a list: every `k`-th element from the first one, or from the last one backwards if `k` is negative. -/
def sliceStep {α : Type _} (l : List α) (k : ℤ) : Res (List α) :=
  if k = 0 then .error .valueError
  else
    let m := k.natAbs
    let l := if k > 0 then l else l.reverse
    .ok ((List.range ((l.length + m - 1) / m)).filterMap fun j => l[j * m]?)

/-- visualization.py:201-209: the marker for the translation. `shape[0]` of a static translation is 3, and its elements are floats that
cannot be unpacked. -/
def trajectoryMarker (t : Arr Vec) (baseName : Option String) (maxPoints : ℤ) (scale : ℝ) (color : List Char) : Res Marker := do
  let marker ← getMarker none baseName (.seq [scale, 0, 0]) color
  let n : ℤ := match t with
    | .one _ => 3
    | .many l => l.length
  if maxPoints = 0 then throw .zeroDivisionError
  let showEvery := Int.fdiv n maxPoints
  match t with
  | .one v => do
    let _ ← sliceStep (vecList v) showEvery
    throw .typeError
  | .many l => do
    let rows ← sliceStep l showEvery
    let points ← rows.mapM fun v => mkXYZ (vecList v)
    return { marker with points := points }

/-- visualization.py:167-217 `ReferenceFrameMarkerPublisher.__init__`: marker and topic. (Positional arguments and the ROS publisher itself are
left out.) -/
def mkMarkerPublisher (sq : SquadFn) (s : State) (frame : FrameRef) (base : Option FrameRef := none) (topic : Option String := none)
    (maxPoints : ℤ := 1000) (scale : ℝ := 1 / 10) (color : List Char := "#ffffffff".toList) : Res (Marker × String) := do
  let f ← s.resolve frame
  let b ← resolveBase s f base
  let (t, _, _) ← s.lookupTransform sq f (.byObj b)
  let m ← trajectoryMarker t (s.name b) maxPoints scale color
  let topic := match topic with
    | some t => if t = "" then "/" ++ (s.name f).getD "None" ++ "/path" else t
    | none => "/" ++ (s.name f).getD "None" ++ "/path"
  return (m, topic)

end RBM.Ros
