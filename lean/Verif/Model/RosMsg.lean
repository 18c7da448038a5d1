import Verif.Model.Frames
import Mathlib.Algebra.Order.Floor.Ring
import Mathlib.Algebra.Order.Archimedean.Real.Basic

/-!
`ros/msg.py`: construction and unpacking of ROS messages.
-/

noncomputable section

namespace RBM.Ros

open RBM

/-- A ROS time stamp (genpy `Time`, external), in nanoseconds since the epoch. -/
abbrev Stamp := ℕ

/-- `int(x)` of a float: rounding towards zero. -/
def pyInt (x : ℝ) : ℤ := if 0 ≤ x then ⌊x⌋ else ⌈x⌉

/-- `rospy.Time.from_sec(time)` (genpy, external): whole seconds and the remaining nanoseconds, both cut towards zero; negative
times raise `TypeError`. -/
def fromSec (time : ℝ) : Res Stamp :=
  let secs := pyInt time
  let nsecs := pyInt ((time - secs) * 1000000000)
  let ns := secs * 1000000000 + nsecs
  if ns < 0 then .error .typeError else .ok ns.toNat

/-- `stamp.to_sec()` (genpy, external). -/
def toSec (s : Stamp) : ℝ := (s : ℝ) / 1000000000

/-- `geometry_msgs/Vector3` and `geometry_msgs/Point`. -/
structure XYZ where
  x : ℝ
  y : ℝ
  z : ℝ

/-- `geometry_msgs/Quaternion`. -/
structure XYZW where
  x : ℝ
  y : ℝ
  z : ℝ
  w : ℝ

/-- `std_msgs/Header` without the sequence number. Frame ids may be `None` (the name of a frame can be). -/
structure Header where
  stamp : Stamp
  frameId : Option String

/-- `geometry_msgs/Transform`. -/
structure TransformMsg where
  translation : XYZ
  rotation : XYZW

/-- `geometry_msgs/TransformStamped`. -/
structure TransformStamped where
  header : Header
  childFrameId : Option String
  transform : TransformMsg

/-- `geometry_msgs/Pose`. -/
structure PoseMsg where
  position : XYZ
  orientation : XYZW

/-- `geometry_msgs/PoseStamped`. -/
structure PoseStamped where
  header : Header
  pose : PoseMsg

/-- `geometry_msgs/Twist`. -/
structure TwistMsg where
  linear : XYZ
  angular : XYZ

/-- `geometry_msgs/TwistStamped`. -/
structure TwistStamped where
  header : Header
  twist : TwistMsg

/-- `geometry_msgs/Vector3Stamped`, `geometry_msgs/PointStamped`. -/
structure XYZStamped where
  header : Header
  data : XYZ

/-- `geometry_msgs/QuaternionStamped`. -/
structure XYZWStamped where
  header : Header
  data : XYZW

/-- `Vector3(*t)`, `Point(*t)` (genpy, external): three arguments, or none for zeros. -/
def mkXYZ : List ℝ → Res XYZ
  | [] => .ok ⟨0, 0, 0⟩
  | [x, y, z] => .ok ⟨x, y, z⟩
  | _ => .error .typeError

/-- `r[k]` of a sequence. -/
def at' (r : List ℝ) (k : ℕ) : Res ℝ :=
  match r[k]? with
  | some x => .ok x
  | none => .error .indexError

/-- `Quaternion(r[1], r[2], r[3], r[0])` (msg.py:25, 49, 133). -/
def mkXYZW (r : List ℝ) : Res XYZW := do
  let x ← at' r 1
  let y ← at' r 2
  let z ← at' r 3
  let w ← at' r 0
  return ⟨x, y, z, w⟩

/-- The header of a message (msg.py:21-22 and others). -/
def mkHeader (frameId : Option String) (time : ℝ) : Res Header := do
  let s ← fromSec time
  return ⟨s, frameId⟩

/-- msg.py:18-27 `make_transform_msg`. -/
def makeTransformMsg (t r : List ℝ) (frameId childFrameId : Option String) (time : ℝ := 0) : Res TransformStamped := do
  let h ← mkHeader frameId time
  let t ← mkXYZ t
  let r ← mkXYZW r
  return ⟨h, childFrameId, ⟨t, r⟩⟩

/-- `(t.x, t.y, t.z)`. -/
def XYZ.tuple (v : XYZ) : List ℝ := [v.x, v.y, v.z]

/-- `(r.w, r.x, r.y, r.z)`. -/
def XYZW.tuple (q : XYZW) : List ℝ := [q.w, q.x, q.y, q.z]

/-- msg.py:30-39 `unpack_transform_msg(msg, stamped=False)`. -/
def unpackTransform (msg : TransformMsg) : List ℝ × List ℝ := (msg.translation.tuple, msg.rotation.tuple)

/-- msg.py:30-39 `unpack_transform_msg(msg, stamped=True)`. -/
def unpackTransformStamped (msg : TransformStamped) : List ℝ × List ℝ :=
  (msg.transform.translation.tuple, msg.transform.rotation.tuple)

/-- msg.py:42-50 `make_pose_msg`. -/
def makePoseMsg (p o : List ℝ) (frameId : Option String) (time : ℝ := 0) : Res PoseStamped := do
  let h ← mkHeader frameId time
  let p ← mkXYZ p
  let o ← mkXYZW o
  return ⟨h, ⟨p, o⟩⟩

/-- msg.py:53-62 `unpack_pose_msg(msg, stamped=False)`. -/
def unpackPose (msg : PoseMsg) : List ℝ × List ℝ := (msg.position.tuple, msg.orientation.tuple)

/-- msg.py:53-62 `unpack_pose_msg(msg, stamped=True)`. -/
def unpackPoseStamped (msg : PoseStamped) : List ℝ × List ℝ := (msg.pose.position.tuple, msg.pose.orientation.tuple)

/-- msg.py:65-73 `make_twist_msg`. -/
def makeTwistMsg (v w : List ℝ) (frameId : Option String) (time : ℝ := 0) : Res TwistStamped := do
  let h ← mkHeader frameId time
  let v ← mkXYZ v
  let w ← mkXYZ w
  return ⟨h, ⟨v, w⟩⟩

/-- msg.py:76-85 `unpack_twist_msg(msg, stamped=False)`. -/
def unpackTwist (msg : TwistMsg) : List ℝ × List ℝ := (msg.linear.tuple, msg.angular.tuple)

/-- msg.py:76-85 `unpack_twist_msg(msg, stamped=True)`. -/
def unpackTwistStamped (msg : TwistStamped) : List ℝ × List ℝ := (msg.twist.linear.tuple, msg.twist.angular.tuple)

/-- msg.py:88-95 `make_vector_msg`. -/
def makeVectorMsg (v : List ℝ) (frameId : Option String) (time : ℝ := 0) : Res XYZStamped := do
  let h ← mkHeader frameId time
  let v ← mkXYZ v
  return ⟨h, v⟩

/-- msg.py:98-105 `unpack_vector_msg(msg, stamped=False)`. -/
def unpackVector (msg : XYZ) : List ℝ := msg.tuple

/-- msg.py:98-105 `unpack_vector_msg(msg, stamped=True)`. -/
def unpackVectorStamped (msg : XYZStamped) : List ℝ := msg.data.tuple

/-- msg.py:108-115 `make_point_msg`. -/
def makePointMsg (p : List ℝ) (frameId : Option String) (time : ℝ := 0) : Res XYZStamped := do
  let h ← mkHeader frameId time
  let p ← mkXYZ p
  return ⟨h, p⟩

/-- msg.py:118-125 `unpack_point_msg(msg, stamped=False)`. -/
def unpackPoint (msg : XYZ) : List ℝ := msg.tuple

/-- msg.py:118-125 `unpack_point_msg(msg, stamped=True)`. -/
def unpackPointStamped (msg : XYZStamped) : List ℝ := msg.data.tuple

/-- msg.py:128-135 `make_quaternion_msg`. -/
def makeQuaternionMsg (q : List ℝ) (frameId : Option String) (time : ℝ := 0) : Res XYZWStamped := do
  let h ← mkHeader frameId time
  let q ← mkXYZW q
  return ⟨h, q⟩

/-- msg.py:138-145 `unpack_quaternion_msg(msg, stamped=False)`. -/
def unpackQuaternion (msg : XYZW) : List ℝ := msg.tuple

/-- msg.py:138-145 `unpack_quaternion_msg(msg, stamped=True)`. -/
def unpackQuaternionStamped (msg : XYZWStamped) : List ℝ := msg.data.tuple

/-- A row of `translation` as a sequence of floats. -/
def vecList (v : Vec) : List ℝ := [v 0, v 1, v 2]

/-- A row of `rotation` as a sequence of floats. -/
def quatList (q : Quat) : List ℝ := [q.re, q.imI, q.imJ, q.imK]

/-- msg.py:148-166 `static_rf_to_transform_msg`. A missing parent raises `AttributeError` (`None.name`), a missing pose `TypeError`
(`Vector3(*None)`). For a moving frame the arguments of `Vector3` are the rows: the wrong number, unless there are three (or none), for which
`r[3]` does not exist. -/
def staticRfToTransformMsg (s : State) (rf : ℕ) (time : ℝ := 0) : Res TransformStamped :=
  match s.parent rf with
  | none => .error .attributeError
  | some p =>
    match s.data rf with
    | some ⟨some (.one t, .one r), _, _⟩ => makeTransformMsg (vecList t) (quatList r) (s.name p) (s.name rf) time
    | some ⟨some (.many l, _), _, _⟩ => do
        let _ ← fromSec time
        if l.length = 3 ∨ l.length = 0 then throw .indexError else throw .typeError
    | some _ => .error .typeError
    | none => .error .attributeError

end RBM.Ros
