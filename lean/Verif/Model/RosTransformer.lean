import Verif.Model.RosMsg
import Verif.Model.Tree

/-!
`ros/transformer.py:11-325`: `Transformer`.
-/

noncomputable section

namespace RBM.Ros

open RBM

/-- What has been put into a `tf2_ros.Buffer`: its cache time in seconds (`none`: the default) and the messages in order, with a flag for static ones. -/
structure TfBuffer where
  cacheTime : Option ℝ
  msgs : List (Bool × TransformStamped)

/-- External functions: lookups in a buffer (`tf2_ros`) and the application of a transform to a message (`tf2_geometry_msgs`). -/
structure Tf where
  lookup : TfBuffer → String → String → Stamp → Res TransformStamped
  can : TfBuffer → String → String → Stamp → Bool
  doVector : XYZStamped → TransformStamped → XYZStamped
  doPoint : XYZStamped → TransformStamped → XYZStamped
  doPose : PoseStamped → TransformStamped → PoseStamped

/-- transformer.py:84-96 `set_transform_static`. -/
def TfBuffer.setTransformStatic (b : TfBuffer) (s : State) (rf : ℕ) : Res TfBuffer := do
  let msg ← staticRfToTransformMsg s rf
  return { b with msgs := b.msgs ++ [(true, msg)] }

/-- transformer.py:107-122: the rows of the `zip`; arrays that are `None` cannot be iterated. -/
def sampleRows (d : FrameData) : Res (List (Vec × Quat × ℝ)) :=
  match d.pose, d.timestamps with
  | some (.many t, .many r), some ts => .ok (t.zip (r.zip ts))
  | _, _ => .error .typeError

/-- transformer.py:107-122: the loop over the rows. -/
def setRows (parentName name : Option String) : TfBuffer → List (Vec × Quat × ℝ) → Res TfBuffer
  | b, [] => .ok b
  | b, (t, r, ts) :: rows => do
    let msg ← makeTransformMsg (vecList t) (quatList r) parentName name (ts / 1000000000)
    setRows parentName name { b with msgs := b.msgs ++ [(false, msg)] } rows

/-- transformer.py:98-122 `set_transforms`. -/
def TfBuffer.setTransforms (b : TfBuffer) (s : State) (rf : ℕ) : Res TfBuffer :=
  match s.data rf with
  | none => .error .attributeError
  | some d => do
    let rows ← sampleRows d
    match rows, s.parent rf with
    | [], _ => return b
    | _ :: _, none => throw .attributeError
    | _ :: _, some p => setRows (s.name p) (s.name rf) b rows

/-- transformer.py:53-65: start and end of one node: nothing for static frames. -/
def startEnd (s : State) (i : ℕ) : Res (List (ℝ × ℝ)) :=
  match s.data i with
  | none => .error .attributeError
  | some d =>
    match d.timestamps with
    | none => .ok []
    | some ts =>
      match ts.head?, ts.getLast? with
      | some a, some b => .ok [(a / 1000000000, b / 1000000000)]
      | _, _ => .error .indexError

/-- `np.max` of a nonempty list. -/
def maxL : List ℝ → ℝ
  | [] => 0
  | [x] => x
  | x :: y :: l => max x (maxL (y :: l))

/-- `np.min` of a nonempty list. -/
def minL : List ℝ → ℝ
  | [] => 0
  | [x] => x
  | x :: y :: l => min x (minL (y :: l))

/-- transformer.py:68-73. -/
def cacheTimeOf (l : List (ℝ × ℝ)) : Option ℝ :=
  if l = [] then none else some (maxL (l.map Prod.snd) - minL (l.map Prod.fst))

/-- transformer.py:75-82: the loop over the nodes (all of them are reference frames). -/
def addNodes (s : State) : List ℕ → TfBuffer → Res TfBuffer
  | [], b => .ok b
  | i :: l, b =>
    match s.parent i with
    | none => addNodes s l b
    | some _ =>
      match s.data i with
      | none => .error .attributeError
      | some d =>
        match d.timestamps with
        | none => do addNodes s l (← b.setTransformStatic s i)
        | some _ => do addNodes s l (← b.setTransforms s i)

/-- transformer.py:34-82 `from_reference_frame`. -/
def fromReferenceFrame (s : State) (rf : ℕ) : Res TfBuffer := do
  let nodes := s.preOrder (s.root rf)
  let l ← nodes.mapM (startEnd s)
  addNodes s nodes ⟨cacheTimeOf l.flatten, []⟩

/-- transformer.py:124-149 `can_transform`. -/
def canTransform (tf : Tf) (b : TfBuffer) (target source : String) (time : ℝ := 0) : Res Bool := do
  let n ← fromSec time
  return tf.can b target source n

/-- transformer.py:151-181 `lookup_transform`. -/
def tfLookupTransform (tf : Tf) (b : TfBuffer) (target source : String) (time : ℝ := 0) : Res (List ℝ × List ℝ) := do
  let n ← fromSec time
  let m ← tf.lookup b target source n
  return unpackTransformStamped m

/-- transformer.py:183-214 `transform_vector`. -/
def tfTransformVector (tf : Tf) (b : TfBuffer) (v : List ℝ) (target source : String) (time : ℝ := 0) : Res (List ℝ) := do
  let n ← fromSec time
  let m ← tf.lookup b target source n
  let v ← makeVectorMsg v (some source) time
  return unpackVectorStamped (tf.doVector v m)

/-- transformer.py:216-247 `transform_point`. -/
def tfTransformPoint (tf : Tf) (b : TfBuffer) (p : List ℝ) (target source : String) (time : ℝ := 0) : Res (List ℝ) := do
  let n ← fromSec time
  let m ← tf.lookup b target source n
  let p ← makePointMsg p (some source) time
  return unpackPointStamped (tf.doPoint p m)

/-- transformer.py:249-280 `transform_quaternion`. -/
def tfTransformQuaternion (tf : Tf) (b : TfBuffer) (q : List ℝ) (target source : String) (time : ℝ := 0) : Res (List ℝ) := do
  let n ← fromSec time
  let m ← tf.lookup b target source n
  let p ← makePoseMsg [0, 0, 0] q (some source) time
  return (unpackPoseStamped (tf.doPose p m)).2

/-- transformer.py:282-325 `transform_pose`. -/
def tfTransformPose (tf : Tf) (b : TfBuffer) (p o : List ℝ) (target source : String) (time : ℝ := 0) : Res (List ℝ × List ℝ) := do
  let n ← fromSec time
  let m ← tf.lookup b target source n
  let p ← makePoseMsg p o (some source) time
  return unpackPoseStamped (tf.doPose p m)

end RBM.Ros
