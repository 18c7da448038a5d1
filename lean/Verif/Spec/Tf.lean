import Verif.Model.RosTransformer
import Verif.Spec.Ros

/-!
tf2 buffers: what they are told, and the contract of their lookups.
-/

namespace RBM.Spec

open RBM RBM.Ros

/-- ROS fields as a vector and a quaternion. -/
def vecOf (v : XYZ) : Vec := ![v.x, v.y, v.z]
def quatOf (q : XYZW) : Quat := ⟨q.w, q.x, q.y, q.z⟩

/-- The pose in a transform message: of the child frame in the frame of the header. -/
def msgPose (m : TransformStamped) : Pose := ⟨vecOf m.transform.translation, quatOf m.transform.rotation⟩

/-- The message for the pose `(t, r)` of `child` in `parent` at stamp `n`. -/
def poseMsg (parent child : Option String) (n : ℕ) (t : Vec) (r : Quat) : TransformStamped :=
  { header := { stamp := n, frameId := parent }, childFrameId := child, transform := { translation := xyz t, rotation := xyzw r } }

/-- The buffer was told that `P` is the pose of `child` in `parent` at stamp `n` (exactly), or at all times. -/
def TfEdge (b : TfBuffer) (n : ℕ) (child parent : String) (P : Pose) : Prop :=
  ∃ e ∈ b.msgs, (e.1 = true ∨ e.2.header.stamp = n) ∧ e.2.childFrameId = some child ∧ e.2.header.frameId = some parent ∧ msgPose e.2 = P

/-- The point with coordinates `p` in frame `a` has coordinates `P` in frame `c` above it. -/
inductive TfCoords (edge : String → String → Pose → Prop) (c : String) : String → Vec → Vec → Prop
  | here {p} : TfCoords edge c c p p
  | up {a k p P Q} : edge a k Q → TfCoords edge c k (Q.act p) P → TfCoords edge c a p P

/-- Frame names that tf2 accepts. -/
def TfName (x : String) : Prop := x ≠ "" ∧ x.toList.head? ≠ some '/'

/-- A buffer with contents that tf2 accepts and keeps: valid names, unit rotations, no cycles, one parent per frame, every static transform once, the
samples of moving frames in order of time, and all of them within the cache time (10 s by default). -/
structure TfOk (b : TfBuffer) : Prop where
  names : ∀ e ∈ b.msgs, ∃ c p, e.2.childFrameId = some c ∧ e.2.header.frameId = some p ∧ TfName c ∧ TfName p
  unit : ∀ e ∈ b.msgs, IsUnitQ (msgPose e.2).r
  tree : ∃ depth : String → ℕ, ∀ e ∈ b.msgs, ∀ c p, e.2.childFrameId = some c → e.2.header.frameId = some p → depth p < depth c
  parent : ∀ e ∈ b.msgs, ∀ e' ∈ b.msgs, e.2.childFrameId = e'.2.childFrameId → e.2.header.frameId = e'.2.header.frameId
  order : b.msgs.Pairwise fun e e' => e.2.childFrameId = e'.2.childFrameId → e.1 = false ∧ e'.1 = false ∧ e.2.header.stamp < e'.2.header.stamp
  cache : ∀ e ∈ b.msgs, ∀ e' ∈ b.msgs, e.1 = false → e'.1 = false →
    (e.2.header.stamp : ℝ) / 1000000000 ≤ (e'.2.header.stamp : ℝ) / 1000000000 + b.cacheTime.getD 10

/-- A frame that occurs in a buffer. -/
def TfKnown (b : TfBuffer) (x : String) : Prop := ∃ e ∈ b.msgs, e.2.childFrameId = some x ∨ e.2.header.frameId = some x

/-- `c` is above `a` at stamp `n`. -/
def TfAbove (b : TfBuffer) (n : ℕ) (a c : String) : Prop := Relation.ReflTransGen (fun x y => ∃ P, TfEdge b n x y P) a c

/-- Contract of tf2 (external) at stamps at which all transforms on the way are known exactly (stamp 0 asks for the latest time, so only static transforms
are covered there): the transform of a lookup changes coordinates from the source to the target frame. The application of transforms to messages uses the
transform as rotation resp. rigid motion; orientations may come back with the opposite sign. -/
structure TfLaw (tf : Tf) : Prop where
  lookup : ∀ b n source target c, TfOk b → (0 < n ∨ ∀ e ∈ b.msgs, e.1 = true) → TfKnown b source → TfKnown b target →
    TfAbove b n source c → TfAbove b n target c →
    ∃ m, tf.lookup b target source n = .ok m ∧ IsUnitQ (msgPose m).r ∧
      ∀ c p P, TfAbove b n target c → TfCoords (TfEdge b n) c source p P → TfCoords (TfEdge b n) c target ((msgPose m).act p) P
  can : ∀ b n source target, tf.can b target source n = true ↔ ∃ m, tf.lookup b target source n = .ok m
  vector : ∀ v m, IsUnitQ (msgPose m).r → (tf.doVector v m).data = xyz (rot (msgPose m).r (vecOf v.data))
  point : ∀ p m, IsUnitQ (msgPose m).r → (tf.doPoint p m).data = xyz ((msgPose m).act (vecOf p.data))
  pose : ∀ p m, IsUnitQ (msgPose m).r → IsUnitQ (quatOf p.pose.orientation) →
    (tf.doPose p m).pose.position = xyz ((msgPose m).act (vecOf p.pose.position)) ∧
    ((tf.doPose p m).pose.orientation = xyzw ((msgPose m).r * quatOf p.pose.orientation) ∨
     (tf.doPose p m).pose.orientation = xyzw (-((msgPose m).r * quatOf p.pose.orientation)))

/-- `ms` are the messages a buffer should get for frame `i`: none for a frame without parent, one static transform for a static frame, one transform per
sample for a moving frame (timestamps in nanoseconds). -/
def FrameMsgs (s : State) (i : ℕ) (ms : List (Bool × TransformStamped)) : Prop :=
  (s.parent i = none ∧ ms = [] ∧ ∃ d, s.data i = some d ∧ d.timestamps ≠ some []) ∨
  ∃ p, s.parent i = some p ∧
    ((∃ t r disc, s.data i = some ⟨some (.one t, .one r), none, disc⟩ ∧ ms = [(true, poseMsg (s.name p) (s.name i) 0 t r)]) ∨
     (∃ tl rl, ∃ ns : List ℕ, ∃ disc, s.data i = some ⟨some (.many tl, .many rl), some (ns.map fun n : ℕ => (n : ℝ)), disc⟩ ∧
       tl.length = ns.length ∧ rl.length = ns.length ∧ ns ≠ [] ∧ ms.length = ns.length ∧
       ∀ (k n : ℕ) t r, ns[k]? = some n → tl[k]? = some t → rl[k]? = some r → ms[k]? = some (false, poseMsg (s.name p) (s.name i) n t r)))

/-- The frames of a state that belong to the tree with root `r`. -/
def InTree (s : State) (r i : ℕ) : Prop := AncestorOrSelf s i r

/-- A tree that can be put into a tf2 buffer: distinct valid names, well-formed data with unit rotations and strictly increasing timestamps in
nanoseconds. -/
structure TfTree (s : State) (r : ℕ) : Prop where
  root : s.parent r = none
  rootData : ∃ d, s.data r = some d ∧ d.timestamps = none
  names : ∀ i, InTree s r i → ∃ x, s.name i = some x ∧ TfName x
  distinct : ∀ i j, InTree s r i → InTree s r j → s.name i = s.name j → i = j
  good : ∀ i, InTree s r i → i ≠ r → ∃ d, s.data i = some d ∧ GoodData d
  stamps : ∀ i d ts, InTree s r i → s.data i = some d → d.timestamps = some ts →
    ∃ ns : List ℕ, ts = ns.map (fun n : ℕ => (n : ℝ)) ∧ ns.Pairwise fun a b => a < b

/-- Frame `i` is static or has a sample at time `n`. -/
def SampledAt (s : State) (n : ℕ) (i : ℕ) : Prop :=
  ∃ d, s.data i = some d ∧ ∀ ts, d.timestamps = some ts → (n : ℝ) ∈ ts

end RBM.Spec
