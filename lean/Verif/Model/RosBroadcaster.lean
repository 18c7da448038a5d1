import Verif.Model.RosMsg
import Verif.Model.Velocity

/-!
`ros/transformer.py:328-560`: `ReferenceFrameTransformBroadcaster`, including the thread that runs the publishing loop.
-/

noncomputable section

namespace RBM.Ros

open RBM

/-- `l[k]` of a numpy array or list with a possibly negative index. -/
def pyGet {α : Type _} (l : List α) (k : ℤ) : Res α :=
  match l[(if k < 0 then k + l.length else k).toNat]? with
  | some x => if k < -(l.length : ℤ) then .error .indexError else .ok x
  | none => .error .indexError

/-- The rows of an array of shape `(n, 3)` as sequences of floats. -/
def ndRows (a : ND ℝ) : List (List ℝ) := (List.range (a.shape.headD 0)).map fun k => [a.get [k, 0], a.get [k, 1], a.get [k, 2]]

/-- The attributes of a broadcaster. `pose` says whether there is a pose publisher; `twist` are the arrays `linear` and `angular`
if there is a twist publisher; `subscribed` is `subscribe_to_frame` if there is a subscriber. -/
structure Broadcaster where
  frameName : Option String
  baseName : Option String
  translation : Arr Vec
  rotation : Arr Quat
  timestamps : Option (List ℝ)
  pose : Bool
  twist : Option (ND ℝ × ND ℝ)
  subscribed : Option (Option String)
  idx : ℤ
  stopped : Bool

/-- The `subscribe` argument: a truth value or a frame name. -/
inductive SubArg
  | flag (b : Bool)
  | name (n : String)

/-- transformer.py:410-419: the name to listen to; the empty string is falsy. -/
def SubArg.target (base : Option String) : SubArg → Option (Option String)
  | .flag b => if b then some base else none
  | .name n => if n = "" then none else some (some n)

/-- `_resolve_rf(base or self.frame.parent)` (transformer.py:375). -/
def resolveBase (s : State) (f : ℕ) (base : Option FrameRef) : Res ℕ :=
  let base : Option FrameRef := if base = some (.byName "") then none else base
  match base with
  | some r => s.resolve r
  | none => match s.parent f with
    | some p => .ok p
    | none => .error .typeError

/-- `self.linear, self.angular = self.frame.lookup_twist(...)`. -/
def unpackTwistPair : TwistRet → Res (ND ℝ × ND ℝ)
  | .pair l a => .ok (l, a)
  | .triple _ _ _ => .error .valueError

/-- transformer.py:331-429 `ReferenceFrameTransformBroadcaster.__init__`. -/
def mkBroadcaster (ext : Ext) (s : State) (frame : FrameRef) (base : Option FrameRef := none) (publishPose publishTwist : Bool := false)
    (subscribe : SubArg := .flag false) (cutoff outlier : Option ℝ := none) : Res Broadcaster := do
  let f ← s.resolve frame
  let b ← resolveBase s f base
  let (t, r, ts) ← s.lookupTransform ext.squad f (.byObj b)
  let tw ← if publishTwist then do
      let x ← s.lookupTwist ext f base (some (.byObj f)) { cutoff := cutoff, outlier := outlier }
      let p ← unpackTwistPair x
      pure (some p)
    else pure none
  return ⟨s.name f, s.name b, t, r, ts, publishPose, tw, subscribe.target (s.name b), 0, false⟩

/-- A message handed to a ROS publisher. -/
inductive OutMsg
  | tf (m : TransformStamped)
  | pose (m : PoseStamped)
  | twist (m : TwistStamped)

/-- A message and what happened afterwards: messages that were sent before an exception count as sent. -/
abbrev Sent := List OutMsg × Res Unit

/-- transformer.py:441-455 and 458-473: transform and pose message for one sample. -/
def sampleMsgs (b : Broadcaster) (t : Vec) (r : Quat) (time : ℝ) : Res (List OutMsg) := do
  let m ← makeTransformMsg (vecList t) (quatList r) b.baseName b.frameName time
  if b.pose then do
    let p ← makePoseMsg (vecList t) (quatList r) b.baseName time
    return [.tf m, .pose p]
  else return [.tf m]

/-- `self.timestamps.values[idx].astype(float) / 1e9`, and the messages for this sample (transformer.py:456-473). -/
def movingMsgs (b : Broadcaster) (ts : List ℝ) (k : ℤ) : Res (List OutMsg) := do
  let τ ← pyGet ts k
  match b.translation, b.rotation with
  | .many tl, .many rl => do
    let t ← pyGet tl k
    let r ← pyGet rl k
    sampleMsgs b t r (τ / 1000000000)
  | _, _ => throw .typeError      -- not reached: arrays of timestamped frames have rows

/-- transformer.py:480-483: the twist message, which has no time. -/
def twistMsg (b : Broadcaster) (k : ℤ) (lin ang : ND ℝ) : Res OutMsg := do
  let v ← pyGet (ndRows lin) k
  let w ← pyGet (ndRows ang) k
  let m ← makeTwistMsg v w b.frameName
  return .twist m

/-- transformer.py:431-483 `publish`: `idx or self.idx` treats zero like `None`. For a static frame `self.linear[None]` is a
row of rows, which is no `Vector3`. -/
def Broadcaster.publish (b : Broadcaster) (idx : Option ℤ := none) : Sent :=
  match b.timestamps with
  | none =>
    match b.translation, b.rotation with
    | .one t, .one r =>
      match sampleMsgs b t r 0 with
      | .error e => ([], .error e)
      | .ok ms => if b.twist.isSome then (ms, .error .typeError) else (ms, .ok ())
    | _, _ => ([], .error .typeError)     -- not reached
  | some ts =>
    let k := if idx.getD 0 = 0 then b.idx else idx.getD 0
    match movingMsgs b ts k with
    | .error e => ([], .error e)
    | .ok ms =>
      match b.twist with
      | none => (ms, .ok ())
      | some (lin, ang) =>
        match twistMsg b k lin ang with
        | .error e => (ms, .error e)
        | .ok m => (ms ++ [m], .ok ())

/-- `self.timestamps.get_loc(ts, method="nearest")` (pandas, external): a position in the timestamps for a time in nanoseconds.
Simplification: for timestamps that are not datetimes pandas refuses the comparison with the incoming time; this is not modelled. -/
abbrev NearestFn := List ℝ → ℝ → ℕ

/-- transformer.py:485-499 `handle_incoming_msg`: the messages sent for the transforms of one incoming message. The incoming
stamp is converted to seconds and back to nanoseconds. -/
def Broadcaster.handle (near : NearestFn) (b : Broadcaster) (target : Option String) : List TransformStamped → Sent
  | [] => ([], .ok ())
  | m :: ms =>
    if m.childFrameId = target then
      let r := match b.timestamps with
        | none => b.publish
        | some ts => b.publish (some (near ts (toSec m.header.stamp * 1000000000)))
      match r.2 with
      | .error e => (r.1, .error e)
      | .ok _ => let rest := b.handle near target ms
                 (r.1 ++ rest.1, rest.2)
    else b.handle near target ms

/-- transformer.py:512-527: time to sleep in seconds after the index was advanced to `k`. -/
def sleepTime (datetime : Bool) (ts : List ℝ) (k : ℤ) : Res ℝ :=
  if k > 0 then do
    let a ← pyGet ts k
    let b ← pyGet ts (k - 1)
    return if datetime then a / 1000000000 - b / 1000000000 else a - b
  else .ok 0

/-! ### The publishing thread -/

/-- Where the thread that runs `_spin_blocking` is: there is none, it was created but has not executed a statement, it is about to evaluate
the loop condition, it has published and is about to advance the index, or it waits in `rospy.spin()`. -/
inductive PC
  | idle | starting | check | advance | waiting
  deriving DecidableEq

/-- Who published. -/
inductive Origin
  | loop | user | incoming
  deriving DecidableEq

/-- The broadcaster with its thread; `log` lists what was published, latest first, `sleeps` the sleeping times of the loop, latest first. -/
structure Sys where
  b : Broadcaster
  datetime : Bool
  pc : PC
  shutdown : Bool
  log : List (Origin × List OutMsg)
  sleeps : List ℝ

/-- What can happen: calls of the methods, an incoming message, shutdown of the node, a step of the thread. -/
inductive Ev
  | spin | stop | shutdown | run
  | publish (idx : Option ℤ)
  | incoming (ms : List TransformStamped)

/-- The messages of a publish call are recorded. -/
def Sys.record (σ : Sys) (o : Origin) (r : Sent) : Sys := { σ with log := (o, r.1) :: σ.log }

/-- transformer.py:501-532 `_spin_blocking`, one step of the thread. An exception in `publish` ends the thread. -/
def Sys.runStep (σ : Sys) : Sys :=
  match σ.pc with
  | .idle => σ
  | .starting =>
    { σ with
      b := { σ.b with stopped := false }
      pc := if σ.b.subscribed.isNone ∧ σ.b.timestamps.isSome then .check else .waiting }
  | .check =>
    if σ.shutdown ∨ σ.b.stopped then { σ with b := { σ.b with stopped := true }, pc := .idle }
    else
      let r := σ.b.publish
      match r.2 with
      | .ok _ => { σ.record .loop r with pc := .advance }
      | .error _ => { σ.record .loop r with pc := .idle }
  | .advance =>
    match σ.b.timestamps with
    | none => { σ with pc := .idle }      -- not reached
    | some ts =>
      let k := (σ.b.idx + 1) % (ts.length : ℤ)
      match sleepTime σ.datetime ts k with
      | .ok d => { σ with b := { σ.b with idx := k }, sleeps := d :: σ.sleeps, pc := .check }
      | .error _ => { σ with b := { σ.b with idx := k }, pc := .idle }
  | .waiting => if σ.shutdown then { σ with b := { σ.b with stopped := true }, pc := .idle } else σ

/-- One event. Simplifications: `spin` is not called while the thread of an earlier call is running (the event is ignored then); calls of
`publish` and callbacks do not overlap with each other or with a step of the thread. transformer.py:534-560 `spin`, `stop`. -/
def Sys.step (near : NearestFn) (σ : Sys) : Ev → Sys
  | .spin =>
    match σ.b.timestamps with
    | none => σ.record .user σ.b.publish
    | some _ => if σ.pc = .idle then { σ with pc := .starting } else σ
  | .stop => { σ with b := { σ.b with stopped := true } }
  | .shutdown => { σ with shutdown := true }
  | .run => σ.runStep
  | .publish idx => σ.record .user (σ.b.publish idx)
  | .incoming ms =>
    match σ.b.subscribed with
    | none => σ
    | some target => σ.record .incoming (σ.b.handle near target ms)

/-- A broadcaster after its construction. -/
def Sys.start (b : Broadcaster) (datetime : Bool) : Sys := ⟨b, datetime, .idle, false, [], []⟩

/-- A history, in order of time. -/
def Sys.exec (near : NearestFn) (σ : Sys) (evs : List Ev) : Sys := evs.foldl (Sys.step near) σ

end RBM.Ros
