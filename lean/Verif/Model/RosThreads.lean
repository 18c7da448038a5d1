import Verif.Model.RosBroadcaster

/-!
`ros/transformer.py:431-560`: `ReferenceFrameTransformBroadcaster` used by several threads at once. In `Model/RosBroadcaster` a call of `publish` is one
step; here every access to an attribute that another thread may write (`idx`, `stopped`), every question to the node and every message sent is a step
of its own, and any number of threads may be in `_spin_blocking`, `publish` and `handle_incoming_msg` at the same time.
-/

noncomputable section

namespace RBM.Ros

open RBM

/-- What a thread does next. -/
inductive TPC
  | clear                                  -- transformer.py:506: `self.stopped = False`
  | shut                                   -- transformer.py:509: `rospy.is_shutdown()`
  | halt                                   -- transformer.py:509: `self.stopped`
  | fetch (idx : Option ℤ)                 -- transformer.py:456-471: `idx or self.idx`, making the messages
  | send (k : ℤ) (ms : List OutMsg)        -- transformer.py:473-476: sending the transform and the pose
  | twist (k : ℤ)                          -- transformer.py:478-483: making and sending the twist
  | load                                   -- transformer.py:511: reading `self.idx`
  | store (v : ℤ)                          -- transformer.py:511: writing `self.idx`
  | test                                   -- transformer.py:517, 524: `self.idx > 0`
  | later                                  -- transformer.py:514, 522: `self.timestamps.values[self.idx]`
  | earlier (a : ℝ)                        -- transformer.py:515, 523: `self.timestamps.values[self.idx - 1]`, then `rospy.sleep`
  | set                                    -- transformer.py:532: `self.stopped = True`
  | waiting                                -- transformer.py:530: `rospy.spin()`
  | done
  | dead (e : PyErr)

/-- Why a thread is running: it executes `_spin_blocking`, or it calls `publish` once for each of a list of indices (`publish` itself, and
`handle_incoming_msg`); `rest` are the calls that are still to come. -/
inductive Role
  | loop
  | calls (rest : List (Option ℤ))

/-- A thread. -/
structure Thr where
  role : Role
  pc : TPC

/-- A thread that calls `publish` for a list of indices. -/
def Thr.calling : List (Option ℤ) → Thr
  | [] => ⟨.calls [], .done⟩
  | i :: is => ⟨.calls is, .fetch i⟩

/-- A call of `publish` has returned. -/
def Thr.ret (t : Thr) : Thr :=
  match t.role with
  | .loop => ⟨.loop, .load⟩
  | .calls is => Thr.calling is

/-- The broadcaster, the threads in order of their start, what they sent (latest first) and how long they slept (latest first). -/
structure Threads where
  b : Broadcaster
  datetime : Bool
  shutdown : Bool
  threads : List Thr
  log : List (ℕ × OutMsg)
  sleeps : List (ℕ × ℝ)

/-- Thread `i` continues with `pc`. -/
def Threads.goto (σ : Threads) (i : ℕ) (t : Thr) (pc : TPC) : Threads := { σ with threads := σ.threads.set i ⟨t.role, pc⟩ }

/-- One step of thread `i`: transformer.py:431-483 `publish` and 501-532 `_spin_blocking`. -/
def Threads.stmt (σ : Threads) (i : ℕ) (t : Thr) : Threads :=
  match t.pc with
  | .clear => { σ.goto i t (if σ.b.subscribed.isNone ∧ σ.b.timestamps.isSome then .shut else .waiting) with b := { σ.b with stopped := false } }
  | .shut => σ.goto i t (if σ.shutdown then .set else .halt)
  | .halt => σ.goto i t (if σ.b.stopped then .set else .fetch none)
  | .fetch idx =>
    match σ.b.timestamps with
    | none =>
      match σ.b.translation, σ.b.rotation with
      | .one v, .one r =>
        match sampleMsgs σ.b v r 0 with
        | .error e => σ.goto i t (.dead e)
        | .ok ms => σ.goto i t (.send 0 ms)
      | _, _ => σ.goto i t (.dead .typeError)     -- not reached
    | some ts =>
      let k := if idx.getD 0 = 0 then σ.b.idx else idx.getD 0
      match movingMsgs σ.b ts k with
      | .error e => σ.goto i t (.dead e)
      | .ok ms => σ.goto i t (.send k ms)
  | .send k [] => σ.goto i t (.twist k)
  | .send k (m :: ms) => { σ.goto i t (.send k ms) with log := (i, m) :: σ.log }
  | .twist k =>
    match σ.b.twist with
    | none => { σ with threads := σ.threads.set i t.ret }
    | some (lin, ang) =>
      match σ.b.timestamps with
      | none => σ.goto i t (.dead .typeError)     -- `self.linear[None]`
      | some _ =>
        match twistMsg σ.b k lin ang with
        | .error e => σ.goto i t (.dead e)
        | .ok m => { σ with threads := σ.threads.set i t.ret, log := (i, m) :: σ.log }
  | .load =>
    match σ.b.timestamps with
    | none => σ.goto i t (.dead .typeError)       -- not reached
    | some ts => σ.goto i t (.store ((σ.b.idx + 1) % (ts.length : ℤ)))
  | .store v => { σ.goto i t .test with b := { σ.b with idx := v } }
  | .test => if σ.b.idx > 0 then σ.goto i t .later else { σ.goto i t .shut with sleeps := (i, 0) :: σ.sleeps }
  | .later =>
    match pyGet (σ.b.timestamps.getD []) σ.b.idx with
    | .error e => σ.goto i t (.dead e)
    | .ok a => σ.goto i t (.earlier a)
  | .earlier a =>
    match pyGet (σ.b.timestamps.getD []) (σ.b.idx - 1) with
    | .error e => σ.goto i t (.dead e)
    | .ok c => { σ.goto i t .shut with sleeps := (i, if σ.datetime then a / 1000000000 - c / 1000000000 else a - c) :: σ.sleeps }
  | .set => { σ.goto i t .done with b := { σ.b with stopped := true } }
  | .waiting => σ.goto i t (if σ.shutdown then .set else .waiting)
  | .done => σ
  | .dead _ => σ

/-- What can happen: calls of the methods from any thread, an incoming message, shutdown of the node, a step of thread `i`. -/
inductive TEv
  | spin | stop | shutdown
  | publish (idx : Option ℤ)
  | incoming (ms : List TransformStamped)
  | run (i : ℕ)

/-- transformer.py:485-499 `handle_incoming_msg`: the calls of `publish` for one incoming message. -/
def Broadcaster.answers (near : NearestFn) (b : Broadcaster) (target : Option String) (ms : List TransformStamped) : List (Option ℤ) :=
  (ms.filter fun m => decide (m.childFrameId = target)).map fun m =>
    match b.timestamps with
    | none => none
    | some ts => some (near ts (toSec m.header.stamp * 1000000000) : ℤ)

/-- One event. transformer.py:534-560 `spin`, `stop`; `spin(block=True)` is the same with the calling thread in place of a new one. (Callbacks of one
subscriber run one after the other; here they may overlap.) -/
def Threads.step (near : NearestFn) (σ : Threads) : TEv → Threads
  | .spin =>
    match σ.b.timestamps with
    | none => { σ with threads := σ.threads ++ [Thr.calling [none]] }
    | some _ => { σ with threads := σ.threads ++ [⟨.loop, .clear⟩] }
  | .stop => { σ with b := { σ.b with stopped := true } }
  | .shutdown => { σ with shutdown := true }
  | .publish idx => { σ with threads := σ.threads ++ [Thr.calling [idx]] }
  | .incoming ms =>
    match σ.b.subscribed with
    | none => σ
    | some target => { σ with threads := σ.threads ++ [Thr.calling (σ.b.answers near target ms)] }
  | .run i =>
    match σ.threads[i]? with
    | none => σ
    | some t => σ.stmt i t

/-- A broadcaster after its construction. -/
def Threads.start (b : Broadcaster) (datetime : Bool) : Threads := ⟨b, datetime, false, [], [], []⟩

/-- A history, in order of time. -/
def Threads.exec (near : NearestFn) (σ : Threads) (evs : List TEv) : Threads := evs.foldl (Threads.step near) σ

end RBM.Ros
