import Verif.Model.RosVisualization

/-!
`ros/visualization.py:84-164`: a marker publisher used by several threads at once. In `Model/RosVisualization` a call of `publish` is one step; here
every access to an attribute that another thread may write (`marker`, `last_message`, `stopped`) and every question to the node is a step of its own.
Simplification: `self.marker.serialize` and the serialization in `publisher.publish` read the marker in one step.
-/

namespace RBM.Ros

open RBM

/-- What a thread does next. -/
inductive KPC (B : Type)
  | clear                                  -- visualization.py:130: `self.stopped = False`
  | shut                                   -- visualization.py:132: `rospy.is_shutdown()`
  | halt                                   -- visualization.py:132: `self.stopped`
  | serial                                 -- visualization.py:119-120: `self.marker.serialize(current_message)`
  | compare (c : B)                        -- visualization.py:122: `current_message.getvalue() != self.last_message.getvalue()`
  | assign (c : B)                         -- visualization.py:123: `self.last_message = current_message`
  | emit                                   -- visualization.py:124: `self.publisher.publish(self.marker)`
  | set                                    -- visualization.py:136: `self.stopped = True`
  | done

/-- A thread: it executes `_spin_blocking`, or it calls `publish` once. -/
structure KThr (B : Type) where
  loop : Bool
  pc : KPC B

/-- visualization.py:134: after `publish`, a loop sleeps and goes on. -/
def KThr.after {B : Type} (t : KThr B) : KPC B := if t.loop then .shut else .done

/-- The publisher, the threads in order of their start, and what was published with the thread that did it, latest first. -/
structure MarkerThreads (M B : Type) where
  marker : M
  last : B
  stopped : Bool
  shutdown : Bool
  threads : List (KThr B)
  log : List (ℕ × M)

/-- Thread `i` continues with `pc`. -/
def MarkerThreads.goto {M B : Type} (σ : MarkerThreads M B) (i : ℕ) (t : KThr B) (pc : KPC B) : MarkerThreads M B :=
  { σ with threads := σ.threads.set i ⟨t.loop, pc⟩ }

/-- One step of thread `i`: visualization.py:117-124 `publish` and 126-136 `_spin_blocking`. -/
def MarkerThreads.stmt {M B : Type} [DecidableEq B] (ser : M → B) (σ : MarkerThreads M B) (i : ℕ) (t : KThr B) : MarkerThreads M B :=
  match t.pc with
  | .clear => { σ.goto i t .shut with stopped := false }
  | .shut => σ.goto i t (if σ.shutdown then .set else .halt)
  | .halt => σ.goto i t (if σ.stopped then .set else .serial)
  | .serial => σ.goto i t (.compare (ser σ.marker))
  | .compare c => σ.goto i t (if c ≠ σ.last then .assign c else t.after)
  | .assign c => { σ.goto i t .emit with last := c }
  | .emit => { σ.goto i t t.after with log := (i, σ.marker) :: σ.log }
  | .set => { σ.goto i t .done with stopped := true }
  | .done => σ

/-- What can happen: the marker is changed, a method is called from any thread, the node is shut down, thread `i` makes a step. -/
inductive KEv (M : Type)
  | set (m : M)
  | publish | spin | stop | shutdown
  | run (i : ℕ)

/-- One event. visualization.py:138-164 `spin`, `stop`; `spin(block=True)` is the same with the calling thread in place of a new one. -/
def MarkerThreads.step {M B : Type} [DecidableEq B] (ser : M → B) (σ : MarkerThreads M B) : KEv M → MarkerThreads M B
  | .set m => { σ with marker := m }
  | .publish => { σ with threads := σ.threads ++ [⟨false, .serial⟩] }
  | .spin => { σ with threads := σ.threads ++ [⟨true, .clear⟩] }
  | .stop => { σ with stopped := true }
  | .shutdown => { σ with shutdown := true }
  | .run i =>
    match σ.threads[i]? with
    | none => σ
    | some t => σ.stmt ser i t

/-- A publisher after its construction; `empty` are the bytes of an empty buffer. -/
def MarkerThreads.start {M B : Type} (m : M) (empty : B) : MarkerThreads M B := ⟨m, empty, false, false, [], []⟩

/-- A history, in order of time. -/
def MarkerThreads.exec {M B : Type} [DecidableEq B] (ser : M → B) (σ : MarkerThreads M B) (evs : List (KEv M)) : MarkerThreads M B :=
  evs.foldl (MarkerThreads.step ser) σ

end RBM.Ros
