import Verif.Model.Basic

/-!
`ros.init_node` (ros/utils.py:9-56) and the example data (utils.py:438-477).
-/

namespace RBM.Ros

/-- Who started a ROS master: another process, or the `k`-th master started by this one. -/
inductive Owner
  | elsewhere
  | mine (k : ℕ)
  deriving DecidableEq

/-- What `init_node` returns: the launcher of the `k`-th master of this process, or the stub (ros/utils.py:33-39). -/
inductive Handle
  | launched (k : ℕ)
  | stub
  deriving DecidableEq

/-- The world seen by this process: the ROS master that answers (there is one address, so at most one), how many masters this process
started so far, the shutdown functions registered with `atexit`, the names passed to `rospy.init_node` successfully, the warnings shown. -/
structure World where
  master : Option Owner
  started : ℕ
  exits : List ℕ
  nodes : List String
  warnings : ℕ
  deriving DecidableEq

/-- `ROSLaunchParent.shutdown` of the `k`-th master of this process (external): ends the process that it started, if that is still running. -/
def World.shutdownMine (w : World) (k : ℕ) : World :=
  if w.master = some (.mine k) then { w with master := none } else w

/-- ros/utils.py:41-53: the master. `start` is the outcome of `ROSLaunchParent.start` (external): it can fail, for example if another
process starts a master in the meantime (simplification: a failing start leaves nothing running). `getPid` raises
`ConnectionRefusedError` if and only if there is no master (external; other network errors are left out). -/
def World.ensureMaster (w : World) (startMaster : Bool) (start : Res Unit) : World × Res Handle :=
  match w.master with
  | some _ => (w, .ok .stub)
  | none =>
    if startMaster then
      match start with
      | .error e => (w, .error e)
      | .ok _ => ({ w with master := some (.mine w.started), started := w.started + 1, exits := w.started :: w.exits }, .ok (.launched w.started))
    else (w, .error .runtimeError)

/-- ros/utils.py:9-56 `init_node`. `reg` is the outcome of `rospy.init_node` (external). -/
def World.initNode (w : World) (name : String) (startMaster : Bool) (start reg : Res Unit) : World × Res Handle :=
  match w.ensureMaster startMaster start with
  | (w, .error e) => (w, .error e)
  | (w, .ok h) =>
    match reg with
    | .error e => (w, .error e)
    | .ok _ => ({ w with nodes := name :: w.nodes }, .ok h)

/-- `shutdown()` of what `init_node` returned: the stub only warns (ros/utils.py:34-39). -/
def World.shutdown (w : World) : Handle → World
  | .launched k => w.shutdownMine k
  | .stub => { w with warnings := w.warnings + 1 }

/-- The interpreter exits: the registered functions are called, the latest one first. -/
def World.exit (w : World) : World := w.exits.foldl World.shutdownMine w

/-- What can happen while the process runs: another process starts a master (if there is none) or stops its own, calls of `init_node`, calls of
`shutdown`. -/
inductive NEv
  | startElsewhere | stopElsewhere
  | init (name : String) (startMaster : Bool) (start reg : Res Unit)
  | shutdown (h : Handle)

def World.step (w : World) : NEv → World
  | .startElsewhere => if w.master = none then { w with master := some .elsewhere } else w
  | .stopElsewhere => if w.master = some .elsewhere then { w with master := none } else w
  | .init name sm start reg => (w.initNode name sm start reg).1
  | .shutdown h => w.shutdown h

/-- The world when the process starts. -/
def World.fresh (master : Bool) : World := ⟨if master then some .elsewhere else none, 0, [], [], 0⟩

/-- A history, in order of time. -/
def World.exec (w : World) (evs : List NEv) : World := evs.foldl World.step w

end RBM.Ros

namespace RBM

/-- Errors of the example data. -/
inductive DataErr
  | moduleNotFoundError | keyError | valueError | connectionError
  deriving DecidableEq

/-- utils.py:441-461 `base_url` and `registry`. -/
def exampleBaseUrl : String := "https://github.com/phausamann/rbm-data/raw/main/"

def exampleRegistry : List (String × String × String) :=
  [("head", "head.nc", "874eddaa51bf775c7311f0046613c6f969adef6e34fe4aea2e1248a75ed3fee3"),
   ("left_eye", "left_eye.nc", "56d5488fb8d3ff08450663ed0136ac659c1d51eb5340a7e3ed52f5ecf019139c"),
   ("right_eye", "right_eye.nc", "b038c4cb2f6932e4334f135cdf7e24ff9c3b5789977b2ae0206ba80acf54c647"),
   ("rosbag", "example.bag", "8d27f5e554f5a0e02e0bec59b60424e582f6104380f96c3f226b4d85c107f2bc")]

/-- utils.py:463-477 `ExampleDataStore.__getitem__` for a string key. `pooch` is `pooch.retrieve` (external): `none` if it is not installed. -/
def exampleData {P : Type} (pooch : Option (String → String → Except DataErr P)) (item : String) : Except DataErr P :=
  match pooch with
  | none => .error .moduleNotFoundError
  | some retrieve =>
    match exampleRegistry.lookup item with
    | none => .error .keyError
    | some (file, hash) => retrieve (exampleBaseUrl ++ file) hash

end RBM
