import Verif.Model.RosIo

/-!
Bag files and caches on disk over the life of processes (ros/io.py): context managers, failing writes and crashes.
-/

noncomputable section

namespace RBM.Ros

/-- What is on disk under the name of a bag. rosbag (external) empties the file when it is opened for writing and makes it
readable when it is closed: `writing k` is a file that session `k` has opened and not closed. -/
inductive BagFile
  | complete (b : Bag)
  | writing (k : ℕ)

/-- What is on disk under the name of a netCDF file: a file whose writing did not come to its end cannot be opened. -/
inductive NcState
  | complete (f : NcFile)
  | torn

/-- How the bag was opened (io.py:22, 262). -/
inductive BagMode
  | r | w
  deriving DecidableEq

/-- io.py:7-29 and 244-267: a `RosbagReader` (mode `r`) or `RosbagWriter` (mode `w`); `_bag` with the number of its session. What
a reader sees is the content at the time of opening (simplification: files replaced while they are read). -/
structure BagObj where
  path : Path
  mode : BagMode
  bag : Option (ℕ × Bag)

/-- The files, the readers and writers of the running process, the number of bags opened so far and the number of open bags
that no reader or writer refers to any more. -/
structure Disk where
  bags : Path → Option BagFile
  ncs : Path → Option NcState
  objs : List BagObj
  sessions : ℕ
  lost : ℕ

/-- How a call that may write a netCDF file ends: normally, with an exception while the file is written (disk full), or with the death
of the process: while the file is written if that point is reached, otherwise elsewhere in the call. -/
inductive Fate
  | done | fails | dies

/-- What happens in a process. -/
inductive SessEvent
  | reader (p : Path)
  | writer (p : Path)
  | enter (i : ℕ)
  | exit (i : ℕ)
  | write (i : ℕ) (clock : ℕ → ℕ) (timestamps translation rotation : ND ℝ) (topic frame childFrame : String)
  | load (i : ℕ) (topic : String) (cache : Bool) (fate : Fate)
  | exportNc (i : ℕ) (topic : String) (out : OutFile) (fate : Fate)
  | crash

/-- What a call returns. -/
inductive SessRet
  | unit
  | dataset (d : Dataset)

/-- Death of the process: files stay as they are, objects are gone. The next process starts in this state. -/
def Disk.die (w : Disk) : Disk := { w with objs := [], lost := 0 }

/-- A world after `objs[i]` became `o`. -/
def Disk.setObj (w : Disk) (i : ℕ) (o : BagObj) : Disk := { w with objs := w.objs.set i o }

/-- A world after a netCDF file was written. -/
def Disk.setNc (w : Disk) (p : Path) (f : NcState) : Disk := { w with ncs := Function.update w.ncs p (some f) }

/-- io.py:19-23 and 259-263 `__enter__`; `rosbag.Bag(path, mode)` (external; folders exist). The bag that `_bag` referred to before
stays open. -/
def Disk.enter (w : Disk) (i : ℕ) : Disk × Res SessRet :=
  match w.objs[i]? with
  | none => (w, .error .keyError)
  | some o =>
    let lost := if o.bag.isSome then w.lost + 1 else w.lost
    match o.mode with
    | .r =>
      match w.bags o.path with
      | none => (w, .error .osError)
      | some (.writing _) => (w, .error .bagException)
      | some (.complete b) =>
        ({ w.setObj i { o with bag := some (w.sessions, b) } with sessions := w.sessions + 1, lost := lost }, .ok .unit)
    | .w =>
      ({ w.setObj i { o with bag := some (w.sessions, Bag.empty) } with
          bags := Function.update w.bags o.path (some (.writing w.sessions)), sessions := w.sessions + 1, lost := lost }, .ok .unit)

/-- `bag.close()` (external) of session `k` with content `b`: if another session has opened the file for writing meanwhile, the two
have written over each other and the file is unreadable. -/
def closedFile (k : ℕ) (b : Bag) : Option BagFile → BagFile
  | some (.writing k') => if k' = k then .complete b else .writing k
  | _ => .writing k

/-- io.py:25-27 and 265-267 `__exit__`, also called if the block raised. -/
def Disk.exit (w : Disk) (i : ℕ) : Disk × Res SessRet :=
  match w.objs[i]? with
  | none => (w, .error .keyError)
  | some o =>
    match o.bag with
    | none => (w, .error .attributeError)
    | some (k, b) =>
      match o.mode with
      | .r => (w.setObj i { o with bag := none }, .ok .unit)
      | .w => ({ w.setObj i { o with bag := none } with bags := Function.update w.bags o.path (some (closedFile k b (w.bags o.path))) }, .ok .unit)

/-- io.py:268-317 `write_transform_stamped`; readers have no such method. -/
def Disk.write (w : Disk) (i : ℕ) (clock : ℕ → ℕ) (timestamps translation rotation : ND ℝ) (topic frame childFrame : String) : Disk × Res SessRet :=
  match w.objs[i]? with
  | none => (w, .error .keyError)
  | some o =>
    match o.mode with
    | .r => (w, .error .attributeError)
    | .w =>
      match writeTransformStamped (o.bag.map Prod.snd) clock timestamps translation rotation topic frame childFrame with
      | (b, r) => (w.setObj i { o with bag := o.bag.bind fun s => b.map fun b => (s.1, b) }, r.map fun _ => .unit)

/-- io.py:228-241 `export`. If writing fails, the file stays behind. -/
def Disk.exportWith (cast : ℤ → ℤ) (w : Disk) (rd : Reader) (topic : String) (out : OutFile) (fate : Fate) : Disk × Res SessRet :=
  match rd.loadDatasetUncached topic with
  | .error e => (w, .error e)
  | .ok ds =>
    match rd.getFilename out with
    | .error e => (w, .error e)
    | .ok p =>
      match fate with
      | .done => (w.setNc p (.complete (writeNetcdf cast ds)), .ok .unit)
      | .fails => (w.setNc p .torn, .error .osError)
      | .dies => (w.setNc p .torn, .error .osError)

/-- `xr.open_dataset(filepath)` (external). -/
def openNc : Option NcState → Res SessRet
  | some (.complete f) => .ok (.dataset (openDataset f))
  | _ => .error .osError

/-- io.py:158-226 `load_dataset`. -/
def Disk.loadWith (cast : ℤ → ℤ) (w : Disk) (rd : Reader) (topic : String) (cache : Bool) (fate : Fate) : Disk × Res SessRet :=
  if cache then
    match w.ncs (rd.cachePath topic) with
    | some f => (w, openNc (some f))
    | none =>
      match w.exportWith cast rd topic (.path (rd.cachePath topic)) fate with
      | (w', .error e) => (w', .error e)
      | (w', .ok _) => (w', openNc (w'.ncs (rd.cachePath topic)))
  else (w, (rd.loadDatasetUncached topic).map .dataset)

/-- The process dies with the call if that is its fate. -/
def endCall (fate : Fate) (x : Disk × Res SessRet) : Disk × Res SessRet :=
  match fate with
  | .dies => (x.1.die, x.2)
  | _ => x

/-- The reader `objs[i]`; writers have no methods to read. -/
def Disk.readerAt (w : Disk) (i : ℕ) : Res Reader :=
  match w.objs[i]? with
  | none => .error .keyError
  | some o =>
    match o.mode with
    | .r => .ok ⟨o.path, o.bag.map Prod.snd⟩
    | .w => .error .attributeError

/-- One event. -/
def Disk.step (cast : ℤ → ℤ) (w : Disk) : SessEvent → Disk × Res SessRet
  | .reader p => ({ w with objs := w.objs ++ [⟨p, .r, none⟩] }, .ok .unit)
  | .writer p => ({ w with objs := w.objs ++ [⟨p, .w, none⟩] }, .ok .unit)
  | .enter i => w.enter i
  | .exit i => w.exit i
  | .write i clock ts t r topic frame child => w.write i clock ts t r topic frame child
  | .load i topic cache fate =>
    match w.readerAt i with
    | .error e => endCall fate (w, .error e)
    | .ok rd => endCall fate (w.loadWith cast rd topic cache fate)
  | .exportNc i topic out fate =>
    match w.readerAt i with
    | .error e => endCall fate (w, .error e)
    | .ok rd => endCall fate (w.exportWith cast rd topic out fate)
  | .crash => (w.die, .ok .unit)

/-- A history: the world afterwards and what every event returned. -/
def Disk.run (cast : ℤ → ℤ) : Disk → List SessEvent → Disk × List (Res SessRet)
  | w, [] => (w, [])
  | w, e :: es => ((w.step cast e).1.run cast es |>.1, (w.step cast e).2 :: ((w.step cast e).1.run cast es).2)

end RBM.Ros
