import Verif.Model.RosSession
import Verif.Spec.RosIo

/-!
What is expected of bags and caches over the life of processes.
-/

namespace RBM.Spec

open RBM RBM.Ros

/-- The event ends the process. -/
def Dies : SessEvent → Prop
  | .crash => True
  | .load _ _ _ .dies => True
  | .exportNc _ _ _ .dies => True
  | _ => False

/-- An event and whether it succeeded. -/
abbrev Outcome := SessEvent × Bool

/-- The events of a history with their success. -/
def outcomes (es : List SessEvent) (rs : List (Res SessRet)) : List Outcome := es.zip (rs.map fun r => r.isOk)

/-- After these events the `with` block of object `i` is entered and not left, and the process has not died. -/
def Inside (tr : List Outcome) (i : ℕ) : Prop :=
  ∃ pre post, tr = pre ++ (.enter i, true) :: post ∧ ∀ x ∈ post, x.1 ≠ .exit i ∧ ¬ Dies x.1

/-- No block is entered while it is not yet left: `with` statements of the same object are not nested. -/
def NoReentry (tr : List Outcome) : Prop := ∀ pre i post, tr = pre ++ (.enter i, true) :: post → ¬ Inside pre i

/-- The files at the start of the first process, with no readers and writers. -/
structure Fresh (w : Disk) : Prop where
  objs : w.objs = []
  lost : w.lost = 0
  unused : ∀ p k, w.bags p = some (.writing k) → k < w.sessions

/-- The bags that are open in the running process: those of readers and writers, and those that nothing refers to. -/
def openBags (w : Disk) : ℕ := (w.objs.filter fun o => o.bag.isSome).length + w.lost

/-- No writer has the file open. -/
def Unwritten (w : Disk) (p : Path) : Prop := ∀ o ∈ w.objs, o.mode = .w → o.path = p → o.bag = none

/-- In these events, no block of a writer of the file is entered. -/
def NoWriter (cast : ℤ → ℤ) (p : Path) : Disk → List SessEvent → Prop
  | _, [] => True
  | w, e :: es => (∀ i o, e = .enter i → w.objs[i]? = some o → o.mode = .w → o.path ≠ p) ∧ NoWriter cast p (w.step cast e).1 es

/-- The calls of `write_transform_stamped` of object `i` in these events. -/
def callsOf (i : ℕ) : List SessEvent → List WriteCall
  | [] => []
  | .write j clock ts t r topic frame child :: es => if j = i then ⟨ts, t, r, topic, frame, child, clock⟩ :: callsOf i es else callsOf i es
  | _ :: es => callsOf i es

/-- The event can write this netCDF file: an export to it, or without file name from the bag beside it. -/
def ExportsTo (w : Disk) (p : Path) : SessEvent → Prop
  | .exportNc _ _ (.path q) _ => q = p
  | .exportNc i _ .none _ => ∃ o, w.objs[i]? = some o ∧ o.path.folder = p.folder ∧ stem o.path.name ++ ".nc" = p.name
  | _ => False

/-- In these events, nothing is exported to the file. -/
def NoExport (cast : ℤ → ℤ) (p : Path) : Disk → List SessEvent → Prop
  | _, [] => True
  | w, e :: es => ¬ ExportsTo w p e ∧ NoExport cast p (w.step cast e).1 es

/-- The call may be interrupted. -/
def Interrupted : SessEvent → Prop
  | .load _ _ _ .done => False
  | .load _ _ _ _ => True
  | .exportNc _ _ _ .done => False
  | .exportNc _ _ _ _ => True
  | _ => False

/-- For a bag file: no other bags in its folder or in its cache folder, topics without underscore, no exports to the cache folder, and the bag
is not written. -/
def OneBag (p : Path) : SessEvent → Prop
  | .reader q => (q.folder = p.folder → q = p) ∧ q.folder ≠ p.folder ++ ["cache"]
  | .writer q => q ≠ p
  | .load _ topic _ _ => '_' ∉ topic.toList
  | .exportNc _ _ (.path q) _ => q.folder ≠ p.folder ++ ["cache"]
  | _ => True

end RBM.Spec
