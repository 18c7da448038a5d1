import Verif.Model.RosIo
import Verif.Spec.Ros

/-!
What is expected of reading and writing bags and netCDF files.
-/

namespace RBM.Spec

open RBM RBM.Ros

/-- Two tables of values (NaN is `none`) have the same shape, the same NaNs and values that differ by at most `ε`. -/
def TableWithin (ε : ℝ) (a b : List (List (Option ℝ))) : Prop :=
  List.Forall₂ (List.Forall₂ fun x y => (x = none ∧ y = none) ∨ ∃ u v, x = some u ∧ y = some v ∧ |u - v| ≤ ε) a b

/-- Two datasets have the same times and variables, with values that differ by at most `ε`. -/
def DatasetWithin (ε : ℝ) (a b : Dataset) : Prop :=
  a.time = b.time ∧ TableWithin ε a.position b.position ∧ TableWithin ε a.orientation b.orientation ∧
    ((a.velocity = none ∧ b.velocity = none) ∨
      ∃ v w, a.velocity = some v ∧ b.velocity = some w ∧ TableWithin ε v.1 w.1 ∧ TableWithin ε v.2 w.2)

/-- All values of a table are less than `m` in absolute value. -/
def TableBelow (m : ℝ) (a : List (List (Option ℝ))) : Prop := ∀ r ∈ a, ∀ x, some x ∈ r → |x| < m

/-- All values of a dataset are less than `m` in absolute value. -/
def DatasetBelow (m : ℝ) (a : Dataset) : Prop :=
  TableBelow m a.position ∧ TableBelow m a.orientation ∧ ∀ v, a.velocity = some v → TableBelow m v.1 ∧ TableBelow m v.2

/-- One call of `write_transform_stamped`; `clock k` is the wall clock when its `k`-th message is written. -/
structure WriteCall where
  timestamps : ND ℝ
  translation : ND ℝ
  rotation : ND ℝ
  topic : String
  frame : String
  childFrame : String
  clock : ℕ → ℕ

/-- The arrays of a call have matching shapes. -/
def WriteCall.ShapesOk (c : WriteCall) (n : ℕ) : Prop :=
  c.timestamps.shape = [n] ∧ c.translation.shape = [n, 3] ∧ c.rotation.shape = [n, 4]

/-- A time that has a stamp: not before 1970 (up to a nanosecond) and seconds below 2³². -/
def HasStamp (τ : ℝ) : Prop := -(1 / 1000000000) < τ ∧ τ < 4294967296

/-- A time in nanoseconds, cut. -/
noncomputable def cutNs (τ : ℝ) : ℕ := ⌊τ * 1000000000⌋.toNat

/-- A row of input: timestamp, translation, rotation and the time of its writing. -/
structure Row where
  ts : ℝ
  t : Vec
  r : Quat
  now : ℕ

/-- The rows of the arrays of a call. -/
noncomputable def WriteCall.rows (c : WriteCall) (n : ℕ) : List Row :=
  (List.range n).map fun k => ⟨c.timestamps.get [k], fun i => c.translation.get [k, i],
    ⟨c.rotation.get [k, 0], c.rotation.get [k, 1], c.rotation.get [k, 2], c.rotation.get [k, 3]⟩, c.clock k⟩

open Classical in
/-- The rows of a call that can be written: none if the shapes do not match, otherwise those before the first timestamp without stamp. -/
noncomputable def WriteCall.accepted (c : WriteCall) : List Row :=
  if c.ShapesOk (c.timestamps.shape.headD 0) then (c.rows (c.timestamps.shape.headD 0)).takeWhile fun r => decide (HasStamp r.ts) else []

/-- The rows that a history of calls can write to a topic, in order. -/
noncomputable def acceptedOn (calls : List WriteCall) (topic : String) : List Row :=
  (calls.filter fun c => decide (c.topic = topic)).flatMap WriteCall.accepted

/-- The wall clock does not go backwards while the calls are writing. -/
def SteadyClock (calls : List WriteCall) : Prop :=
  ((calls.flatMap WriteCall.accepted).map Row.now).Pairwise fun a b => a ≤ b

/-- A history of calls on a bag that was opened for writing; calls that raise leave what they wrote before. -/
noncomputable def writeAll (calls : List WriteCall) : Option Bag :=
  calls.foldl (fun b c => (writeTransformStamped b c.clock c.timestamps c.translation c.rotation c.topic c.frame c.childFrame).1) (some Bag.empty)

/-- A call on a reader of a bag file, in or outside of the context manager. -/
inductive IoCall
  | load (inside : Bool) (topic : String) (cache : Bool)
  | exportTo (inside : Bool) (topic : String) (out : OutFile)

/-- The files after a call on a reader of the bag `bag` at `path`. -/
noncomputable def ioStep (cast : ℤ → ℤ) (path : Path) (bag : Bag) (fs : Files) : IoCall → Files
  | .load inside topic cache => ((Reader.mk path (if inside then some bag else none)).loadDataset cast fs topic cache).1
  | .exportTo inside topic out => ((Reader.mk path (if inside then some bag else none)).exportNc cast fs topic out).1

/-- The topics of a call contain no underscore, and it does not export into the cache folder. -/
def IoCall.Tame (path : Path) : IoCall → Prop
  | .load _ topic _ => '_' ∉ topic.toList
  | .exportTo _ _ (.path p) => p.folder ≠ path.folder ++ ["cache"]
  | .exportTo _ _ _ => True

end RBM.Spec
