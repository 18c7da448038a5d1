import Verif.Props.SessionCache

/-!
Concrete cases for C80 and C81.
-/

namespace RBM.Props

open RBM RBM.Ros RBM.Spec

variable {cast : ℤ → ℤ}

/-- A bag file. -/
def exBagPath : Path := ⟨["data"], "a.bag"⟩

/-- A disk with one bag file and no netCDF files. -/
noncomputable def exDisk : Disk := ⟨fun p => if p = exBagPath then some (.complete (oneMsg "/pose" 3)) else none, fun _ => none, [], 0, 0⟩

theorem exDisk_fresh : Fresh exDisk := by
  refine ⟨rfl, rfl, fun p k h => ?_⟩
  simp only [exDisk] at h
  split_ifs at h
  cases h

theorem exDisk_file : exDisk.bags exBagPath = some (.complete (oneMsg "/pose" 3)) := by simp [exDisk]

/-- A write call with one row. -/
noncomputable def exWrite : WriteCall := ⟨⟨[1], fun _ => 5⟩, ⟨[1, 3], fun _ => 2⟩, ⟨[1, 4], fun _ => 1⟩, "/pose", "a", "b", fun _ => 7⟩

theorem exWrite_ok : exWrite.ShapesOk 1 ∧ HasStamp (exWrite.timestamps.get [0]) := ⟨⟨rfl, rfl, rfl⟩, by simp [HasStamp, exWrite]; norm_num⟩

/-- Entering, leaving and a death of the process. -/
noncomputable def exVisits : List SessEvent := [.reader exBagPath, .enter 0, .exit 0, .enter 0, .crash, .reader exBagPath, .enter 0]

theorem exVisits_run : ∃ w', (exDisk.run cast exVisits) = (w', [.ok .unit, .ok .unit, .ok .unit, .ok .unit, .ok .unit, .ok .unit, .ok .unit]) ∧
    w'.objs = [⟨exBagPath, .r, some (2, oneMsg "/pose" 3)⟩] ∧ w'.lost = 0 := by
  simp [exVisits, Disk.run, Disk.step, Disk.enter, Disk.exit, Disk.setObj, Disk.die, exDisk]

example : Inside (outcomes exVisits (exDisk.run cast exVisits).2) 0 := by
  rw [← C80_inside exDisk_fresh]
  obtain ⟨w', h, ho, _⟩ := exVisits_run (cast := cast)
  exact ⟨_, _, by rw [h, ho]; rfl, rfl⟩

example : openBags (exDisk.run cast exVisits).1 = 1 ∧ {i | Inside (outcomes exVisits (exDisk.run cast exVisits).2) i}.ncard = 1 := by
  have h1 : openBags (exDisk.run cast exVisits).1 = 1 := by
    obtain ⟨w', h, ho, hl⟩ := exVisits_run (cast := cast)
    rw [h]
    simp [openBags, ho, hl]
  refine ⟨h1, ?_⟩
  rw [← C80_open exDisk_fresh, h1]
  obtain ⟨w', h, _⟩ := exVisits_run (cast := cast)
  rw [h]
  have e : outcomes exVisits [.ok .unit, .ok .unit, .ok .unit, .ok .unit, .ok .unit, .ok .unit, .ok .unit] =
    [(.reader exBagPath, true), (.enter 0, true), (.exit 0, true), (.enter 0, true), (.crash, true), (.reader exBagPath, true), (.enter 0, true)] := rfl
  rw [e]
  have none1 : ∀ i, ¬ Inside ([] : List Outcome) i := by rintro i ⟨pre, post, h, _⟩; simp at h
  have s1 := fun i x => inside_snoc [] x i
  have s2 := fun i x y => inside_snoc [x] y i
  have s3 := fun i x y z => inside_snoc [x, y] z i
  have s4 := fun i x y z u => inside_snoc [x, y, z] u i
  have s5 := fun i x y z u v => inside_snoc [x, y, z, u] v i
  have s6 := fun i x y z u v t => inside_snoc [x, y, z, u, v] t i
  simp only [List.nil_append, List.cons_append] at s1 s2 s3 s4 s5 s6
  intro pre i post h
  match pre with
  | [] => simp at h
  | [a] =>
    simp only [List.cons_append, List.nil_append, List.cons.injEq, Prod.mk.injEq, and_true] at h
    obtain ⟨rfl, h, _⟩ := h
    rw [s1]; simp [none1]
  | [a, b] => simp at h
  | [a, b, c] =>
    simp only [List.cons_append, List.nil_append, List.cons.injEq, Prod.mk.injEq, and_true] at h
    obtain ⟨rfl, rfl, rfl, h, _⟩ := h
    cases h
    rw [s3]; simp
  | [a, b, c, d] => simp at h
  | [a, b, c, d, e] => simp at h
  | [a, b, c, d, e, f] =>
    simp only [List.cons_append, List.nil_append, List.cons.injEq, Prod.mk.injEq, and_true] at h
    obtain ⟨rfl, rfl, rfl, rfl, rfl, rfl, h, _⟩ := h
    cases h
    rw [s6, s5]; simp [Dies]
  | a :: b :: c :: d :: e :: f :: g :: l =>
    have := congrArg List.length h
    simp at this

example : (exDisk.run cast [.reader exBagPath]).1.step cast (.load 0 "/pose" false .done) = ((exDisk.run cast [.reader exBagPath]).1, .error .runtimeError) := by
  refine ((C80_outside exDisk_fresh [.reader exBagPath] (i := 0) ?_ (o := ⟨exBagPath, .r, none⟩) rfl).1 rfl "/pose" .none).1
  rw [← C80_inside exDisk_fresh]
  rintro ⟨o, s, h, h'⟩
  simp [Disk.run, Disk.step, exDisk] at h
  rw [← h] at h'
  cases h'

example : (exDisk.run cast [.writer exBagPath]).1.step cast
    (.write 0 exWrite.clock exWrite.timestamps exWrite.translation exWrite.rotation exWrite.topic exWrite.frame exWrite.childFrame) =
      ((exDisk.run cast [.writer exBagPath]).1, .error .attributeError) := by
  refine (C80_outside exDisk_fresh [.writer exBagPath] (i := 0) ?_ (o := ⟨exBagPath, .w, none⟩) rfl).2.1 rfl exWrite 1 exWrite_ok.1 (by norm_num) exWrite_ok.2
  rw [← C80_inside exDisk_fresh]
  rintro ⟨o, s, h, h'⟩
  simp [Disk.run, Disk.step, exDisk] at h
  rw [← h] at h'
  cases h'

/-- The disk with a process that has a writer of the bag file. -/
noncomputable def exWriter : Disk := { exDisk with objs := [⟨exBagPath, .w, none⟩] }

/-- A block that writes one row, while the process also reads. -/
noncomputable def exBlock : List SessEvent :=
  [.reader exBagPath, .write 0 exWrite.clock exWrite.timestamps exWrite.translation exWrite.rotation exWrite.topic exWrite.frame exWrite.childFrame, .enter 1]

theorem exBlock_ok : (∀ e ∈ exBlock, e ≠ .exit 0 ∧ ¬ Dies e) ∧ NoWriter cast exBagPath (exWriter.step cast (.enter 0)).1 exBlock := by
  refine ⟨?_, ?_⟩
  · intro e he
    simp only [exBlock, List.mem_cons, List.not_mem_nil, or_false] at he
    rcases he with rfl | rfl | rfl <;> exact ⟨nofun, id⟩
  · refine ⟨fun _ _ h => (nomatch h), fun _ _ h => (nomatch h), ?_, trivial⟩
    intro i o hi ho hm
    cases hi
    simp [Disk.step, Disk.enter, exWriter, exDisk, Disk.setObj, Disk.write] at ho
    rw [← ho] at hm
    cases hm

example : ∃ b, writeAll [exWrite] = some b ∧ (exWriter.run cast (.enter 0 :: exBlock ++ [.exit 0])).1.bags exBagPath = some (.complete b) := by
  obtain ⟨b, h1, h2, _⟩ := C80_stored (cast := cast) (w := exWriter) (i := 0) (p := exBagPath) rfl (by simp [Unwritten, exWriter]) exBlock (exBlock_ok (cast := cast)).1 exBlock_ok.2
  refine ⟨b, ?_, h2⟩
  have e : callsOf 0 exBlock = [exWrite] := rfl
  rw [← e]; exact h1

example : (exWriter.run cast (.enter 0 :: exBlock ++ .crash :: [.reader exBagPath])).1.step cast (.enter 0) =
    ((exWriter.run cast (.enter 0 :: exBlock ++ .crash :: [.reader exBagPath])).1, .error .bagException) := by
  refine (C80_crash (cast := cast) (w := exWriter) (i := 0) (p := exBagPath) rfl (by simp [Unwritten, exWriter]) exBlock (exBlock_ok (cast := cast)).1 exBlock_ok.2).2 .crash trivial
    [.reader exBagPath] ⟨fun _ _ h => (nomatch h), trivial⟩ 0 ⟨exBagPath, .r, none⟩ ?_ rfl rfl
  rw [show (.enter 0 :: exBlock ++ .crash :: [.reader exBagPath] : List SessEvent) = (.enter 0 :: exBlock ++ [.crash]) ++ [.reader exBagPath] by simp, run_snoc, run_snoc]
  rfl

example : (exDisk.run cast exVisits).1.bags exBagPath = exDisk.bags exBagPath :=
  (C80_stable (cast := cast) (w := exDisk) (p := exBagPath) (by simp [Unwritten, exDisk]) exVisits (by
    simp [exVisits, NoWriter, Disk.step, Disk.enter, Disk.exit, Disk.setObj, Disk.die, exDisk]
    rintro i o rfl ho hm
    simp at ho
    rw [← ho] at hm
    cases hm)).1

/-- The disk with a process inside the block of a reader. -/
noncomputable def exInside : Disk := { exDisk with objs := [⟨exBagPath, .r, some (0, oneMsg "/pose" 3)⟩], sessions := 1 }

theorem exInside_reader : exInside.readerAt 0 = .ok ⟨exBagPath, some (oneMsg "/pose" 3)⟩ := rfl

/-- The process dies while it writes the cache; the next one reads the same bag. -/
example : ((exInside.run cast [.load 0 "/pose" true .dies, .reader exBagPath, .enter 0]).1.step cast (.load 0 "/pose" true .done)).2 = .error .osError := by
  refine C81_torn_forever exInside_reader (oneMsg_load _ _ _) rfl (fate := .dies) nofun [.reader exBagPath, .enter 0] ⟨id, id, trivial⟩ (j := 0)
    (o := ⟨exBagPath, .r, some (1, oneMsg "/pose" 3)⟩) ?_ rfl rfl .done
  have h1 : (exInside.step cast (.load 0 "/pose" true .dies)).1 = ({ exInside with ncs := (exInside.loadWith cast ⟨exBagPath, some (oneMsg "/pose" 3)⟩ "/pose" true .dies).1.ncs } : Disk).die := by
    obtain ⟨x, hx⟩ := load_objs (cast := cast) exInside ⟨exBagPath, some (oneMsg "/pose" 3)⟩ "/pose" true .dies
    simp only [Disk.step, exInside_reader, endCall]
    rw [hx]
  simp only [Disk.run]
  rw [h1]
  simp [Disk.step, Disk.enter, Disk.setObj, Disk.die, exInside, exDisk]

example : ∃ f, (exInside.run cast [.load 0 "/pose" true .done]).1.ncs ((Reader.mk exBagPath none).cachePath "/pose") = some f ∧
    (exInside.run cast ([.load 0 "/pose" true .done] ++ [.crash, .reader exBagPath])).1.ncs ((Reader.mk exBagPath none).cachePath "/pose") = some f := by
  have h : (exInside.run cast [.load 0 "/pose" true .done]).1.ncs ((Reader.mk exBagPath none).cachePath "/pose") =
      some (.complete (writeNetcdf cast ⟨[1000000000], [[some 3, some 0, some 0]], [[some 1, some 0, some 0, some 0]], none⟩)) := by
    simp only [Disk.run, Disk.step, exInside_reader, endCall, Disk.loadWith, if_true]
    simp only [exInside, exDisk, Disk.exportWith, oneMsg_load, Reader.getFilename, Disk.setNc]
    exact Function.update_self _ _ _
  refine ⟨_, h, ?_⟩
  rw [run_append]
  exact C81_only_exports h _ ⟨id, id, trivial⟩

example : (exInside.run cast [.exportNc 0 "/pose" (.path ((Reader.mk exBagPath none).cachePath "/pose")) .done, .load 0 "/pose" true .done]).2 =
    [.ok .unit, .ok (.dataset (openDataset (writeNetcdf cast ⟨[1000000000], [[some 3, some 0, some 0]], [[some 1, some 0, some 0, some 0]], none⟩)))] :=
  C81_repair exInside_reader (oneMsg_load _ _ _)

example : (exInside.step cast (.exportNc 0 "/pose" (.path ⟨["out"], "x.nc"⟩) .fails)).2 = .error .osError :=
  (C81_export_not_atomic (fate := .fails) exInside_reader (oneMsg_load _ _ _) ⟨["out"], "x.nc"⟩ nofun).1

/-- The bag is read, cached, the process dies, and the next one reads it again. -/
noncomputable def exHistory : List SessEvent := [.reader exBagPath, .enter 0, .load 0 "/pose" true .done, .crash, .reader exBagPath, .enter 0]

theorem exHistory_ok : (∀ e ∈ exHistory, OneBag exBagPath e) ∧ (∀ e ∈ exHistory, ¬ Interrupted e) ∧ ∃ o, (exDisk.run cast exHistory).1.objs[0]? = some o ∧
    o.mode = .r ∧ o.path = exBagPath ∧ o.bag = some (1, oneMsg "/pose" 3) := by
  refine ⟨?_, ?_, ?_⟩
  · intro e he
    simp only [exHistory, List.mem_cons, List.not_mem_nil, or_false] at he
    rcases he with rfl | rfl | rfl | rfl | rfl | rfl <;> simp [OneBag, exBagPath]
  · intro e he
    simp only [exHistory, List.mem_cons, List.not_mem_nil, or_false] at he
    rcases he with rfl | rfl | rfl | rfl | rfl | rfl <;> exact id
  · have e : exHistory = [.reader exBagPath, .enter 0] ++ (.load 0 "/pose" true .done :: [.crash, .reader exBagPath, .enter 0]) := rfl
    rw [e, run_append]
    have h1 : (exDisk.run cast [.reader exBagPath, .enter 0]).1 = exInside := by
      simp [Disk.run, Disk.step, Disk.enter, Disk.setObj, exInside, exDisk]
    rw [h1]
    obtain ⟨x, hx⟩ := load_objs (cast := cast) exInside ⟨exBagPath, some (oneMsg "/pose" 3)⟩ "/pose" true .done
    have h2 : (exInside.step cast (.load 0 "/pose" true .done)).1 = { exInside with ncs := x } := by
      simp only [Disk.step, exInside_reader, endCall]
      exact hx
    simp only [Disk.run]
    rw [h2]
    simp [Disk.step, Disk.enter, Disk.setObj, Disk.die, exInside, exDisk]

example : ((exDisk.run cast exHistory).1.step cast (.load 0 "/pose" true .done)).2 =
    .ok (.dataset (openDataset (writeNetcdf cast ⟨[1000000000], [[some 3, some 0, some 0]], [[some 1, some 0, some 0, some 0]], none⟩))) := by
  obtain ⟨h1, h2, o, h3, h4, h5, h6⟩ := exHistory_ok (cast := cast)
  exact C81_uninterrupted_partial exDisk_fresh exDisk_file (fun _ _ => rfl) exHistory h1 h2 h3 h4 h5
    ((C80_inside exDisk_fresh _ _).mp ⟨o, _, h3, h6⟩) (by decide) (oneMsg_load _ _ _)

example : ∃ r, ((exDisk.run cast exHistory).1.step cast (.load 0 "/pose" true .dies)).2 = r := by
  obtain ⟨h1, _, o, h3, h4, h5, h6⟩ := exHistory_ok (cast := cast)
  rcases C81_never_wrong_partial exDisk_fresh exDisk_file (fun _ _ => rfl) exHistory h1 h3 h4 h5 (topic := "/pose") (by decide) .dies with ⟨_, _, h⟩ | h | ⟨_, _, h⟩ <;>
    exact ⟨_, h⟩

end RBM.Props
