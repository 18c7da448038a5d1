import Verif.Lemmas.Example2
import Verif.Spec.Equivalent

/-!
Concrete trees that describe the same bodies: `pm` (world, mount, m on mount, d), `qm` (the mount
merged into m) and `rm` (the moving system `m3` with other coordinates in the world frame).
-/

namespace RBM.Ex

open RBM Spec

def argsM' : FrameArgs := { translation := some (arr2 3 [[1, 2, 3], [0, 2, 3], [-3, 2, 3]]),
                            rotation := some (arr2 4 [[0, 0, 0, 1], [0, 0, 0, 1], [0, 0, 0, 1]]),
                            timestamps := some (arr1 [0, 1, 2]) }
def argsD' : FrameArgs := { translation := some (arr2 3 [[1, 2, 3], [1, 2, 3]]),
                            rotation := some (arr2 4 [[0, 0, 0, 1], [-1, 0, 0, 0]]),
                            timestamps := some (arr1 [1, 2]), discrete := true }

noncomputable def pm2 : State := (m1.step (.registerFrame (some "mount") (some (.byName "world")) argsA false)).1
noncomputable def pm3 : State := (pm2.step (.registerFrame (some "m") (some (.byName "mount")) argsM false)).1
noncomputable def pm : State := (pm3.step (.registerFrame (some "d") (some (.byName "world")) argsD false)).1
noncomputable def qm2 : State := (m1.step (.registerFrame (some "m") (some (.byName "world")) argsM' false)).1
noncomputable def qm : State := (qm2.step (.registerFrame (some "d") (some (.byName "world")) argsD false)).1
noncomputable def rm : State := (qm2.step (.registerFrame (some "d") (some (.byName "world")) argsD' false)).1

def dataM' : FrameData := ⟨some (.many [![1, 2, 3], ![0, 2, 3], ![-3, 2, 3]],
  .many [⟨0, 0, 0, 1⟩, ⟨0, 0, 0, 1⟩, ⟨0, 0, 0, 1⟩]), some [0, 1, 2], false⟩
def dataD' : FrameData := ⟨some (.many [![1, 2, 3], ![1, 2, 3]], .many [⟨0, 0, 0, 1⟩, ⟨-1, 0, 0, 0⟩]), some [1, 2], true⟩

set_option linter.unusedSimpArgs false in
theorem pm_eq : pm = ⟨4,
    fun i => if i = 3 then some "d" else if i = 2 then some "m" else if i = 1 then some "mount"
      else if i = 0 then some "world" else none,
    fun i => if i = 3 then some 0 else if i = 2 then some 1 else if i = 1 then some 0 else none,
    fun i => if i = 0 then [1, 3] else if i = 1 then [2] else [],
    fun i => if i = 3 then some dataD
      else if i = 2 then some dataM
      else if i = 1 then some ⟨some (.one ![1, 2, 3], .one ⟨0, 0, 0, 1⟩), none, false⟩
      else if i = 0 then some ⟨none, none, false⟩ else none,
    [("world", 0), ("mount", 1), ("m", 2), ("d", 3)]⟩ := by
  simp [pm, pm3, pm2, m1, State.step, State.registerFrame, State.construct, verifyRoot,
    State.register, State.resolve, State.alloc, State.setData, State.setParent, State.checkLoop,
    State.detach, State.attach, State.pathReverse, chainUp, dictGet, dictSet, State.init,
    initArrays, argsA, argsM, argsD, initTimestamps, initTranslationArg, initRotationArg, arr1, arr2,
    List.lookup, Function.update_apply, Pure.pure, bind, Except.bind, Except.pure, vecRows, quatRows,
    List.range_succ]
  refine ⟨?_, ?_, ?_, ?_⟩
  · funext i; simp only [Function.update_apply]
  · funext i; simp only [Function.update_apply]
  · funext i; simp only [Function.update_apply]; split_ifs <;> simp_all
  · funext i; simp only [Function.update_apply, dataD, dataM, List.replicate]; split_ifs <;> simp_all
    · rfl
    · refine ⟨?_, ?_, ?_⟩ <;> funext k <;> fin_cases k <;> simp
    · funext k; fin_cases k <;> simp

set_option linter.unusedSimpArgs false in
theorem qm_eq : qm = ⟨3,
    fun i => if i = 2 then some "d" else if i = 1 then some "m"
      else if i = 0 then some "world" else none,
    fun i => if i = 2 then some 0 else if i = 1 then some 0 else none,
    fun i => if i = 0 then [1, 2] else [],
    fun i => if i = 2 then some dataD
      else if i = 1 then some dataM'
      else if i = 0 then some ⟨none, none, false⟩ else none,
    [("world", 0), ("m", 1), ("d", 2)]⟩ := by
  simp [qm, qm2, m1, State.step, State.registerFrame, State.construct, verifyRoot,
    State.register, State.resolve, State.alloc, State.setData, State.setParent, State.checkLoop,
    State.detach, State.attach, State.pathReverse, chainUp, dictGet, dictSet, State.init,
    initArrays, argsM', argsD, initTimestamps, initTranslationArg, initRotationArg, arr1, arr2,
    List.lookup, Function.update_apply, Pure.pure, bind, Except.bind, Except.pure, vecRows, quatRows,
    List.range_succ]
  refine ⟨?_, ?_, ?_, ?_⟩
  · funext i; simp only [Function.update_apply]
  · funext i; simp only [Function.update_apply]
  · funext i; simp only [Function.update_apply]; split_ifs <;> simp_all
  · funext i; simp only [Function.update_apply, dataD, dataM', List.replicate]; split_ifs <;> simp_all
    · rfl
    · refine ⟨⟨?_, ?_, ?_⟩, rfl⟩ <;> funext k <;> fin_cases k <;> simp

set_option linter.unusedSimpArgs false in
theorem rm_eq : rm = ⟨3,
    fun i => if i = 2 then some "d" else if i = 1 then some "m"
      else if i = 0 then some "world" else none,
    fun i => if i = 2 then some 0 else if i = 1 then some 0 else none,
    fun i => if i = 0 then [1, 2] else [],
    fun i => if i = 2 then some dataD'
      else if i = 1 then some dataM'
      else if i = 0 then some ⟨none, none, false⟩ else none,
    [("world", 0), ("m", 1), ("d", 2)]⟩ := by
  simp [rm, qm2, m1, State.step, State.registerFrame, State.construct, verifyRoot,
    State.register, State.resolve, State.alloc, State.setData, State.setParent, State.checkLoop,
    State.detach, State.attach, State.pathReverse, chainUp, dictGet, dictSet, State.init,
    initArrays, argsM', argsD', initTimestamps, initTranslationArg, initRotationArg, arr1, arr2,
    List.lookup, Function.update_apply, Pure.pure, bind, Except.bind, Except.pure, vecRows, quatRows,
    List.range_succ]
  refine ⟨?_, ?_, ?_, ?_⟩
  · funext i; simp only [Function.update_apply]
  · funext i; simp only [Function.update_apply]
  · funext i; simp only [Function.update_apply]; split_ifs <;> simp_all
  · funext i; simp only [Function.update_apply, dataD', dataM', List.replicate]; split_ifs <;> simp_all
    · refine ⟨?_, rfl⟩; funext k; fin_cases k <;> simp
    · refine ⟨⟨?_, ?_, ?_⟩, rfl⟩ <;> funext k <;> fin_cases k <;> simp

theorem reachPm : ∃ h, Reachable pm h := by
  have r1 := Reachable.step (.registerFrame (some "world") none {} false) .init trivial
  have r2 := Reachable.step (.registerFrame (some "mount") (some (.byName "world")) argsA false) r1 trivial
  have r3 := Reachable.step (.registerFrame (some "m") (some (.byName "mount")) argsM false) r2 trivial
  exact ⟨_, Reachable.step (.registerFrame (some "d") (some (.byName "world")) argsD false) r3 trivial⟩

theorem reachQm : ∃ h, Reachable qm h := by
  have r1 := Reachable.step (.registerFrame (some "world") none {} false) .init trivial
  have r2 := Reachable.step (.registerFrame (some "m") (some (.byName "world")) argsM' false) r1 trivial
  exact ⟨_, Reachable.step (.registerFrame (some "d") (some (.byName "world")) argsD false) r2 trivial⟩

theorem reachRm : ∃ h, Reachable rm h := by
  have r1 := Reachable.step (.registerFrame (some "world") none {} false) .init trivial
  have r2 := Reachable.step (.registerFrame (some "m") (some (.byName "world")) argsM' false) r1 trivial
  exact ⟨_, Reachable.step (.registerFrame (some "d") (some (.byName "world")) argsD' false) r2 trivial⟩

end RBM.Ex
