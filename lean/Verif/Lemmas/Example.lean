import Verif.Lemmas.Walk

/-!
A concrete history used by the non-vacuity examples: world, a, b (child of a), c (child of world).
-/

namespace RBM.Ex

open RBM Spec

/-- 1-d array from a list. -/
def arr1 (l : List ℝ) : ND ℝ := ⟨[l.length], fun idx => l.getD (idx.getD 0 0) 0⟩

def argsA : FrameArgs := { translation := some (arr1 [1, 2, 3]), rotation := some (arr1 [0, 0, 0, 1]) }
def argsB : FrameArgs := { translation := some (arr1 [0, 1, 0]) }
def argsC : FrameArgs := { rotation := some (arr1 [0, 1, 0, 0]) }

noncomputable def s1 : State := (State.init.step (.registerFrame (some "world") none {} false)).1
noncomputable def s2 : State := (s1.step (.registerFrame (some "a") (some (.byName "world")) argsA false)).1
noncomputable def s3 : State := (s2.step (.registerFrame (some "b") (some (.byName "a")) argsB false)).1
noncomputable def s4 : State := (s3.step (.registerFrame (some "c") (some (.byName "world")) argsC false)).1

set_option linter.unusedSimpArgs false in
theorem s4_eq : s4 = ⟨4,
    fun i => if i = 3 then some "c" else if i = 2 then some "b" else if i = 1 then some "a"
      else if i = 0 then some "world" else none,
    fun i => if i = 3 then some 0 else if i = 2 then some 1 else if i = 1 then some 0 else none,
    fun i => if i = 0 then [1, 3] else if i = 1 then [2] else [],
    fun i => if i = 3 then some ⟨some (.one 0, .one ⟨0, 1, 0, 0⟩), none, false⟩
      else if i = 2 then some ⟨some (.one ![0, 1, 0], .one 1), none, false⟩
      else if i = 1 then some ⟨some (.one ![1, 2, 3], .one ⟨0, 0, 0, 1⟩), none, false⟩
      else if i = 0 then some ⟨none, none, false⟩ else none,
    [("world", 0), ("a", 1), ("b", 2), ("c", 3)]⟩ := by
  simp [s4, s3, s2, s1, State.step, State.registerFrame, State.construct, verifyRoot,
    State.register, State.resolve, State.alloc, State.setData, State.setParent, State.checkLoop,
    State.detach, State.attach, State.pathReverse, chainUp, dictGet, dictSet, State.init,
    initArrays, argsA, argsB, argsC, initTimestamps, initTranslationArg, initRotationArg, arr1,
    List.lookup, Function.update_apply, pure, bind, Except.bind, Except.pure]
  refine ⟨?_, ?_, ?_, ?_⟩
  · funext i; simp only [Function.update_apply]
  · funext i; simp only [Function.update_apply]
  · funext i; simp only [Function.update_apply]; split_ifs <;> simp_all
  · funext i; simp only [Function.update_apply]; split_ifs <;> simp_all
    · funext k; fin_cases k <;> simp
    · funext k; fin_cases k <;> simp

def h4 : List Event := [.registered "c" 3, .registered "b" 2, .registered "a" 1, .registered "world" 0]

set_option linter.unusedSimpArgs false in
theorem reach4 : Reachable s4 h4 := by
  have r1 := Reachable.step (.registerFrame (some "world") none {} false) .init trivial
  have r2 := Reachable.step (.registerFrame (some "a") (some (.byName "world")) argsA false) r1 trivial
  have r3 := Reachable.step (.registerFrame (some "b") (some (.byName "a")) argsB false) r2 trivial
  have r4 := Reachable.step (.registerFrame (some "c") (some (.byName "world")) argsC false) r3 trivial
  change Reachable s4 (eventOf s3 _ _ ++ (eventOf s2 _ _ ++ (eventOf s1 _ _ ++
    (eventOf State.init _ _ ++ [])))) at r4
  have key : ∀ l, l = h4 → Reachable s4 l → Reachable s4 h4 := by rintro l rfl h; exact h
  refine key _ ?_ r4
  simp [h4, s3, s2, s1, eventOf, State.step, State.registerFrame, State.construct, verifyRoot,
    State.register, State.resolve, State.alloc, State.setData, State.setParent, State.checkLoop,
    State.detach, State.attach, State.pathReverse, chainUp, dictGet, dictSet, State.init,
    initArrays, argsA, argsB, argsC, initTimestamps, initTranslationArg, initRotationArg, arr1,
    List.lookup, Function.update_apply, pure, bind, Except.bind, Except.pure]

end RBM.Ex
