import Verif.Lemmas.Example
import Verif.Lemmas.Matcher
import Mathlib.Tactic.IntervalCases

/-!
A concrete moving system for non-vacuity examples: world, m (continuous), d (discrete), and an
instance of the contract of `squad`.
-/

namespace RBM.Ex

open RBM Spec

/-- 2-d array from a list of rows of length `k`. -/
def arr2 (k : ℕ) (l : List (List ℝ)) : ND ℝ :=
  ⟨[l.length, k], fun idx => (l.getD (idx.getD 0 0) []).getD (idx.getD 1 0) 0⟩

def argsM : FrameArgs := { translation := some (arr2 3 [[0, 0, 0], [1, 0, 0], [4, 0, 0]]),
                           timestamps := some (arr1 [0, 1, 2]) }
def argsD : FrameArgs := { rotation := some (arr2 4 [[1, 0, 0, 0], [0, 0, 0, 1]]),
                           timestamps := some (arr1 [1, 2]), discrete := true }

noncomputable def m1 : State := (State.init.step (.registerFrame (some "world") none {} false)).1
noncomputable def m2 : State := (m1.step (.registerFrame (some "m") (some (.byName "world")) argsM false)).1
noncomputable def m3 : State := (m2.step (.registerFrame (some "d") (some (.byName "world")) argsD false)).1

def dataM : FrameData := ⟨some (.many [![0, 0, 0], ![1, 0, 0], ![4, 0, 0]], .many [1, 1, 1]), some [0, 1, 2], false⟩
def dataD : FrameData := ⟨some (.many [0, 0], .many [⟨1, 0, 0, 0⟩, ⟨0, 0, 0, 1⟩]), some [1, 2], true⟩

set_option linter.unusedSimpArgs false in
theorem m3_eq : m3 = ⟨3,
    fun i => if i = 2 then some "d" else if i = 1 then some "m"
      else if i = 0 then some "world" else none,
    fun i => if i = 2 then some 0 else if i = 1 then some 0 else none,
    fun i => if i = 0 then [1, 2] else [],
    fun i => if i = 2 then some dataD
      else if i = 1 then some dataM
      else if i = 0 then some ⟨none, none, false⟩ else none,
    [("world", 0), ("m", 1), ("d", 2)]⟩ := by
  simp [m3, m2, m1, State.step, State.registerFrame, State.construct, verifyRoot,
    State.register, State.resolve, State.alloc, State.setData, State.setParent, State.checkLoop,
    State.detach, State.attach, State.pathReverse, chainUp, dictGet, dictSet, State.init,
    initArrays, argsM, argsD, initTimestamps, initTranslationArg, initRotationArg, arr1, arr2,
    List.lookup, Function.update_apply, Pure.pure, bind, Except.bind, Except.pure, vecRows, quatRows,
    List.range_succ]
  refine ⟨?_, ?_, ?_, ?_⟩
  · funext i; simp only [Function.update_apply]
  · funext i; simp only [Function.update_apply]
  · funext i; simp only [Function.update_apply]; split_ifs <;> simp_all
  · funext i; simp only [Function.update_apply, dataD, dataM, List.replicate]; split_ifs <;> simp_all
    · rfl
    · refine ⟨?_, ?_, ?_⟩ <;> funext k <;> fin_cases k <;> simp

def hm3 : List Event := [.registered "d" 2, .registered "m" 1, .registered "world" 0]

set_option linter.unusedSimpArgs false in
theorem reachM : Reachable m3 hm3 := by
  have r1 := Reachable.step (.registerFrame (some "world") none {} false) .init trivial
  have r2 := Reachable.step (.registerFrame (some "m") (some (.byName "world")) argsM false) r1 trivial
  have r3 := Reachable.step (.registerFrame (some "d") (some (.byName "world")) argsD false) r2 trivial
  change Reachable m3 (eventOf m2 _ _ ++ (eventOf m1 _ _ ++ (eventOf State.init _ _ ++ []))) at r3
  have key : ∀ l, l = hm3 → Reachable m3 l → Reachable m3 hm3 := by rintro l rfl h; exact h
  refine key _ ?_ r3
  simp [hm3, m2, m1, eventOf, State.step, State.registerFrame, State.construct, verifyRoot,
    State.register, State.resolve, State.alloc, State.setData, State.setParent, State.checkLoop,
    State.detach, State.attach, State.pathReverse, chainUp, dictGet, dictSet, State.init,
    initArrays, argsM, argsD, initTimestamps, initTranslationArg, initRotationArg, arr1, arr2,
    List.lookup, Function.update_apply, Pure.pure, bind, Except.bind, Except.pure, vecRows, quatRows]

theorem goodM : GoodData dataM := by
  refine .continuous rfl rfl (by simp) ?_ ?_
  · simp [StrictlyIncreasing]
  · intro q hq; simp at hq; subst hq; exact isUnitQ_one

theorem goodD : GoodData dataD := by
  refine .discrete rfl rfl (by simp) ?_ ?_
  · simp [NonDecreasing]
  · intro q hq
    rcases List.mem_cons.mp hq with rfl | hq
    · simp [IsUnitQ, nsq]
    · rcases List.mem_cons.mp hq with rfl | hq
      · simp [IsUnitQ, nsq]
      · exact absurd hq List.not_mem_nil

/-- An interpolation that satisfies the contract of `squad`: hold the first sample between knots. -/
noncomputable def holdSquad : SquadFn := fun qs xs τ => by
  classical exact ((((xs.zip qs).find? (fun p => decide (p.1 = τ))).map (·.2)).getD (qs.headD 1))

theorem holdSquad_law : SquadLaw holdSquad := by
  constructor
  · intro qs xs τ _ _ _ hu _ _
    simp only [holdSquad]
    cases hf : (xs.zip qs).find? (fun p => decide (p.1 = τ)) with
    | none =>
      simp only [Option.map_none, Option.getD_none]
      cases qs with
      | nil => exact isUnitQ_one
      | cons q qs => exact hu q (by simp)
    | some p =>
      simp only [Option.map_some, Option.getD_some]
      exact hu _ (List.of_mem_zip (List.mem_of_find?_eq_some hf)).2
  · intro qs xs k q x hl h2 hs hun hq hx
    simp only [holdSquad]
    have : (xs.zip qs).find? (fun p => decide (p.1 = x)) = some (x, q) := by
      clear hl h2 hun
      induction xs generalizing qs k with
      | nil => simp at hx
      | cons y xs ih =>
        cases qs with
        | nil => simp at hq
        | cons p qs =>
          cases k with
          | zero => simp at hx hq; subst hx hq; simp
          | succ k =>
            have hp := List.pairwise_cons.mp hs
            simp at hx hq
            have hne : y ≠ x := (hp.1 x (List.mem_of_getElem? hx)).ne
            simp only [List.zip_cons_cons, List.find?_cons, hne]
            simp only [decide_false]
            exact ih qs k hp.2 hq hx
    rw [this]; rfl

end RBM.Ex
