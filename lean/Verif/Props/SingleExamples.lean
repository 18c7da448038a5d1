import Verif.Props.Single
import Verif.Lemmas.Example3

/-!
Concrete cases for C91: a continuous frame with one sample, and a discrete one with one event.
-/

namespace RBM.Ex

open RBM Spec

def argsO : FrameArgs := { translation := some (arr2 3 [[1, 2, 3]]), timestamps := some (arr1 [5]) }
def argsE : FrameArgs := { translation := some (arr2 3 [[1, 2, 3]]), timestamps := some (arr1 [5]), discrete := true }

noncomputable def k2 : State := (m1.step (.registerFrame (some "o") (some (.byName "world")) argsO false)).1
noncomputable def k3 : State := (k2.step (.registerFrame (some "e") (some (.byName "world")) argsE false)).1

def dataO : FrameData := ⟨some (.many [![1, 2, 3]], .many [1]), some [5], false⟩
def dataE : FrameData := ⟨some (.many [![1, 2, 3]], .many [1]), some [5], true⟩

set_option linter.unusedSimpArgs false in
theorem k3_eq : k3 = ⟨3,
    fun i => if i = 2 then some "e" else if i = 1 then some "o"
      else if i = 0 then some "world" else none,
    fun i => if i = 2 then some 0 else if i = 1 then some 0 else none,
    fun i => if i = 0 then [1, 2] else [],
    fun i => if i = 2 then some dataE
      else if i = 1 then some dataO
      else if i = 0 then some ⟨none, none, false⟩ else none,
    [("world", 0), ("o", 1), ("e", 2)]⟩ := by
  simp [k3, k2, m1, State.step, State.registerFrame, State.construct, verifyRoot,
    State.register, State.resolve, State.alloc, State.setData, State.setParent, State.checkLoop,
    State.detach, State.attach, State.pathReverse, chainUp, dictGet, dictSet, State.init,
    initArrays, argsO, argsE, initTimestamps, initTranslationArg, initRotationArg, arr1, arr2,
    List.lookup, Function.update_apply, Pure.pure, bind, Except.bind, Except.pure, vecRows, quatRows,
    List.range_succ]
  refine ⟨?_, ?_, ?_, ?_⟩
  · funext i; simp only [Function.update_apply]
  · funext i; simp only [Function.update_apply]
  · funext i; simp only [Function.update_apply]; split_ifs <;> simp_all
  · funext i; simp only [Function.update_apply, dataO, dataE, List.replicate]; split_ifs <;> simp_all
    all_goals (funext k; fin_cases k <;> simp)

theorem reachK : ∃ h, Reachable k3 h := by
  have r1 := Reachable.step (.registerFrame (some "world") none {} false) .init trivial
  have r2 := Reachable.step (.registerFrame (some "o") (some (.byName "world")) argsO false) r1 trivial
  exact ⟨_, Reachable.step (.registerFrame (some "e") (some (.byName "world")) argsE false) r2 trivial⟩

end RBM.Ex

namespace RBM.Props

open RBM.Spec

theorem exK_route (i : ℕ) (hi : i = 1 ∨ i = 2) : Route Ex.k3 i 0 [i] := by
  have e := Ex.k3_eq
  have p : Ex.k3.parent i = some 0 := by rw [e]; rcases hi with rfl | rfl <;> rfl
  have p0 : Ex.k3.parent 0 = none := by rw [e]; rfl
  refine ⟨0, [i], [], ⟨.single p, .refl, ?_⟩, .up (by omega) p .here, .here, by simp⟩
  intro d _ h2
  exact h2

/-- One sample: the lookup fails. -/
example (sq : SquadFn) : ∃ e, Ex.k3.lookupTransform sq 1 (.byObj 0) = .error e := by
  obtain ⟨h, hr⟩ := Ex.reachK
  have e := Ex.k3_eq
  refine C91_frame_alone sq hr (by rw [e]; norm_num) (by rw [e]; norm_num) (exK_route 1 (.inl rfl)) (i := 1) (by simp)
    (x := 5) ⟨Ex.dataO, by rw [e]; rfl, rfl, rfl⟩ ?_
  intro i hi d ts hd _ ht
  simp only [List.mem_singleton] at hi
  subst hi
  rw [e] at hd
  cases hd
  cases ht
  rfl

/-- One event of a discrete frame: the lookup succeeds. -/
example : Ex.k3.lookupTransform Ex.holdSquad 2 (.byObj 0) = .ok (.many [![1, 2, 3]], .many [1], some [5]) := by
  obtain ⟨h, hr⟩ := Ex.reachK
  have e := Ex.k3_eq
  exact C91_event _ Ex.holdSquad_law hr (by rw [e]; rfl) (by rw [e]; rfl) (by simp [IsUnitQ, nsq])

/-- From the frame with one sample no array can be transformed. -/
example (sq : SquadFn) (ret : PyRet) (e : Ex.k3.transformPoints sq 1 (Ex.arr1 [1, 2, 3]) (.byObj 0) {} = .ok ret) :
    ∃ out, ret = returned false out (some []) := by
  obtain ⟨h, hr⟩ := Ex.reachK
  have ek := Ex.k3_eq
  exact C91_frame_transforms sq hr (by rw [ek]; norm_num) (by rw [ek]; norm_num) (exK_route 1 (.inl rfl)) (i := 1) (by simp)
    (x := 5) ⟨Ex.dataO, by rw [ek]; rfl, rfl, rfl⟩ _ {} ret (.inl e)

/-- An array with one timestamp: between static frames, and from a frame to itself. -/
example (sq : SquadFn) : ∃ e, Ex.s4.transformPoints sq 2 (Ex.arr2 3 [[1, 2, 3]]) (.byObj 3) { timestamps := some (Ex.arr1 [7]) } = .error e := by
  have e := Ex.s4_eq
  obtain ⟨c, la, lb, hc, hla, hlb, -⟩ := ex_pathAll_static
  refine (C91_array_alone sq Ex.reach4 (by rw [e]; norm_num) (by rw [e]; norm_num) (l := la ++ lb.reverse) ⟨c, la, lb, hc, hla, hlb, rfl⟩ _
    { timestamps := some (Ex.arr1 [7]) } rfl rfl ?_).1
  intro i _ d ts hd _ ht
  exfalso
  rw [e] at hd
  simp only at hd
  split_ifs at hd <;> (cases hd; cases ht)

example (sq : SquadFn) : ∃ e, Ex.m3.transformVectors sq 1 (Ex.arr2 3 [[1, 2, 3]]) (.byObj 1) { timestamps := some (Ex.arr1 [7]) } = .error e := by
  have e := Ex.m3_eq
  exact (C91_array_alone sq Ex.reachM (by rw [e]; norm_num) (by rw [e]; norm_num) (l := []) ⟨1, [], [], ⟨.refl, .refl, fun d h1 _ => h1⟩, .here, .here, rfl⟩ _
    { timestamps := some (Ex.arr1 [7]) } rfl rfl (by intro i hi; cases hi)).2.1

/-- One event only: no velocity. -/
example : ∃ e, Ex.k3.lookupLinearVelocity Ex.ext 2 (some (.byObj 0)) (some (.byObj 0)) {} = .error e := by
  obtain ⟨h, hr⟩ := Ex.reachK
  have e := Ex.k3_eq
  exact (C91_velocities Ex.ext (C91_event Ex.ext.squad Ex.holdSquad_law hr (i := 2) (p := 0) (by rw [e]; rfl) (by rw [e]; rfl) (by simp [IsUnitQ, nsq]))
    (by simp) {}).1

end RBM.Props
