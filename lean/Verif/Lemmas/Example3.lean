import Verif.Lemmas.Example2
import Verif.Lemmas.Velocity

/-!
A frame in uniform motion, sampled at times 0, 1, 3, and external routines that satisfy the contracts.
-/

namespace RBM.Ex

open RBM Spec

def argsU : FrameArgs := { translation := some (arr2 3 [[0, 0, 0], [2, 0, 0], [6, 0, 0]]),
                           rotation := some (arr2 4 [[0, 0, 0, 1], [0, 0, 0, 1], [0, 0, 0, 1]]),
                           timestamps := some (arr1 [0, 1, 3]) }

noncomputable def u1 : State := (State.init.step (.registerFrame (some "world") none {} false)).1
noncomputable def u2 : State := (u1.step (.registerFrame (some "u") (some (.byName "world")) argsU false)).1

def dataU : FrameData := ⟨some (.many [![0, 0, 0], ![2, 0, 0], ![6, 0, 0]], .many [⟨0, 0, 0, 1⟩, ⟨0, 0, 0, 1⟩, ⟨0, 0, 0, 1⟩]), some [0, 1, 3], false⟩

set_option linter.unusedSimpArgs false in
theorem u2_eq : u2 = ⟨2,
    fun i => if i = 1 then some "u" else if i = 0 then some "world" else none,
    fun i => if i = 1 then some 0 else none,
    fun i => if i = 0 then [1] else [],
    fun i => if i = 1 then some dataU else if i = 0 then some ⟨none, none, false⟩ else none,
    [("world", 0), ("u", 1)]⟩ := by
  simp [u2, u1, State.step, State.registerFrame, State.construct, verifyRoot,
    State.register, State.resolve, State.alloc, State.setData, State.setParent, State.checkLoop,
    State.detach, State.attach, State.pathReverse, chainUp, dictGet, dictSet, State.init,
    initArrays, argsU, initTimestamps, initTranslationArg, initRotationArg, arr1, arr2,
    List.lookup, Function.update_apply, Pure.pure, bind, Except.bind, Except.pure, vecRows, quatRows,
    List.range_succ]
  refine ⟨?_, ?_, ?_, ?_⟩
  · funext i; simp only [Function.update_apply]
  · funext i; simp only [Function.update_apply]
  · funext i; simp only [Function.update_apply]
  · funext i; simp only [Function.update_apply, dataU, List.replicate]; split_ifs <;> simp_all
    refine ⟨⟨?_, ?_, ?_⟩, ?_⟩
    · funext k; fin_cases k <;> simp
    · funext k; fin_cases k <;> simp
    · funext k; fin_cases k <;> simp
    · rfl

set_option linter.unusedSimpArgs false in
theorem reachU : ∃ h, Reachable u2 h := by
  have r1 := Reachable.step (.registerFrame (some "world") none {} false) .init trivial
  exact ⟨_, Reachable.step (.registerFrame (some "u") (some (.byName "world")) argsU false) r1 trivial⟩

theorem goodU : GoodData dataU := by
  refine .continuous rfl rfl (by simp) ?_ ?_
  · simp [StrictlyIncreasing]
  · intro q hq
    have : q = ⟨0, 0, 0, 1⟩ := by
      rcases List.mem_cons.mp hq with rfl | hq
      · rfl
      · rcases List.mem_cons.mp hq with rfl | hq
        · rfl
        · exact List.mem_singleton.mp hq
    subst this; simp [IsUnitQ, nsq]

/-- External routines that satisfy the contracts: hold interpolation, `np.gradient` as derivative, no filtering. -/
noncomputable def ext : Ext where
  squad := holdSquad
  deriv := fun ys ts i => gradAt ts ys i
  derivErr := fun ts => if ts.length < 2 then some .indexError else none
  filt := fun _ xs i => xs.getD i 0

theorem ext_squad : SquadLaw ext.squad := holdSquad_law

theorem ext_filt : FiltLaw ext := by
  intro c n m i _ _ _ hi
  simp [ext, List.getD_eq_getElem?_getD, List.getElem?_replicate, hi]

theorem ext_deriv : DerivLaw ext 2 := by
  constructor
  · intro ts h _
    show (if ts.length < 2 then _ else _) = _
    rw [if_neg (by omega)]
  · intro ts c m i h hs hi
    show gradAt ts _ i = m
    rw [gradAt_quadratic hs h (c := c) (m := m) (e := 0) ?_ hi (.inl rfl)]
    · simp
    · intro k hk
      rw [List.getD_eq_getElem?_getD, List.getElem?_map, List.getElem?_eq_getElem hk, Option.map_some, Option.getD_some, getD_eq hk]
      ring

theorem pathU : PathAll u2 1 0 (FrameOk true u2) ∧ Route u2 1 0 [1] ∧ PathTo u2.parent 0 1 [1] := by
  obtain ⟨h, hr⟩ := reachU
  have hp : u2.parent 1 = some 0 := by rw [u2_eq]; simp
  have h0 : u2.parent 0 = none := by rw [u2_eq]; simp
  have hc : NearestCommon u2 1 0 0 := ⟨.single hp, .refl, fun d _ hd2 => hd2⟩
  have hpt : PathTo u2.parent 0 1 [1] := .up (by decide) hp .here
  refine ⟨⟨0, [1], [], hc, hpt, .here, ?_⟩, ⟨0, [1], [], hc, hpt, .here, rfl⟩, hpt⟩
  intro i hi
  simp only [List.append_nil, List.mem_singleton] at hi
  subst hi
  simp only [FrameOk, if_true]
  exact ⟨dataU, by rw [u2_eq]; simp, goodU⟩

end RBM.Ex
