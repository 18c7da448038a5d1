import Verif.Props.Rounding
import Verif.Props.Lookup

/-!
C86: the order of timestamps is checked after rounding.
-/

namespace RBM.Props

open RBM RBM.Spec

/-- After rounding, the timestamps of frame `i` decrease somewhere, or their number differs from the first axis of the translation. -/
def BadRounded (fl : ℝ → ℝ) (s : State) (i : ℕ) : Prop :=
  ∃ d t r ts, s.data i = some d ∧ d.pose = some (t, r) ∧ d.timestamps = some ts ∧
    (¬ NonDecreasing (ts.map fl) ∨ ts.length ≠ firstLen t)

theorem addFramesFl_bad {fl : ℝ → ℝ} {s : State} {inv : Bool} {l : List ℕ} (hpose : ∀ i ∈ l, HasPose s i) (m : Matcher) :
    ((∃ i ∈ l, BadRounded fl s i) → s.addFramesFl fl inv l m = .error .valueError) ∧
    ((¬ ∃ i ∈ l, BadRounded fl s i) → ∃ m', s.addFramesFl fl inv l m = .ok m') := by
  induction l generalizing m with
  | nil => exact ⟨fun h => by simp at h, fun _ => ⟨m, rfl⟩⟩
  | cons i l ih =>
    obtain ⟨d, ⟨t, r⟩, hd, hp⟩ := hpose i (by simp)
    simp only [State.addFramesFl, State.addFrameFl, hd, hp, Matcher.addFrameFl]
    have ih := fun m => ih (fun j hj => hpose j (List.mem_cons_of_mem _ hj)) m
    have hc : (BadRounded fl s i → checkTimestampsFl fl d.timestamps (firstLen t) = .error .valueError) ∧
        (¬ BadRounded fl s i → checkTimestampsFl fl d.timestamps (firstLen t) = .ok ()) := by
      have hb : BadRounded fl s i ↔ ∃ ts, d.timestamps = some ts ∧ (¬ NonDecreasing (ts.map fl) ∨ ts.length ≠ firstLen t) := by
        constructor
        · rintro ⟨d', t', r', ts, g1, g2, g3, g4⟩
          rw [hd] at g1; cases g1
          rw [hp] at g2; cases g2
          exact ⟨ts, g3, g4⟩
        · rintro ⟨ts, g3, g4⟩
          exact ⟨d, t, r, ts, hd, hp, g3, g4⟩
      rw [hb]
      cases hts : d.timestamps with
      | none => simp [checkTimestampsFl, roundStamps, checkTimestamps]
      | some ts =>
        simp only [Option.some.injEq, exists_eq_left', checkTimestampsFl, roundStamps, Option.map_some, checkTimestamps, ← anyDecrease_iff, not_not,
          List.length_map]
        constructor
        · intro h
          by_cases h1 : anyDecrease (ts.map fl)
          · rw [if_pos h1]
          · rw [if_neg h1, if_pos (by simpa [h1] using h)]
        · intro h
          push Not at h
          rw [if_neg h.1, if_neg (by simpa using h.2)]
    by_cases hb : BadRounded fl s i
    · rw [hc.1 hb]
      exact ⟨fun _ => rfl, fun h => absurd ⟨i, by simp, hb⟩ h⟩
    · rw [hc.2 hb]
      simp only
      refine ⟨?_, fun h => ((ih _).2 fun ⟨j, hj, h'⟩ => h ⟨j, by simp [hj], h'⟩)⟩
      rintro ⟨j, hj, h'⟩
      rcases List.mem_cons.mp hj with rfl | hj
      · exact absurd h' hb
      · exact (ih _).1 ⟨j, hj, h'⟩

/-- A lookup through a frame whose timestamps decrease after rounding, or are wrong in number, raises `ValueError`; if no frame on the route is like that,
whatever the order of the exact timestamps, the check passes. -/
theorem C86_order_check (sq : SquadFn) {fl : ℝ → ℝ} {s : State} {h : List Event} (hr : Reachable s h) {a b : ℕ}
    (ha : a < s.size) (hb : b < s.size) {l : List ℕ} (hl : Route s a b l) (hpose : ∀ i ∈ l, HasPose s i) :
    ((∃ i ∈ l, BadRounded fl s i) → s.lookupTransformFl fl sq a (.byObj b) = .error .valueError) ∧
    ((¬ ∃ i ∈ l, BadRounded fl s i) → ∃ m, s.getMatcherFl fl a (.byObj b) [] = .ok m) := by
  obtain ⟨c, la, lb, hc, hla, hlb, rfl⟩ := hl
  have hw : s.walk a (.byObj b) = .ok (la, lb.reverse) := by
    simp [State.walk, State.resolve, walk_eq hr.wf ha hb hc hla hlb]
  have h1 := addFramesFl_bad (fl := fl) (inv := false) (l := la) (fun i hi => hpose i (by simp [hi])) Matcher.empty
  have h2 := fun m => addFramesFl_bad (fl := fl) (inv := true) (l := lb.reverse) (fun i hi => hpose i (by simp at hi; simp [hi])) m
  simp only [State.lookupTransformFl, State.getMatcherFl, hw, bind, Except.bind]
  constructor
  · rintro ⟨i, hi, hbad⟩
    by_cases hx : ∃ i ∈ la, BadRounded fl s i
    · rw [h1.1 hx]
    · obtain ⟨m, hm⟩ := h1.2 hx
      rw [hm]
      simp only
      rw [(h2 m).1 ?_]
      rcases List.mem_append.mp hi with hi | hi
      · exact absurd ⟨i, hi, hbad⟩ hx
      · exact ⟨i, hi, hbad⟩
  · intro hn
    obtain ⟨m, hm⟩ := h1.2 fun ⟨i, hi, hbad⟩ => hn ⟨i, by simp [hi], hbad⟩
    obtain ⟨m', hm'⟩ := (h2 m).2 fun ⟨i, hi, hbad⟩ => hn ⟨i, List.mem_append.mpr (.inr hi), hbad⟩
    rw [hm]
    simp only
    rw [hm']
    exact ⟨m', rfl⟩

/-! ### A concrete case -/

/-- A frame with two samples in the wrong order. -/
def exOrderArgs : FrameArgs :=
  { translation := some (Ex.arr2 3 [[0, 0, 0], [1, 0, 0], [4, 0, 0], [5, 0, 0]]), timestamps := some (Ex.arr1 [0, 2, 1, 3]) }

noncomputable def exOrder1 : State := (State.init.step (.registerFrame (some "world") none {} false)).1
noncomputable def exOrder : State := (exOrder1.step (.registerFrame (some "m") (some (.byName "world")) exOrderArgs false)).1

set_option linter.unusedSimpArgs false in
theorem exOrder_eq : exOrder.size = 2 ∧ exOrder.parent 1 = some 0 ∧
    exOrder.data 1 = some ⟨some (.many [![0, 0, 0], ![1, 0, 0], ![4, 0, 0], ![5, 0, 0]], .many [1, 1, 1, 1]), some [0, 2, 1, 3], false⟩ := by
  simp [exOrder, exOrder1, State.step, State.registerFrame, State.construct, verifyRoot,
    State.register, State.resolve, State.alloc, State.setData, State.setParent, State.checkLoop,
    State.detach, State.attach, State.pathReverse, chainUp, dictGet, dictSet, State.init,
    initArrays, exOrderArgs, initTimestamps, initTranslationArg, initRotationArg, Ex.arr1, Ex.arr2,
    List.lookup, Function.update_apply, Pure.pure, bind, Except.bind, Except.pure, vecRows, quatRows,
    List.range_succ]
  refine ⟨?_, ?_, ?_, ?_⟩ <;> funext k <;> fin_cases k <;> simp

theorem exOrder_reach : ∃ h, Reachable exOrder h :=
  ⟨_, .step (.registerFrame (some "m") (some (.byName "world")) exOrderArgs false)
    (.step (.registerFrame (some "world") none {} false) .init trivial) trivial⟩

/-- Exact times: rejected. Rounded so that the two samples in the wrong order fall together: accepted, and the third sample is lost. -/
example : exOrder.lookupTransform Ex.holdSquad 1 (.byObj 0) = .error .valueError ∧
    (∀ fl : ℝ → ℝ, fl 2 > fl 1 → exOrder.lookupTransformFl fl Ex.holdSquad 1 (.byObj 0) = .error .valueError) ∧
    ∀ fl : ℝ → ℝ, fl 0 < fl 1 → fl 1 = fl 2 → fl 2 < fl 3 → ∃ (tl : List Vec) (rl : List Quat),
      exOrder.lookupTransformFl fl (fun _ _ _ => 1) 1 (.byObj 0) = .ok (.many tl, .many rl, some [0, 2, 1, 3]) ∧ tl[2]? = some ![1, 0, 0] := by
  obtain ⟨h, hr⟩ := exOrder_reach
  obtain ⟨hs, hp, hd⟩ := exOrder_eq
  have hroute : Route exOrder 1 0 [1] := ⟨0, [1], [], nearest_parent hp, pathTo_parent hr.wf hp, .here, rfl⟩
  have hpose : ∀ i ∈ [1], HasPose exOrder i := by
    intro i hi
    rw [List.mem_singleton.mp hi]
    exact ⟨_, _, hd, rfl⟩
  refine ⟨(C28_bad_timestamps Ex.holdSquad hr (by omega) (by omega) hroute hpose).1 ⟨1, by simp, _, _, _, _, hd, rfl, rfl, .inl ?_⟩,
    fun fl hfl => (C86_order_check Ex.holdSquad hr (by omega) (by omega) hroute hpose).1 ⟨1, by simp, _, _, _, _, hd, rfl, rfl, .inl ?_⟩,
    fun fl f1 f2 f3 => ?_⟩
  · norm_num [NonDecreasing]
  · intro hx
    simp only [NonDecreasing, List.map_cons, List.pairwise_cons] at hx
    linarith [hx.2.1 (fl 1) (by simp)]
  · obtain ⟨tl, rl, h1, _, h3⟩ := C86_hidden_disorder (fl := fl) (fun _ _ _ => 1) hr hp hd rfl rfl
      (by simp only [NonDecreasing, List.map_cons, List.map_nil, List.pairwise_cons, List.mem_cons, List.not_mem_nil, or_false, forall_eq_or_imp, forall_eq]
          refine ⟨⟨?_, ?_, ?_⟩, ⟨?_, ?_⟩, ?_, ?_⟩
          · linarith
          · linarith
          · linarith
          · linarith
          · linarith
          · linarith
          · simp)
      (by intro τ hτ
          simp only [List.mem_cons, List.not_mem_nil, or_false] at hτ
          refine ⟨fun x hx => ?_, fun x hx => ?_⟩ <;> simp at hx <;> subst hx <;> rcases hτ with rfl | rfl | rfl | rfl <;> norm_num)
      (x0 := 0) (x1 := 2) rfl rfl (by rw [← f2]; exact f1) (fun _ _ => by simp [IsUnitQ, nsq])
    refine ⟨tl, rl, h1, h3 2 1 1 2 _ rfl rfl f2 ?_ rfl⟩
    intro k ρ hk hρ
    have : k = 0 := by omega
    subst this
    simp at hρ; subst hρ; exact f1.ne

end RBM.Props
