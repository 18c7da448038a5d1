import Verif.Props.RoundingOrder

/-!
C95: moving frames with repeated timestamps.
-/

namespace RBM.Props

open RBM RBM.Spec

/-- Lookups without rounding. -/
theorem lookupFl_id (sq : SquadFn) (s : State) (a : ℕ) (dst : FrameRef) : s.lookupTransformFl id sq a dst = s.lookupTransform sq a dst :=
  (C86_exact sq (fl := id) (fun _ _ _ _ _ _ _ => rfl) a dst ⟨[], fun _ => 0⟩ {} (fun _ _ _ => rfl)).1

/-- Repeated timestamps of a moving frame are accepted. Unless the first two are equal, the lookup returns as many rows as the frame has samples, and
each row has the position of the first sample with the same timestamp: the others are lost without notice. -/
theorem C95_first_sample_wins (sq : SquadFn) {s : State} {h : List Event} (hr : Reachable s h) {i p : ℕ} (hp : s.parent i = some p)
    {tr : List Vec} {ro : List Quat} {ev : List ℝ} (hd : s.data i = some ⟨some (.many tr, .many ro), some ev, false⟩)
    (l1 : tr.length = ev.length) (l2 : ro.length = ev.length) (hn : NonDecreasing ev)
    {x0 x1 : ℝ} (h0 : ev[0]? = some x0) (h1 : ev[1]? = some x1) (hx : x0 ≠ x1) (hu : ∀ τ ∈ ev, IsUnitQ (sq ro ev τ)) :
    ∃ (tl : List Vec) (rl : List Quat), s.lookupTransform sq i (.byObj p) = .ok (.many tl, .many rl, some ev) ∧
      tl.length = ev.length ∧
      ∀ (j c : ℕ) τ t, ev[j]? = some τ → ev[c]? = some τ → (∀ k < c, ev[k]? ≠ some τ) → tr[c]? = some t → tl[j]? = some t := by
  have hle : x0 ≤ x1 := by
    obtain ⟨k0, e0⟩ := List.getElem?_eq_some_iff.mp h0
    obtain ⟨k1, e1⟩ := List.getElem?_eq_some_iff.mp h1
    rw [← e0, ← e1]
    exact List.pairwise_iff_getElem.mp hn 0 1 k0 k1 (by norm_num)
  obtain ⟨tl, rl, e, e1, e2⟩ := C86_hidden_disorder (fl := id) sq hr hp hd l1 l2 (by simpa using hn) (fun τ hτ => inRange_self hn hτ) h0 h1
    (lt_of_le_of_ne hle hx) (by simpa using hu)
  rw [lookupFl_id] at e
  refine ⟨tl, rl, e, e1, fun j c τ t g1 g2 g3 g4 => e2 j c τ τ t g1 g2 rfl (fun k ρ hk hρ => ?_) g4⟩
  rintro rfl
  exact g3 k hk hρ

/-- If the first two timestamps are equal, the lookup is not finite. -/
theorem C95_first_two_equal (sq : SquadFn) {s : State} {h : List Event} (hr : Reachable s h) {i p : ℕ} (hp : s.parent i = some p)
    {tr : List Vec} {ro : List Quat} {ev : List ℝ} (hd : s.data i = some ⟨some (.many tr, .many ro), some ev, false⟩)
    (l1 : tr.length = ev.length) (hn : NonDecreasing ev)
    {x : ℝ} (h0 : ev[0]? = some x) (h1 : ev[1]? = some x) :
    s.lookupTransform sq i (.byObj p) = .error .nonfinite := by
  have l3 : 2 ≤ ev.length := by
    have := (List.getElem?_eq_some_iff.mp h1).1
    omega
  rw [← lookupFl_id, lookupFl_parent' sq hr hp hd l1 (by rintro rfl; simp at l3) (by simpa using hn) (fun τ hτ => inRange_self hn hτ)]
  have e2 := transformFromFrameFl_collision (fl := id) sq (ro := ro) (by simpa using hn) l1 h0 h1 rfl
  simp [transStepFl, e2, bind, Except.bind]

/-! ### A concrete case -/

/-- A frame with a repeated timestamp. -/
def exRepeatArgs : FrameArgs :=
  { translation := some (Ex.arr2 3 [[0, 0, 0], [1, 0, 0], [4, 0, 0], [5, 0, 0]]), timestamps := some (Ex.arr1 [0, 1, 1, 3]) }

noncomputable def exRepeat : State := (exOrder1.step (.registerFrame (some "m") (some (.byName "world")) exRepeatArgs false)).1

set_option linter.unusedSimpArgs false in
theorem exRepeat_eq : exRepeat.parent 1 = some 0 ∧
    exRepeat.data 1 = some ⟨some (.many [![0, 0, 0], ![1, 0, 0], ![4, 0, 0], ![5, 0, 0]], .many [1, 1, 1, 1]), some [0, 1, 1, 3], false⟩ := by
  simp [exRepeat, exOrder1, State.step, State.registerFrame, State.construct, verifyRoot,
    State.register, State.resolve, State.alloc, State.setData, State.setParent, State.checkLoop,
    State.detach, State.attach, State.pathReverse, chainUp, dictGet, dictSet, State.init,
    initArrays, exRepeatArgs, initTimestamps, initTranslationArg, initRotationArg, Ex.arr1, Ex.arr2,
    List.lookup, Function.update_apply, Pure.pure, bind, Except.bind, Except.pure, vecRows, quatRows,
    List.range_succ]
  refine ⟨?_, ?_, ?_, ?_⟩ <;> funext k <;> fin_cases k <;> simp

/-- The third sample is lost. -/
example : ∃ (tl : List Vec) (rl : List Quat), exRepeat.lookupTransform (fun _ _ _ => 1) 1 (.byObj 0) = .ok (.many tl, .many rl, some [0, 1, 1, 3]) ∧
    tl[1]? = some ![1, 0, 0] ∧ tl[2]? = some ![1, 0, 0] := by
  obtain ⟨hp, hd⟩ := exRepeat_eq
  have hr : Reachable exRepeat _ := .step (.registerFrame (some "m") (some (.byName "world")) exRepeatArgs false)
    (.step (.registerFrame (some "world") none {} false) .init trivial) trivial
  obtain ⟨tl, rl, h1, _, h3⟩ := C95_first_sample_wins (fun _ _ _ => 1) hr hp hd rfl rfl (by norm_num [NonDecreasing]) (x0 := 0) (x1 := 1) rfl rfl (by norm_num)
    (fun _ _ => by simp [IsUnitQ, nsq])
  have h0 : ∀ k < 1, ([0, 1, 1, 3] : List ℝ)[k]? ≠ some 1 := by
    intro k hk
    have : k = 0 := by omega
    subst this
    simp
  exact ⟨tl, rl, h1, h3 1 1 1 _ rfl rfl h0 rfl, h3 2 1 1 _ rfl rfl h0 rfl⟩

/-- A frame whose first timestamp is repeated. -/
def exTwiceArgs : FrameArgs := { translation := some (Ex.arr2 3 [[0, 0, 0], [1, 0, 0]]), timestamps := some (Ex.arr1 [0, 0]) }

noncomputable def exTwice : State := (exOrder1.step (.registerFrame (some "m") (some (.byName "world")) exTwiceArgs false)).1

set_option linter.unusedSimpArgs false in
theorem exTwice_eq : exTwice.parent 1 = some 0 ∧
    exTwice.data 1 = some ⟨some (.many [![0, 0, 0], ![1, 0, 0]], .many [1, 1]), some [0, 0], false⟩ := by
  simp [exTwice, exOrder1, State.step, State.registerFrame, State.construct, verifyRoot,
    State.register, State.resolve, State.alloc, State.setData, State.setParent, State.checkLoop,
    State.detach, State.attach, State.pathReverse, chainUp, dictGet, dictSet, State.init,
    initArrays, exTwiceArgs, initTimestamps, initTranslationArg, initRotationArg, Ex.arr1, Ex.arr2,
    List.lookup, Function.update_apply, Pure.pure, bind, Except.bind, Except.pure, vecRows, quatRows,
    List.range_succ]
  refine ⟨?_, ?_⟩ <;> funext k <;> fin_cases k <;> simp

example : exTwice.lookupTransform Ex.holdSquad 1 (.byObj 0) = .error .nonfinite := by
  obtain ⟨hp, hd⟩ := exTwice_eq
  exact C95_first_two_equal Ex.holdSquad (.step (.registerFrame (some "m") (some (.byName "world")) exTwiceArgs false)
    (.step (.registerFrame (some "world") none {} false) .init trivial) trivial) hp hd rfl (by norm_num [NonDecreasing]) (x := 0) rfl rfl

end RBM.Props
