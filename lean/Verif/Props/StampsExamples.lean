import Verif.Props.Stamps
import Verif.Props.ExamplesLookup
import Verif.Props.Repeated

/-!
Concrete cases for the theorems of Props/Stamps.
-/

namespace RBM.Props

open RBM.Spec

theorem exRepeat_route : Route exRepeat 1 0 [1] := by
  have p1 := exRepeat_eq.1
  exact ⟨0, [1], [], ⟨.single p1, .refl, fun d _ h => h⟩, .up (by simp) p1 .here, .here, rfl⟩

theorem exRepeat_reach : ∃ h, Reachable exRepeat h :=
  ⟨_, .step (.registerFrame (some "m") (some (.byName "world")) exRepeatArgs false)
    (.step (.registerFrame (some "world") none {} false) .init trivial) trivial⟩

/-- `C20_every_lookup` and `C22_every_lookup` apply to a frame with a repeated timestamp, which
`C20_timestamps` and `C22_static_iff` do not cover. -/
example : ∃ (tl : List Vec) (rl : List Quat) (ts : List ℝ), exRepeat.lookupTransform (fun _ _ _ => 1) 1 (.byObj 0) = .ok (.many tl, .many rl, some ts) ∧
    ts = [0, 1, 1, 3] ∧ NonDecreasing ts ∧ tl.length = 4 ∧ rl.length = 4 := by
  obtain ⟨hp, hd⟩ := exRepeat_eq
  obtain ⟨h, hr⟩ := exRepeat_reach
  have hlt := hr.wf.parent_lt 1 0 hp
  obtain ⟨tl, rl, h1, -⟩ := C95_first_sample_wins (fun _ _ _ => 1) hr hp hd rfl rfl (by norm_num [NonDecreasing]) (x0 := 0) (x1 := 1) rfl rfl (by norm_num)
    (fun _ _ => by simp [IsUnitQ, nsq])
  obtain ⟨a1, a2⟩ := C20_every_lookup _ hr hlt.1 hlt.2 exRepeat_route h1
  obtain ⟨-, -, b⟩ := C22_every_lookup _ hr hlt.1 hlt.2 exRepeat_route h1
  obtain ⟨tl', rl', e1, e2, e3, e4⟩ := b _ rfl
  cases e1
  cases e2
  exact ⟨tl, rl, _, h1, rfl, a2 _ rfl, e3, e4⟩

/-- `C27_every_lookup`. -/
example : ∃ t r ts, Ex.m3.lookupTransform Ex.holdSquad 2 (.byObj 0) = .ok (t, r, some ts) ∧ StrictlyIncreasing ts ∧ ∀ x, x ∈ ts ↔ x = 1 ∨ x = 2 := by
  obtain ⟨ts, T, h1, -, -, -⟩ := C26_lookup Ex.holdSquad Ex.holdSquad_law Ex.reachM (i := 2) (p := 0) (by rw [Ex.m3_eq]; simp)
    (by rw [Ex.m3_eq]; simp [Ex.dataD]) Ex.goodD
  obtain ⟨h2, h3⟩ := C27_every_lookup Ex.holdSquad Ex.reachM (exM_lt (by norm_num)) (exM_lt (by norm_num)) ex_route_d
    (by simp [exM_stamps]) h1
  refine ⟨_, _, _, h1, h2, fun x => (h3 x).trans ?_⟩
  have : stampsOf Ex.m3 true 2 = some [1, 2] := by rw [Ex.m3_eq]; simp [stampsOf, Ex.dataD]
  simp [this]

/-- `C20_every_transform`: the array starts before the frame. -/
example : ∃ out ts, TransformFn.points.call Ex.holdSquad Ex.m3 1 (Ex.arr2 3 [[1, 2, 3], [4, 5, 6], [7, 8, 9]]) (.byObj 2)
      { timestamps := some (ofList [-1, 0, 1]) } = .ok (returned false out ts) ∧
    SampledAs [[-1, 0, 1], [0, 1, 2]] [[1, 2]] ts ∧ ∀ x, ts = some x → NonDecreasing x := by
  have h1 := exM_lt (k := 1) (by norm_num)
  have h2 := exM_lt (k := 2) (by norm_num)
  obtain ⟨out, e1, e2, e3⟩ := C15_points_timed Ex.holdSquad Ex.holdSquad_law Ex.reachM h1 h2 ex_pathAll_moving ex_route_moving
      (Ex.arr2 3 [[1, 2, 3], [4, 5, 6], [7, 8, 9]]) { timestamps := some (ofList [-1, 0, 1]) } (p := 1) (q := 0) (ta := 0) (ats := [-1, 0, 1])
      ⟨by simp [ND.ndim, Ex.arr2], .inr (by simp [ND.ndim, Ex.arr2])⟩ rfl rfl ⟨by simp [ND.ndim, Ex.arr2], .inl rfl⟩ rfl
      ⟨by simp [ND.ndim, Ex.arr2], rfl, by simp, by simp [StrictlyIncreasing]⟩ (by norm_num) (by norm_num) rfl
  obtain ⟨out', ts, e, hs, hn⟩ := C20_every_transform .points Ex.holdSquad Ex.reachM h1 h2 ex_route_moving
      (Ex.arr2 3 [[1, 2, 3], [4, 5, 6], [7, 8, 9]]) { timestamps := some (ofList [-1, 0, 1]) } e1
  refine ⟨out', ts, by rw [← e]; exact e1, ?_, hn⟩
  have d1 : stampsOf Ex.m3 true 2 = some [1, 2] := by rw [Ex.m3_eq]; simp [stampsOf, Ex.dataD]
  have d2 : stampsOf Ex.m3 true 1 = none := by rw [Ex.m3_eq]; simp [stampsOf, Ex.dataM]
  have c1 : stampsOf Ex.m3 false 1 = some [0, 1, 2] := by rw [Ex.m3_eq]; simp [stampsOf, Ex.dataM]
  have c2 : stampsOf Ex.m3 false 2 = none := by rw [Ex.m3_eq]; simp [stampsOf, Ex.dataD]
  have hpst : (passedStamps ({ timestamps := some (ofList [-1, 0, 1]) } : TArgs)).toList = [[-1, 0, 1]] := by
    simp [passedStamps, ofList, List.range_succ]
  rw [hpst] at hs
  simpa [d1, d2, c1, c2] using hs

/-- `C28_transforms`: the timestamps of the frame decrease. -/
example (f : TransformFn) (o : TArgs) (v : ND ℝ) : (∃ e, f.call Ex.holdSquad exB2 1 v (.byObj 0) o = .error e) ∧
    ((∃ ret, f.call Ex.holdSquad exB2 1 v (.byObj 1) o = .ok ret) → f.call Ex.holdSquad exB2 1 v (.byObj 0) o = .error .valueError) := by
  obtain ⟨h, hr⟩ := exB2_reach
  have p1 : exB2.parent 1 = some 0 := by rw [exB2_eq]; simp
  have d1 : exB2.data 1 = some ⟨some (.many [![0, 0, 0], ![1, 0, 0]], .many [1, 1]), some [1, 0], false⟩ := by
    rw [exB2_eq]; simp
  refine C28_transforms f Ex.holdSquad hr (l := [1]) (by rw [exB2_eq]; norm_num) (by rw [exB2_eq]; norm_num)
    ⟨0, [1], [], ⟨.single p1, .refl, fun d _ h => h⟩, .up (by simp) p1 .here, .here, rfl⟩ ?_ ⟨1, by simp, _, _, _, _, d1, rfl, rfl, .inl ?_⟩ v o
  · intro i hi
    have : i = 1 := by simpa using hi
    subst this
    exact ⟨_, _, d1, rfl⟩
  · simp [NonDecreasing]

end RBM.Props
