import Verif.Props.TransformMore
import Verif.Props.TransformStatic
import Verif.Props.StaticArrays
import Verif.Props.Frames

/-!
Concrete cases for the hypotheses of C10-C16, C22-C28: the example tree with the moving frame "m" (1) and the discrete frame "d" (2)
below "world" (0), and a frame with bad timestamps.
-/

namespace RBM.Props

open RBM RBM.Spec

theorem exM_size : Ex.m3.size = 3 := by rw [Ex.m3_eq]

theorem exM_lt {k : ℕ} (h : k < 3) : k < Ex.m3.size := by rw [exM_size]; exact h

/-- A lookup along a path with the moving frame has a row at time 1. -/
theorem exM_row {a b : ℕ} (ha : a < 3) (hb : b < 3) (hp : PathAll Ex.m3 a b (FrameOk true Ex.m3)) {l : List ℕ} (hl : Route Ex.m3 a b l)
    (hc : l.filterMap (stampsOf Ex.m3 false) = [[0, 1, 2]]) :
    ∃ tl rl, Ex.m3.lookupTransform Ex.holdSquad a (.byObj b) = .ok (.many tl, .many rl, some [0, 1, 2]) := by
  rcases C22_static_iff Ex.holdSquad Ex.holdSquad_law Ex.reachM (exM_lt ha) (exM_lt hb) hp hl with ⟨h, -⟩ | ⟨-, tl, rl, ts, h, -⟩
  · have : l.filterMap (stampsOf Ex.m3 false) = [] := by
      rw [List.filterMap_eq_nil_iff]
      exact fun i hi => h i hi false
    simp [this] at hc
  · obtain ⟨out, h1, -, h2⟩ := C20_timestamps Ex.holdSquad Ex.holdSquad_law Ex.reachM (exM_lt ha) (exM_lt hb) hp hl h hc
    injection h1 with h1
    subst h1
    have : ts = [0, 1, 2] := by
      rw [h2]
      simp [InRange, List.filter_cons]
    exact ⟨tl, rl, by rw [h, this]⟩

theorem exM_gives {a b : ℕ} (ha : a < 3) (hb : b < 3) (hp : PathAll Ex.m3 a b (FrameOk true Ex.m3)) {l : List ℕ} (hl : Route Ex.m3 a b l)
    (hc : l.filterMap (stampsOf Ex.m3 false) = [[0, 1, 2]]) : ∃ A, GivesAt (Ex.m3.lookupTransform Ex.holdSquad a (.byObj b)) 1 A := by
  obtain ⟨tl, rl, h⟩ := exM_row ha hb hp hl hc
  exact C24_rows_covered Ex.holdSquad Ex.holdSquad_law Ex.reachM (exM_lt ha) (exM_lt hb) hp h 1 (by simp)

theorem exM_stamps : stampsOf Ex.m3 false 1 = some [0, 1, 2] ∧ stampsOf Ex.m3 false 2 = none := by
  rw [Ex.m3_eq]; simp [stampsOf, Ex.dataM, Ex.dataD]

theorem exM_12 : ∃ A, GivesAt (Ex.m3.lookupTransform Ex.holdSquad 1 (.byObj 2)) 1 A :=
  exM_gives (by norm_num) (by norm_num) ex_pathAll_moving ex_route_moving (by simp [exM_stamps])

theorem exM_21 : ∃ A, GivesAt (Ex.m3.lookupTransform Ex.holdSquad 2 (.byObj 1)) 1 A :=
  exM_gives (by norm_num) (by norm_num) (pathAll_symm ex_pathAll_moving) (route_symm ex_route_moving) (by simp [exM_stamps])

theorem exM_20 : ∃ A, GivesAt (Ex.m3.lookupTransform Ex.holdSquad 2 (.byObj 0)) 1 A := by
  obtain ⟨ts, T, h1, -, h2, -⟩ := C26_lookup Ex.holdSquad Ex.holdSquad_law Ex.reachM (i := 2) (p := 0) (by rw [Ex.m3_eq]; simp)
    (by rw [Ex.m3_eq]; simp [Ex.dataD]) Ex.goodD
  exact C24_rows_covered Ex.holdSquad Ex.holdSquad_law Ex.reachM (exM_lt (by norm_num)) (exM_lt (by norm_num)) ex_pathAll_d h1 1 ((h2 1).mpr (by simp))

theorem exM_path10 : PathAll Ex.m3 1 0 (FrameOk true Ex.m3) := by
  have e := Ex.m3_eq
  have p1 : Ex.m3.parent 1 = some 0 := by rw [e]; simp
  refine ⟨0, [1], [], ⟨.single p1, .refl, fun d _ h => h⟩, .up (by simp) p1 .here, .here, ?_⟩
  intro i hi
  have : i = 1 := by simpa using hi
  subst this
  simp only [FrameOk, if_true]
  exact ⟨Ex.dataM, by rw [e]; simp, Ex.goodM⟩

theorem exM_10 : ∃ A, GivesAt (Ex.m3.lookupTransform Ex.holdSquad 1 (.byObj 0)) 1 A := by
  have h := C25_lookup_samples Ex.holdSquad Ex.holdSquad_law Ex.reachM (i := 1) (p := 0) (by rw [Ex.m3_eq]; simp)
    (by rw [Ex.m3_eq]; simp [Ex.dataM]) Ex.goodM
  exact C24_rows_covered Ex.holdSquad Ex.holdSquad_law Ex.reachM (exM_lt (by norm_num)) (exM_lt (by norm_num)) exM_path10 h 1 (by simp)

theorem exM_common : NearestCommon Ex.m3 1 2 0 := by
  have e := Ex.m3_eq
  have p1 : Ex.m3.parent 1 = some 0 := by rw [e]; simp
  have p2 : Ex.m3.parent 2 = some 0 := by rw [e]; simp
  have p0 : Ex.m3.parent 0 = none := by rw [e]; simp
  refine ⟨.single p1, .single p2, ?_⟩
  intro d h1 h2
  rcases Relation.ReflTransGen.cases_head h1 with rfl | ⟨x, hx, h1⟩
  · rcases Relation.ReflTransGen.cases_head h2 with h | ⟨x, hx, h2⟩
    · norm_num at h
    · have : x = 0 := by
        have : Ex.m3.parent 2 = some x := hx
        rw [p2] at this; injection this with this; exact this.symm
      subst this
      rcases Relation.ReflTransGen.cases_head h2 with h | ⟨y, hy, -⟩
      · norm_num at h
      · have : Ex.m3.parent 0 = some y := hy
        rw [p0] at this; cases this
  · have : x = 0 := by
      have : Ex.m3.parent 1 = some x := hx
      rw [p1] at this; injection this with this; exact this.symm
    subst this
    exact h1

/-- The moving frame and the discrete frame at time 1: the transformation (`C10_coordinate_change`), its inverse (`C12_inverse`), its distances
(`C14_rigid`), and the way over "world" (`C13_composition`). -/
example : ∃ A B C D, GivesAt (Ex.m3.lookupTransform Ex.holdSquad 1 (.byObj 2)) 1 A ∧ GivesAt (Ex.m3.lookupTransform Ex.holdSquad 2 (.byObj 1)) 1 B ∧
    GivesAt (Ex.m3.lookupTransform Ex.holdSquad 2 (.byObj 0)) 1 C ∧ GivesAt (Ex.m3.lookupTransform Ex.holdSquad 1 (.byObj 0)) 1 D ∧
    (∀ p, ∃ P, InAncestor Ex.m3.parent (PoseOf Ex.holdSquad Ex.m3 1) 0 1 p P ∧ InAncestor Ex.m3.parent (PoseOf Ex.holdSquad Ex.m3 1) 0 2 (A.act p) P) ∧
    (∀ p, B.act (A.act p) = p) ∧ (D.t = rot C.r A.t + C.t ∧ D.r = C.r * A.r) ∧ IsUnitQ A.r := by
  obtain ⟨A, hA⟩ := exM_12
  obtain ⟨B, hB⟩ := exM_21
  obtain ⟨C, hC⟩ := exM_20
  obtain ⟨D, hD⟩ := exM_10
  have h0 := exM_lt (k := 0) (by norm_num)
  have h1 := exM_lt (k := 1) (by norm_num)
  have h2 := exM_lt (k := 2) (by norm_num)
  refine ⟨A, B, C, D, hA, hB, hC, hD, ?_, ?_, ?_, ?_⟩
  · exact (C10_coordinate_change _ (mv := true) (fun _ => Ex.holdSquad_law) Ex.reachM h1 h2 ex_pathAll_moving hA exM_common).1
  · exact (C12_inverse _ (mv := true) (fun _ => Ex.holdSquad_law) Ex.reachM h1 h2 ex_pathAll_moving hA hB).2.2.1
  · exact C13_composition _ (mv := true) (fun _ => Ex.holdSquad_law) Ex.reachM h1 h2 h0 ex_pathAll_moving ex_pathAll_d hA hC hD
  · exact (C14_rigid _ (mv := true) (fun _ => Ex.holdSquad_law) Ex.reachM h1 h2 ex_pathAll_moving hA).1 rfl

/-- Coordinates of one point in both frames (`C10_coordinates_unique`) and the tree frozen at time 1 (`C24_pointwise`). -/
example : ∃ A, GivesAt (Ex.m3.lookupTransform Ex.holdSquad 1 (.byObj 2)) 1 A ∧
    (∀ p p' P, InAncestor Ex.m3.parent (PoseOf Ex.holdSquad Ex.m3 1) 0 1 p P → InAncestor Ex.m3.parent (PoseOf Ex.holdSquad Ex.m3 1) 0 2 p' P → A.act p = p') ∧
    ∃ s0, FrozenAt Ex.holdSquad Ex.m3 1 s0 ∧ s0.lookupTransform Ex.holdSquad 1 (.byObj 2) = .ok (.one A.t, .one A.r, none) := by
  obtain ⟨A, hA⟩ := exM_12
  have h1 := exM_lt (k := 1) (by norm_num)
  have h2 := exM_lt (k := 2) (by norm_num)
  obtain ⟨s0, hs⟩ := C24_frozen_exists Ex.holdSquad Ex.m3 1
  exact ⟨A, hA, fun p p' P e1 e2 => C10_coordinates_unique _ (mv := true) (fun _ => Ex.holdSquad_law) Ex.reachM h1 h2 ex_pathAll_moving hA exM_common e1 e2,
    s0, hs, C24_pointwise _ Ex.holdSquad_law Ex.reachM h1 h2 ex_pathAll_moving hA hs⟩

/-- The static tree: the lookup has a pose (`C10_static_total`), and points, vectors and orientations are transformed by it (`C15_points_static`,
`C15_vectors_static`, `C16_orientations_static`; the last two along the first axis). -/
example : ∃ A : Pose, Ex.s4.lookupTransform Ex.holdSquad 2 (.byObj 3) = .ok (.one A.t, .one A.r, none) ∧ A.r ≠ 0 ∧
    (∃ (A' : Pose) (out : ND ℝ), Ex.s4.lookupTransform Ex.holdSquad 2 (.byObj 3) = .ok (.one A'.t, .one A'.r, none) ∧
      Ex.s4.transformPoints Ex.holdSquad 2 (Ex.arr2 3 [[1, 2, 3], [4, 5, 6]]) (.byObj 3) {} = .ok (returned false out none) ∧
      ∀ idx, Valid [2, 3] idx → vec3 out 1 idx = A'.act (vec3 (Ex.arr2 3 [[1, 2, 3], [4, 5, 6]]) 1 idx)) ∧
    (∃ (A' : Pose) (out : ND ℝ), Ex.s4.lookupTransform Ex.holdSquad 2 (.byObj 3) = .ok (.one A'.t, .one A'.r, none) ∧
      Ex.s4.transformVectors Ex.holdSquad 2 (Ex.arr2 2 [[1, 2], [3, 4], [5, 6]]) (.byObj 3) { axis := 0 } = .ok (returned false out none) ∧
      ∀ idx, Valid [3, 2] idx → vec3 out 0 idx = rot A'.r (vec3 (Ex.arr2 2 [[1, 2], [3, 4], [5, 6]]) 0 idx)) ∧
    (∃ (A' : Pose) (out : ND ℝ), Ex.s4.lookupTransform Ex.holdSquad 2 (.byObj 3) = .ok (.one A'.t, .one A'.r, none) ∧
      Ex.s4.transformQuaternions Ex.holdSquad 2 (Ex.arr2 2 [[1, 2], [3, 4], [5, 6], [7, 8]]) (.byObj 3) { axis := 0 } = .ok (returned false out none) ∧
      ∀ idx, Valid [4, 2] idx → quat4 out 0 idx = A'.r * quat4 (Ex.arr2 2 [[1, 2], [3, 4], [5, 6], [7, 8]]) 0 idx) := by
  have h2 : 2 < Ex.s4.size := by rw [Ex.s4_eq]; norm_num
  have h3 : 3 < Ex.s4.size := by rw [Ex.s4_eq]; norm_num
  obtain ⟨A, hA, hne⟩ := C10_static_total Ex.holdSquad Ex.reach4 h2 h3 ex_pathAll_static
  refine ⟨A, hA, hne, ?_, ?_, ?_⟩
  · obtain ⟨A', out, -, e1, e2, -, e3⟩ := C15_points_static Ex.holdSquad Ex.reach4 h2 h3 ex_pathAll_static (Ex.arr2 3 [[1, 2, 3], [4, 5, 6]]) {} (p := 1)
      ⟨by simp [ND.ndim, Ex.arr2], .inr (by simp [ND.ndim, Ex.arr2])⟩ rfl rfl rfl
      (by intro t ht; cases ht; exact ⟨by simp [ND.ndim, Ex.arr2], .inl rfl⟩)
    exact ⟨A', out, e1, e2, e3⟩
  · obtain ⟨A', out, -, e1, e2, -, e3⟩ := C15_vectors_static Ex.holdSquad Ex.reach4 h2 h3 ex_pathAll_static (Ex.arr2 2 [[1, 2], [3, 4], [5, 6]])
      { axis := 0 } (p := 0) ⟨by simp [ND.ndim, Ex.arr2], .inl rfl⟩ rfl rfl
      (by intro t ht; cases ht; exact ⟨by simp [ND.ndim, Ex.arr2], .inl rfl⟩)
    exact ⟨A', out, e1, e2, e3⟩
  · obtain ⟨A', out, -, e1, e2, -, e3⟩ := C16_orientations_static Ex.holdSquad Ex.reach4 h2 h3 ex_pathAll_static
      (Ex.arr2 2 [[1, 2], [3, 4], [5, 6], [7, 8]]) { axis := 0 } (p := 0) ⟨by simp [ND.ndim, Ex.arr2], .inl rfl⟩ rfl rfl
      (by intro t ht; cases ht; exact ⟨by simp [ND.ndim, Ex.arr2], .inl rfl⟩)
    exact ⟨A', out, e1, e2, e3⟩

/-- The moving tree: three timestamped points, vectors and orientations, of which the first lies before the motion (`C15_points_timed`,
`C15_vectors_timed`, `C16_orientations_timed`). -/
example : (∃ out, Ex.m3.transformPoints Ex.holdSquad 1 (Ex.arr2 3 [[1, 2, 3], [4, 5, 6], [7, 8, 9]]) (.byObj 2)
        { timestamps := some (ofList [-1, 0, 1]) } = .ok (returned false out (some [0, 1])) ∧ out.shape = [2, 3] ∧
      ∃ A, IsTransformAt Ex.holdSquad Ex.m3 1 2 1 A ∧ vec3 out 1 [1, 0] = A.act (vec3 (Ex.arr2 3 [[1, 2, 3], [4, 5, 6], [7, 8, 9]]) 1 [2, 0])) ∧
    (∃ out, Ex.m3.transformVectors Ex.holdSquad 1 (Ex.arr2 3 [[1, 2, 3], [4, 5, 6], [7, 8, 9]]) (.byObj 2)
        { timestamps := some (ofList [-1, 0, 1]) } = .ok (returned false out (some [0, 1])) ∧
      ∃ A, IsTransformAt Ex.holdSquad Ex.m3 1 2 1 A ∧ vec3 out 1 [1, 0] = rot A.r (vec3 (Ex.arr2 3 [[1, 2, 3], [4, 5, 6], [7, 8, 9]]) 1 [2, 0])) ∧
    ∃ out, Ex.m3.transformQuaternions Ex.holdSquad 1 (Ex.arr2 4 [[1, 0, 0, 0], [0, 1, 0, 0], [0, 0, 1, 0]]) (.byObj 2)
        { timestamps := some (ofList [-1, 0, 1]) } = .ok (returned false out (some [0, 1])) ∧
      ∃ A, IsTransformAt Ex.holdSquad Ex.m3 1 2 1 A ∧ quat4 out 1 [1, 0] = A.r * quat4 (Ex.arr2 4 [[1, 0, 0, 0], [0, 1, 0, 0], [0, 0, 1, 0]]) 1 [2, 0] := by
  have h1 := exM_lt (k := 1) (by norm_num)
  have h2 := exM_lt (k := 2) (by norm_num)
  refine ⟨?_, ?_, ?_⟩
  · obtain ⟨out, e1, e2, e3⟩ := C15_points_timed Ex.holdSquad Ex.holdSquad_law Ex.reachM h1 h2 ex_pathAll_moving ex_route_moving
      (Ex.arr2 3 [[1, 2, 3], [4, 5, 6], [7, 8, 9]]) { timestamps := some (ofList [-1, 0, 1]) } (p := 1) (q := 0) (ta := 0) (ats := [-1, 0, 1])
      ⟨by simp [ND.ndim, Ex.arr2], .inr (by simp [ND.ndim, Ex.arr2])⟩ rfl rfl ⟨by simp [ND.ndim, Ex.arr2], .inl rfl⟩ rfl
      ⟨by simp [ND.ndim, Ex.arr2], rfl, by simp, by simp [StrictlyIncreasing]⟩ (by norm_num) (by norm_num) rfl
    rw [ex_outStamps] at e1 e2 e3
    obtain ⟨A, a1, a2⟩ := e3 1 2 1 rfl rfl
    exact ⟨out, e1, e2, A, a1, a2 [0, 0] (by simp [Valid, Ex.arr2])⟩
  · obtain ⟨out, e1, e2, e3⟩ := C15_vectors_timed Ex.holdSquad Ex.holdSquad_law Ex.reachM h1 h2 ex_pathAll_moving ex_route_moving
      (Ex.arr2 3 [[1, 2, 3], [4, 5, 6], [7, 8, 9]]) { timestamps := some (ofList [-1, 0, 1]) } (p := 1) (q := 0) (ta := 0) (ats := [-1, 0, 1])
      ⟨by simp [ND.ndim, Ex.arr2], .inr (by simp [ND.ndim, Ex.arr2])⟩ rfl rfl ⟨by simp [ND.ndim, Ex.arr2], .inl rfl⟩ rfl
      ⟨by simp [ND.ndim, Ex.arr2], rfl, by simp, by simp [StrictlyIncreasing]⟩ (by norm_num) (by norm_num) (.inl rfl)
    rw [ex_outStamps] at e1 e2 e3
    obtain ⟨A, a1, a2⟩ := e3 1 2 1 rfl rfl
    exact ⟨out, e1, A, a1, a2 [0, 0] (by simp [Valid, Ex.arr2])⟩
  · obtain ⟨out, e1, e2, e3⟩ := C16_orientations_timed Ex.holdSquad Ex.holdSquad_law Ex.reachM h1 h2 ex_pathAll_moving ex_route_moving
      (Ex.arr2 4 [[1, 0, 0, 0], [0, 1, 0, 0], [0, 0, 1, 0]]) { timestamps := some (ofList [-1, 0, 1]) } (p := 1) (q := 0) (ta := 0) (ats := [-1, 0, 1])
      ⟨by simp [ND.ndim, Ex.arr2], .inr (by simp [ND.ndim, Ex.arr2])⟩ rfl rfl ⟨by simp [ND.ndim, Ex.arr2], .inl rfl⟩ rfl
      ⟨by simp [ND.ndim, Ex.arr2], rfl, by simp, by simp [StrictlyIncreasing]⟩ (by norm_num) (by norm_num)
      (.inl ⟨rfl, by
        intro i hi
        simp only [List.length_cons, List.length_nil] at hi
        interval_cases i <;> simp [IsUnitQ, nsq, quat4, Ex.arr2]⟩)
    rw [ex_outStamps] at e1 e2 e3
    obtain ⟨A, a1, a2⟩ := e3 1 2 1 rfl rfl
    exact ⟨out, e1, A, a1, a2 [0, 0] (by simp [Valid, Ex.arr2])⟩

/-- The discrete frame alone has its own events as timestamps (`C27_discrete_events`). -/
example : ∃ t r ts, Ex.m3.lookupTransform Ex.holdSquad 2 (.byObj 0) = .ok (t, r, some ts) ∧ StrictlyIncreasing ts ∧ ∀ x, x ∈ ts ↔ x = 1 ∨ x = 2 := by
  obtain ⟨ts, T, h1, -, -, -⟩ := C26_lookup Ex.holdSquad Ex.holdSquad_law Ex.reachM (i := 2) (p := 0) (by rw [Ex.m3_eq]; simp)
    (by rw [Ex.m3_eq]; simp [Ex.dataD]) Ex.goodD
  obtain ⟨h2, h3⟩ := C27_discrete_events Ex.holdSquad Ex.holdSquad_law Ex.reachM (exM_lt (by norm_num)) (exM_lt (by norm_num)) ex_pathAll_d ex_route_d h1
    (by simp [exM_stamps])
  refine ⟨_, _, _, h1, h2, fun x => (h3 x).trans ?_⟩
  have : stampsOf Ex.m3 true 2 = some [1, 2] := by rw [Ex.m3_eq]; simp [stampsOf, Ex.dataD]
  simp [this]

/-! ### A frame whose timestamps decrease (`C28_bad_timestamps`) -/

def argsB : FrameArgs := { translation := some (Ex.arr2 3 [[0, 0, 0], [1, 0, 0]]), timestamps := some (Ex.arr1 [1, 0]) }
noncomputable def exB2 : State := (Ex.m1.step (.registerFrame (some "b") (some (.byName "world")) argsB false)).1

set_option linter.unusedSimpArgs false in
theorem exB2_eq : exB2 = ⟨2,
    fun i => if i = 1 then some "b" else if i = 0 then some "world" else none,
    fun i => if i = 1 then some 0 else none,
    fun i => if i = 0 then [1] else [],
    fun i => if i = 1 then some ⟨some (.many [![0, 0, 0], ![1, 0, 0]], .many [1, 1]), some [1, 0], false⟩
      else if i = 0 then some ⟨none, none, false⟩ else none,
    [("world", 0), ("b", 1)]⟩ := by
  simp [exB2, Ex.m1, State.step, State.registerFrame, State.construct, verifyRoot,
    State.register, State.resolve, State.alloc, State.setData, State.setParent, State.checkLoop,
    State.detach, State.attach, State.pathReverse, chainUp, dictGet, dictSet, State.init,
    initArrays, argsB, initTimestamps, initTranslationArg, initRotationArg, Ex.arr1, Ex.arr2,
    List.lookup, Function.update_apply, Pure.pure, bind, Except.bind, Except.pure, vecRows, quatRows,
    List.range_succ]
  refine ⟨?_, ?_, ?_, ?_⟩
  · funext i; simp only [Function.update_apply]
  · funext i; simp only [Function.update_apply]
  · funext i; simp only [Function.update_apply]
  · funext i; simp only [Function.update_apply, List.replicate]; split_ifs <;> simp_all
    refine ⟨?_, ?_⟩ <;> funext k <;> fin_cases k <;> simp

theorem exB2_reach : ∃ h, Reachable exB2 h :=
  ⟨_, .step (.registerFrame (some "b") (some (.byName "world")) argsB false)
    (.step (.registerFrame (some "world") none {} false) .init trivial) trivial⟩

example : exB2.lookupTransform Ex.holdSquad 1 (.byObj 0) = .error .valueError := by
  obtain ⟨h, hr⟩ := exB2_reach
  have p1 : exB2.parent 1 = some 0 := by rw [exB2_eq]; simp
  have d1 : exB2.data 1 = some ⟨some (.many [![0, 0, 0], ![1, 0, 0]], .many [1, 1]), some [1, 0], false⟩ := by
    rw [exB2_eq]; simp
  refine (C28_bad_timestamps Ex.holdSquad hr (l := [1]) (by rw [exB2_eq]; norm_num) (by rw [exB2_eq]; norm_num)
    ⟨0, [1], [], ⟨.single p1, .refl, fun d _ h => h⟩, .up (by simp) p1 .here, .here, rfl⟩ ?_).1 ⟨1, by simp, _, _, _, _, d1, rfl, rfl, .inl ?_⟩
  · intro i hi
    have : i = 1 := by simpa using hi
    subst this
    exact ⟨_, _, d1, rfl⟩
  · simp [NonDecreasing]

end RBM.Props
