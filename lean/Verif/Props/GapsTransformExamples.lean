import Verif.Props.GapsTransform
import Verif.Lemmas.GapsNone
import Verif.Lemmas.UnitsArr
import Verif.Props.ExamplesLookup

/-!
C96: arrays without missing entries, and examples.
-/

namespace RBM.Props

open RBM RBM.Spec

theorem return_known (b : Bool) (a : ND ℝ) (ts : Option (List ℝ)) :
    (if !b then (return .single a.known : Res PyRetGaps) else return .withTs a.known ts) =
      (Except.ok (pyReturn b a ts) : Res PyRet).map withoutGaps := by
  cases b <;> rfl

/-- For arrays without missing entries `transform_vectors` and `transform_points` do what the other properties say. -/
theorem C96_no_gaps (sq : SquadFn) (s : State) (a : ℕ) (v : ND ℝ) (dst : FrameRef) (o : TArgs) :
    s.transformVectorsGaps sq a (v.map some) dst o = (s.transformVectors sq a v dst o).map withoutGaps ∧
      s.transformPointsGaps sq a (v.map some) dst o = (s.transformPoints sq a v dst o).map withoutGaps := by
  have hk : v.map some = v.known := rfl
  rw [hk]
  constructor
  · simp only [State.transformVectorsGaps, State.transformVectors, State.transformVectorsCore, validateInput_known, bind]
    cases validateInput v o.axis 3 o.timestamps o.timeAxis with
    | error e => rfl
    | ok q =>
      obtain ⟨w, wts⟩ := q
      simp only [Except.map, Except.bind, fill_known]
      cases hm : s.getMatcher a dst [⟨w, wts⟩] with
      | error e => rfl
      | ok m =>
        obtain ⟨fs, as⟩ := m
        have : as = [⟨w, wts⟩] := getMatcher_arrays hm
        subst this
        simp only
        cases (⟨fs, [⟨w, wts⟩]⟩ : Matcher).getTransformation sq with
        | error e => rfl
        | ok x =>
          obtain ⟨t, r, ts⟩ := x
          simp only [getArray1_known]
          cases (⟨fs, [⟨w, wts⟩]⟩ : Matcher).getArray1 sq ts with
          | error e => rfl
          | ok w' =>
            simp only [knownRes, Except.map]
            have hn : w'.known.ndim = w'.ndim := rfl
            rw [hn, rotateVectorsF_known]
            cases rotateVectorsF (expandSingletonAxes (ND.ofQuats r) w'.ndim) w' o.axis with
            | error e => rfl
            | ok R =>
              simp only [knownRes, Except.map, undo_known, Pure.pure, Except.pure]
              cases undoTimeSwap R o.timeAxis with
              | error e => rfl
              | ok out => exact return_known _ _ _
  · simp only [State.transformPointsGaps, State.transformPoints, State.transformPointsCore, validateInput_known, bind]
    cases validateInput v o.axis 3 o.timestamps o.timeAxis with
    | error e => rfl
    | ok q =>
      obtain ⟨w, wts⟩ := q
      simp only [Except.map, Except.bind, fill_known]
      cases hm : s.getMatcher a dst [⟨w, wts⟩] with
      | error e => rfl
      | ok m =>
        obtain ⟨fs, as⟩ := m
        have : as = [⟨w, wts⟩] := getMatcher_arrays hm
        subst this
        simp only
        cases (⟨fs, [⟨w, wts⟩]⟩ : Matcher).getTransformation sq with
        | error e => rfl
        | ok x =>
          obtain ⟨t, r, ts⟩ := x
          simp only [getArray1_known]
          cases (⟨fs, [⟨w, wts⟩]⟩ : Matcher).getArray1 sq ts with
          | error e => rfl
          | ok w' =>
            simp only [knownRes, Except.map]
            have hn : w'.known.ndim = w'.ndim := rfl
            rw [hn, rotateVectorsF_known]
            cases rotateVectorsF (expandSingletonAxes (ND.ofQuats r) w'.ndim) w' o.axis with
            | error e => rfl
            | ok R =>
              simp only [knownRes, Except.map, bop_nanR (fun x y => x + y)]
              cases ND.bop (fun x y => x + y) R (expandSingletonAxes (ND.ofVecs t) w'.ndim) with
              | error e => rfl
              | ok R =>
                simp only [knownRes, Except.map, undo_known, Pure.pure, Except.pure]
                cases undoTimeSwap R o.timeAxis with
                | error e => rfl
                | ok out => exact return_known _ _ _

/-! ### Examples -/

/-- Three points, the second coordinate of the first one is missing. -/
noncomputable def exLost : ND (Option ℝ) := ⟨[3, 3], fun idx => if idx = [0, 1] then none else some ((Ex.arr2 3 [[1, 2, 3], [4, 5, 6], [7, 8, 9]]).get idx)⟩

theorem exLost_missing : VecMissing exLost 1 [0, 0] := ⟨1, by norm_num, by simp [exLost]⟩

theorem exLost_row (k : ℕ) (hk : k ≠ 0) : ¬ VecMissing exLost 1 [k, 0] := by
  rintro ⟨c, -, h⟩
  simp [exLost, hk] at h

/-- Along a path of static frames only the incomplete point is lost. -/
example : ∃ (A : Pose) (out : ND (Option ℝ)), Ex.s4.transformPointsGaps Ex.holdSquad 2 exLost (.byObj 3) {} = .ok (.single out) ∧
    VecGone out 1 [0, 0] ∧ VecIs out 1 [1, 0] (A.act ![4, 5, 6]) := by
  have h2 : 2 < Ex.s4.size := by rw [Ex.s4_eq]; norm_num
  have h3 : 3 < Ex.s4.size := by rw [Ex.s4_eq]; norm_num
  obtain ⟨A, out, -, e1, -, e2⟩ := C96_points_static Ex.holdSquad Ex.reach4 h2 h3 ex_pathAll_static exLost {} (p := 1)
      ⟨by simp [ND.ndim, exLost], .inr (by simp [ND.ndim, exLost])⟩ rfl rfl rfl
      (by intro t ht; cases ht; exact ⟨by simp [ND.ndim, exLost], .inl rfl⟩)
  refine ⟨A, out, e1, (e2 [0, 0] (by simp [Valid, exLost])).1 exLost_missing, (e2 [1, 0] (by simp [Valid, exLost])).2 _ ?_⟩
  intro c
  fin_cases c <;> simp [exLost, Ex.arr2]

/-- Through moving frames the point at the next timestamp is lost as well, although it is complete, and even though the
incomplete one is outside the range of the frames; the one after it is transformed. -/
example : ∃ out, Ex.m3.transformPointsGaps Ex.holdSquad 1 exLost (.byObj 2) { timestamps := some (ofList [-1, 0, 1]) } = .ok (.single out) ∧
    out.shape = [2, 3] ∧ VecGone out 1 [0, 0] ∧
    ∃ A, IsTransformAt Ex.holdSquad Ex.m3 1 2 1 A ∧ VecIs out 1 [1, 0] (A.act ![7, 8, 9]) := by
  have h1 := exM_lt (k := 1) (by norm_num)
  have h2 := exM_lt (k := 2) (by norm_num)
  obtain ⟨out, e1, e2, e3⟩ := C96_points_timed Ex.holdSquad Ex.holdSquad_law Ex.reachM h1 h2 ex_pathAll_moving ex_route_moving
      exLost { timestamps := some (ofList [-1, 0, 1]) } (p := 1) (q := 0) (ta := 0) (ats := [-1, 0, 1])
      ⟨by simp [ND.ndim, exLost], .inr (by simp [ND.ndim, exLost])⟩ rfl rfl ⟨by simp [ND.ndim, exLost], .inl rfl⟩ rfl
      rfl (by simp) (by simp [StrictlyIncreasing]) (by norm_num) (by norm_num) rfl
  rw [ex_outStamps] at e1 e2 e3
  obtain ⟨B, -, b⟩ := e3 0 1 0 rfl rfl
  obtain ⟨A, a1, a2⟩ := e3 1 2 1 rfl rfl
  refine ⟨out, e1, e2, (b [0, 0] (by simp [Valid, exLost])).1 (.inr exLost_missing), A, a1,
    (a2 [0, 0] (by simp [Valid, exLost])).2 _ ?_ (exLost_row 1 (by norm_num))⟩
  intro c
  fin_cases c <;> simp [exLost, Ex.arr2]

/-- The same for `transform_vectors`, static and timestamped. -/
example : (∃ (A : Pose) (out : ND (Option ℝ)), Ex.s4.transformVectorsGaps Ex.holdSquad 2 exLost (.byObj 3) {} = .ok (.single out) ∧
      VecGone out 1 [0, 0] ∧ VecIs out 1 [1, 0] (rot A.r ![4, 5, 6])) ∧
    ∃ out, Ex.m3.transformVectorsGaps Ex.holdSquad 1 exLost (.byObj 2) { timestamps := some (ofList [-1, 0, 1]), returnTimestamps := true } =
        .ok (.withTs out (some [0, 1])) ∧
      out.shape = [2, 3] ∧ VecGone out 1 [0, 0] ∧
      ∃ A, IsTransformAt Ex.holdSquad Ex.m3 1 2 1 A ∧ VecIs out 1 [1, 0] (rot A.r ![7, 8, 9]) := by
  constructor
  · have h2 : 2 < Ex.s4.size := by rw [Ex.s4_eq]; norm_num
    have h3 : 3 < Ex.s4.size := by rw [Ex.s4_eq]; norm_num
    obtain ⟨A, out, -, e1, -, e2⟩ := C96_vectors_static Ex.holdSquad Ex.reach4 h2 h3 ex_pathAll_static exLost {} (p := 1)
      ⟨by simp [ND.ndim, exLost], .inr (by simp [ND.ndim, exLost])⟩ rfl rfl
      (by intro t ht; cases ht; exact ⟨by simp [ND.ndim, exLost], .inl rfl⟩)
    refine ⟨A, out, e1, (e2 [0, 0] (by simp [Valid, exLost])).1 exLost_missing, (e2 [1, 0] (by simp [Valid, exLost])).2 _ ?_⟩
    intro c
    fin_cases c <;> simp [exLost, Ex.arr2]
  · have h1 := exM_lt (k := 1) (by norm_num)
    have h2 := exM_lt (k := 2) (by norm_num)
    obtain ⟨out, e1, e2, e3⟩ := C96_vectors_timed Ex.holdSquad Ex.holdSquad_law Ex.reachM h1 h2 ex_pathAll_moving ex_route_moving
      exLost { timestamps := some (ofList [-1, 0, 1]), returnTimestamps := true } (p := 1) (q := 0) (ta := 0) (ats := [-1, 0, 1])
      ⟨by simp [ND.ndim, exLost], .inr (by simp [ND.ndim, exLost])⟩ rfl rfl ⟨by simp [ND.ndim, exLost], .inl rfl⟩ rfl
      rfl (by simp) (by simp [StrictlyIncreasing]) (by norm_num) (by norm_num) (.inl rfl)
    rw [ex_outStamps] at e1 e2 e3
    obtain ⟨B, -, b⟩ := e3 0 1 0 rfl rfl
    obtain ⟨A, a1, a2⟩ := e3 1 2 1 rfl rfl
    refine ⟨out, e1, e2, (b [0, 0] (by simp [Valid, exLost])).1 (.inr exLost_missing), A, a1,
      (a2 [0, 0] (by simp [Valid, exLost])).2 _ ?_ (exLost_row 1 (by norm_num))⟩
    intro c
    fin_cases c <;> simp [exLost, Ex.arr2]

end RBM.Props
