import Verif.Props.ExamplesLookup
import Verif.Props.ExamplesVelocity
import Verif.Props.TransformerLookup
import Verif.Props.TopLevel
import Verif.Props.StaticArrays
import Verif.Props.ShortestArc
import Verif.Props.Rotations
import Verif.Props.RenderTree
import Verif.Props.LookupExamples

/-!
More concrete cases for the hypotheses of theorems: the static tree `Ex.s4`, and the tree `Ex.m3` with the moving frame "m" (1) and the discrete
frame "d" (2) below "world" (0).
-/

namespace RBM.Props

open RBM RBM.Spec RBM.Ros

/-- `C11_points_timed`, `C11_vectors`, `C11_quaternions` in the moving frame. -/
example : (∃ out, Ex.m3.transformPoints Ex.holdSquad 1 (Ex.arr2 3 [[1, 2, 3], [4, 5, 6], [7, 8, 9]]) (.byObj 1)
      { timestamps := some (ofList [-1, 0, 1]) } = .ok (returned false out (some [-1, 0, 1])) ∧ ND.Same out (Ex.arr2 3 [[1, 2, 3], [4, 5, 6], [7, 8, 9]])) ∧
    (∃ out, Ex.m3.transformVectors Ex.holdSquad 1 (Ex.arr1 [1, 2, 3]) (.byObj 1) {} = .ok (returned false out none) ∧ ND.Same out (Ex.arr1 [1, 2, 3])) ∧
    ∃ out, Ex.m3.transformQuaternions Ex.holdSquad 1 (Ex.arr1 [1, 2, 3, 4]) (.byObj 1) {} = .ok (returned false out none) ∧ ND.Same out (Ex.arr1 [1, 2, 3, 4]) :=
  ⟨C11_points_timed _ Ex.holdSquad_law Ex.reachM (exM_lt (by norm_num)) _ { timestamps := some (ofList [-1, 0, 1]) } (p := 1) (q := 0) (ta := 0)
      (ats := [-1, 0, 1]) ⟨by simp [ND.ndim, Ex.arr2], .inr (by simp [ND.ndim, Ex.arr2])⟩ rfl rfl ⟨by simp [ND.ndim, Ex.arr2], .inl rfl⟩ rfl
      ⟨by simp [ND.ndim, Ex.arr2], rfl, by simp, by simp [StrictlyIncreasing]⟩ (by norm_num) (by norm_num) rfl,
    C11_vectors _ Ex.reachM (exM_lt (by norm_num)) _ {} (p := 0) ⟨by simp [ND.ndim, Ex.arr1], .inr (by simp [ND.ndim, Ex.arr1])⟩ rfl rfl
      (by intro t ht; cases ht; exact ⟨by simp [ND.ndim, Ex.arr1], .inl rfl⟩),
    C11_quaternions _ Ex.reachM (exM_lt (by norm_num)) _ {} (p := 0) ⟨by simp [ND.ndim, Ex.arr1], .inr (by simp [ND.ndim, Ex.arr1])⟩ rfl rfl
      (by intro t ht; cases ht; exact ⟨by simp [ND.ndim, Ex.arr1], .inl rfl⟩)⟩

/-- `C15_lookup_agrees`, `C16_norm`: the lookup at time 1 between the moving frames. -/
example : ∃ A, GivesAt (Ex.m3.lookupTransform Ex.holdSquad 1 (.byObj 2)) 1 A ∧ IsTransformAt Ex.holdSquad Ex.m3 1 2 1 A ∧ ∀ q, nsq (A.r * q) = nsq q := by
  obtain ⟨A, hA⟩ := exM_12
  have h := (C15_lookup_agrees Ex.holdSquad (mv := true) (fun _ => Ex.holdSquad_law) Ex.reachM (exM_lt (by norm_num)) (exM_lt (by norm_num)) ex_pathAll_moving hA).1
  exact ⟨A, hA, h, C16_norm Ex.holdSquad Ex.holdSquad_law Ex.reachM ex_pathAll_moving h⟩

/-- `C17_vectors_static`, `C17_quaternions_static`: there and back in the static tree. -/
example : (∃ out back, Ex.s4.transformVectors Ex.holdSquad 2 (Ex.arr2 2 [[1, 2], [3, 4], [5, 6]]) (.byObj 3) { axis := 0 } = .ok (returned false out none) ∧
      Ex.s4.transformVectors Ex.holdSquad 3 out (.byObj 2) { axis := 0 } = .ok (returned false back none) ∧ ND.Same back (Ex.arr2 2 [[1, 2], [3, 4], [5, 6]])) ∧
    ∃ out back, Ex.s4.transformQuaternions Ex.holdSquad 2 (Ex.arr2 4 [[1, 2, 3, 4]]) (.byObj 3) {} = .ok (returned false out none) ∧
      Ex.s4.transformQuaternions Ex.holdSquad 3 out (.byObj 2) {} = .ok (returned false back none) ∧ ND.Same back (Ex.arr2 4 [[1, 2, 3, 4]]) := by
  have h2 : 2 < Ex.s4.size := by rw [Ex.s4_eq]; norm_num
  have h3 : 3 < Ex.s4.size := by rw [Ex.s4_eq]; norm_num
  exact ⟨C17_vectors_static _ Ex.reach4 h2 h3 ex_pathAll_static _ { axis := 0 } (p := 0) ⟨by simp [ND.ndim, Ex.arr2], .inl rfl⟩ rfl rfl
      (by intro t ht; cases ht; exact ⟨by simp [ND.ndim, Ex.arr2], .inl rfl⟩),
    C17_quaternions_static _ Ex.reach4 h2 h3 ex_pathAll_static _ {} (p := 1) ⟨by simp [ND.ndim, Ex.arr2], .inr (by simp [ND.ndim, Ex.arr2])⟩ rfl rfl
      (by intro t ht; cases ht; exact ⟨by simp [ND.ndim, Ex.arr2], .inl rfl⟩)⟩

/-- `C17_vectors_timed`, `C17_quaternions_timed`: there and back between moving frames, at the two stamps that are covered. -/
example : (∃ out back, Ex.m3.transformVectors Ex.holdSquad 1 (Ex.arr2 3 [[1, 2, 3], [4, 5, 6], [7, 8, 9]]) (.byObj 2)
        { timestamps := some (ofList [-1, 0, 1]) } = .ok (returned false out (some [0, 1])) ∧
      Ex.m3.transformVectors Ex.holdSquad 2 out (.byObj 1) { timestamps := some (ofList [0, 1]) } = .ok (returned false back (some [0, 1]))) ∧
    ∃ out back, Ex.m3.transformQuaternions Ex.holdSquad 1 (Ex.arr2 4 [[1, 0, 0, 0], [0, 1, 0, 0], [0, 0, 1, 0]]) (.byObj 2)
        { timestamps := some (ofList [-1, 0, 1]) } = .ok (returned false out (some [0, 1])) ∧
      Ex.m3.transformQuaternions Ex.holdSquad 2 out (.byObj 1) { timestamps := some (ofList [0, 1]) } = .ok (returned false back (some [0, 1])) := by
  have h1 := exM_lt (k := 1) (by norm_num)
  have h2 := exM_lt (k := 2) (by norm_num)
  constructor
  · obtain ⟨out, back, e1, e2, -⟩ := C17_vectors_timed Ex.holdSquad Ex.holdSquad_law Ex.reachM h1 h2 ex_pathAll_moving ex_route_moving
      (Ex.arr2 3 [[1, 2, 3], [4, 5, 6], [7, 8, 9]]) { timestamps := some (ofList [-1, 0, 1]) } _ (p := 1) (q := 0) (ta := 0) (ats := [-1, 0, 1])
      ⟨by simp [ND.ndim, Ex.arr2], .inr (by simp [ND.ndim, Ex.arr2])⟩ rfl rfl ⟨by simp [ND.ndim, Ex.arr2], .inl rfl⟩ rfl
      ⟨by simp [ND.ndim, Ex.arr2], rfl, by simp, by simp [StrictlyIncreasing]⟩ (by norm_num) (by norm_num) rfl (by rw [ex_outStamps]; simp) rfl
    rw [ex_outStamps] at e1 e2
    exact ⟨out, back, e1, e2⟩
  · obtain ⟨out, back, e1, e2, -⟩ := C17_quaternions_timed Ex.holdSquad Ex.holdSquad_law Ex.reachM h1 h2 ex_pathAll_moving ex_route_moving
      (Ex.arr2 4 [[1, 0, 0, 0], [0, 1, 0, 0], [0, 0, 1, 0]]) { timestamps := some (ofList [-1, 0, 1]) } _ (ats := [-1, 0, 1]) rfl rfl rfl rfl (by simp)
      (by simp [StrictlyIncreasing])
      (by intro i hi
          simp only [List.length_cons, List.length_nil] at hi
          interval_cases i <;> simp [IsUnitQ, nsq, quat4, Ex.arr2]) (by rw [ex_outStamps]; simp) rfl
    rw [ex_outStamps] at e1 e2
    exact ⟨out, back, e1, e2⟩

/-- `C30_single_vector_partial`: a constant vector of the moving frame. -/
example : ∃ out ts tl rl, Ex.m3.transformVectors Ex.holdSquad 1 (Ex.arr1 [1, 2, 3]) (.byObj 2) {} = .ok (returned false out (some ts)) ∧
      Ex.m3.lookupTransform Ex.holdSquad 1 (.byObj 2) = .ok (.many tl, .many rl, some ts) ∧ out.shape = [ts.length, 3] := by
  obtain ⟨out, ts, tl, rl, h1, h2, h3, -⟩ := C30_single_vector_partial Ex.holdSquad Ex.holdSquad_law Ex.reachM (exM_lt (by norm_num)) (exM_lt (by norm_num))
    ex_pathAll_moving ex_route_moving ex_moving (Ex.arr1 [1, 2, 3]) rfl false
  exact ⟨out, ts, tl, rl, h1, h2, h3⟩

/-- `C58_lookup`, `C58_vectors_points`, `C58_poses`: with the tf2 of the example, from the moving frame to the discrete one, after one nanosecond. -/
example : ∃ buf A, fromReferenceFrame Ex.m3 1 = .ok buf ∧ IsTransformAt Ex.holdSquad Ex.m3 1 2 (1 : ℕ) A ∧
    canTransform exTf buf "d" "m" (((1 : ℕ) : ℝ) / 1000000000) = .ok true ∧
    tfTransformPoint exTf buf (vecList ![1, 2, 3]) "d" "m" (((1 : ℕ) : ℝ) / 1000000000) = .ok (vecList (rot A.r ![1, 2, 3] + A.t)) ∧
    ∃ q', (q' = A.r * 1 ∨ q' = -(A.r * 1)) ∧ tfTransformQuaternion exTf buf (quatList 1) "d" "m" (((1 : ℕ) : ℝ) / 1000000000) = .ok (quatList q') := by
  have hn1 : Ex.m3.name 1 = some "m" := by rw [Ex.m3_eq]; simp
  have hn2 : Ex.m3.name 2 = some "d" := by rw [Ex.m3_eq]; simp
  have hrf : InTree Ex.m3 0 1 := .single (by unfold ParentOf; rw [Ex.m3_eq]; simp)
  obtain ⟨buf, A, r', h1, h2, -, -, h3, -⟩ := C58_lookup Ex.holdSquad_law exTf_law Ex.reachM exM_tf.1 hrf (exM_lt (by norm_num)) exM_tf.2 hn1 hn2
  refine ⟨buf, A, h1, h2, h3, ?_, ?_⟩
  · exact (C58_vectors_points Ex.holdSquad_law exTf_law Ex.reachM exM_tf.1 hrf (exM_lt (by norm_num)) exM_tf.2 hn1 hn2 h1 h2 ![1, 2, 3]).2
  · exact (C58_poses Ex.holdSquad_law exTf_law Ex.reachM exM_tf.1 hrf (exM_lt (by norm_num)) exM_tf.2 hn1 hn2 h1 h2 ![1, 2, 3] isUnitQ_one).1

/-- `C65_outline`: the subtree below the frame "a" (1) of the static tree. -/
example : ∃ lines rows, Ex.s4.renderTree (.byName "a") = .ok lines ∧ Outline Ex.s4 1 rows :=  by
  obtain ⟨lines, rows, h1, h2, -⟩ := C65_outline Ex.reach4 (root := .byName "a") (i := 1) (by rw [Ex.s4_eq]; simp [State.resolve, dictGet, List.lookup])
    (by rw [Ex.s4_eq]; norm_num)
  exact ⟨lines, rows, h1, h2⟩

/-- `C70_vector_partial`: the vector of the discrete frame, in the world. -/
example : ∃ out, topVectors Ex.holdSquad exXr Ex.m3 (.da exPoint) (.byName "world") {} = .ok (.da out) := by
  obtain ⟨out, _, _, _, h, -⟩ := C70_vector_partial (x := exXr) Ex.holdSquad_law Ex.reachM exPoint_ok (outof := none) rfl (by decide) rfl
    (.inr ⟨rfl, "d", rfl, ex_resolve _ _ (by rw [Ex.m3_eq]; rfl)⟩)
    (ex_resolve "world" 0 (by rw [Ex.m3_eq]; rfl)) (by rw [Ex.m3_eq]; norm_num) (by rw [Ex.m3_eq]; norm_num) ex_pathAll_d
  exact ⟨out, h⟩

/-- `C71_zero`: one of two quaternions is zero. -/
example : rotateVectorsF (Ex.arr2 4 [[1, 0, 0, 0], [0, 0, 0, 0]]) (Ex.arr2 3 [[1, 2, 3], [4, 5, 6]]) (-1) (-1) false = .error .zeroDivisionError :=
  C71_zero _ _ (p := 1) (r := 1) ⟨by simp [ND.ndim, Ex.arr2], .inr (by simp [ND.ndim, Ex.arr2])⟩ rfl
    ⟨by simp [ND.ndim, Ex.arr2], .inr (by simp [ND.ndim, Ex.arr2])⟩ rfl (qi := [1, 0]) (by simp [Valid, Ex.arr2])
    (by simp [quat4, Ex.arr2]; rfl)

/-- `C18_inverse_static`: a static frame with its inverse pose given. -/
def argsI : FrameArgs := { translation := some (Ex.arr1 [1, 2, 3]), rotation := some (Ex.arr1 [0, 0, 0, 2]), inverse := true }

theorem argsI_pose : (argPose argsI none).r ≠ 0 := by
  intro h
  have := congrArg QuaternionAlgebra.imK h
  simp [argPose, argsI, Ex.arr1] at this

example : ((Ex.m3.construct (some "i") (some (.byObj 1)) argsI).1.lookupTransform Ex.holdSquad 1 (.byObj Ex.m3.size) =
      .ok (.one (argPose argsI none).t, .one (argPose argsI none).r, none)) ∧ (argPose argsI none).t = ![1, 2, 3] := by
  refine ⟨(C18_inverse_static Ex.holdSquad Ex.reachM (exM_lt (by norm_num)) (some "i") (args := argsI) ?_ rfl rfl argsI_pose).2, ?_⟩
  · refine ⟨?_, ?_, ?_, ?_⟩ <;> simp [argsI, ShapeOk, nStamps, Ex.arr1]
  · ext i; fin_cases i <;> simp [argPose, argsI, Ex.arr1]

/-- `C29_constructor`: the same arguments without `inverse` are accepted, and refused with three rotation components. -/
example : (Ex.m3.construct (some "i") (some (.byObj 1)) { argsI with inverse := false }).2 = .ok 3 ∧
    (Ex.m3.construct (some "i") (some (.byObj 1)) { argsI with inverse := false, rotation := some (Ex.arr1 [0, 0, 2]) }).2 = .error .valueError := by
  constructor
  · have := ((C29_constructor { argsI with inverse := false } Ex.reachM (exM_lt (k := 1) (by norm_num)) (some "i") (by intro h; cases h)).1 (by
      refine ⟨?_, ?_, ?_, ?_⟩ <;> simp [argsI, ShapeOk, nStamps, Ex.arr1])).1
    rw [this, exM_size]
  · refine (C29_constructor _ Ex.reachM (exM_lt (k := 1) (by norm_num)) (some "i") (by intro h; cases h)).2 ?_
    rintro ⟨-, -, h, -⟩
    have := h _ rfl
    simp [Ex.arr1, nStamps, argsI] at this

/-- `C34_static_lookups`: velocities of the static frame "a" (1). -/
example : Ex.s4.lookupTwist Ex.ext 1 none none { allowStatic := true, returnTimestamps := true } = .ok (.triple zeros3 zeros3 none) := by
  have h : Ex.s4.resolveOr 1 none = .ok 0 := by rw [Ex.s4_eq]; simp [State.resolveOr]
  exact (C34_static_lookups h h (exS_lookup Ex.ext.squad) { allowStatic := true, returnTimestamps := true } rfl).2.2

/-- `C37_static_path`: angular velocities at three times, moved from the static frame "a" to the world. -/
example : ∃ out ots, Ex.s4.transformAngularVelocity Ex.ext 1 (Ex.arr2 3 [[1, 2, 3], [4, 5, 6], [7, 8, 9]]) (.byObj 0) "reference_frame"
      { timestamps := stampArg (some [0, 1, 3]), returnTimestamps := true } none = .ok (returned true out ots) := by
  have hpar : Ex.s4.parent 1 = some 0 := by rw [Ex.s4_eq]; simp
  have hlt : 1 < Ex.s4.size ∧ 0 < Ex.s4.size := by rw [Ex.s4_eq]; norm_num
  have hst : stampsOf Ex.s4 false 1 = none := by rw [Ex.s4_eq]; simp [stampsOf]
  obtain ⟨out, ots, h, -⟩ := C37_static_path (ext := Ex.ext) Ex.ext_squad Ex.reach4 hlt.1 hlt.2 exS_path
    ⟨0, [1], [], ⟨.single hpar, .refl, fun d _ h => h⟩, .up (by simp) hpar .here, .here, rfl⟩
    (arr := Ex.arr2 3 [[1, 2, 3], [4, 5, 6], [7, 8, 9]]) (ats := some [0, 1, 3]) ⟨rfl, by simp, by simp [StrictlyIncreasing]⟩ (exS_lookup _) (by
      intro y hy
      simp only [arrayStamps] at hy
      injection hy with hy
      rw [← hy, outStamps_eq_self (by simp [StrictlyIncreasing])]
      · simp
      · intro τ _ i hi y hy
        have : i = 1 := by simpa using hi
        subst this
        rw [hst] at hy
        cases hy) none true
  exact ⟨out, ots, h⟩

/-- `C57_vectors`: as for points, the vectors of `exTimed`. -/
example : ∃ out, topVectors Ex.holdSquad exXr Ex.m3 (.da exTimed) (.byName "d") { outof := some (.byName "m"), dim := some "cartesian_axis", timestamps := .name "time" } =
      .ok (.da out) ∧ Labelled exTimed out "time" [0, 1] "representation_frame" (some "d") ∧ out.data.shape = [2, 3] := by
  obtain ⟨out, h1, h2, h3, -⟩ := C57_vectors Ex.holdSquad Ex.holdSquad_law exXr exXr_law Ex.reachM exTimed_ok (by decide) rfl (by decide) (.inl rfl)
    (into := .byName "d") (outof := some (.byName "m")) (a := 1) (b := 2) (.inl ⟨_, rfl, ex_resolve _ _ (by rw [Ex.m3_eq]; rfl)⟩)
    (ex_resolve _ _ (by rw [Ex.m3_eq]; rfl)) (exM_lt (by norm_num)) (exM_lt (by norm_num)) ex_pathAll_moving ex_route_moving
  rw [ex_outStamps] at h2 h3
  exact ⟨out, h1, by rw [Ex.m3_eq] at h2; exact h2, by rw [h3]; rfl⟩

/-- Three orientations in the frame `m`. -/
noncomputable def exTimedQ : DArr :=
  ⟨Ex.arr2 4 [[1, 0, 0, 0], [0, 1, 0, 0], [0, 0, 1, 0]],
   ⟨[("time", ⟨["time"], .num (ofList [-1, 0, 1])⟩), ("quaternion_axis", labelCoord "quaternion_axis" ["w", "x", "y", "z"])], ["time", "quaternion_axis"],
    some "orientation", [("reference_frame", some "m")]⟩⟩

theorem exTimedQ_ok : TimedDA exTimedQ "quaternion_axis" "time" 1 0 [-1, 0, 1] := by
  refine ⟨⟨rfl, by simp [exTimedQ], ?_, ?_, by simp [exTimedQ], ?_⟩, rfl, rfl, rfl,
    ⟨by simp [exTimedQ, ND.ndim, Ex.arr2], rfl, by simp, by simp [StrictlyIncreasing]⟩⟩
  · intro c hc
    simp only [exTimedQ, List.mem_cons, List.not_mem_nil, or_false] at hc
    rcases hc with rfl | rfl <;> simp [labelCoord, exTimedQ]
  · intro c hc
    simp only [exTimedQ, List.mem_cons, List.not_mem_nil, or_false] at hc
    rcases hc with rfl | rfl <;> simp [labelCoord, exTimedQ, CVals.shape, ofList, Ex.arr2, List.idxOf, List.findIdx, List.findIdx.go]
  · intro k c hc hk
    simp only [exTimedQ, List.mem_cons, List.not_mem_nil, or_false] at hk
    rcases hk with rfl | rfl
    · simp [exTimedQ, dictGet, List.lookup] at hc; subst hc; rfl
    · simp [exTimedQ, dictGet, List.lookup] at hc; subst hc; rfl

/-- `C57_quaternions`. -/
example : ∃ out, topQuaternions Ex.holdSquad exXr Ex.m3 (.da exTimedQ) (.byName "d") { dim := some "quaternion_axis", timestamps := .name "time" } =
      .ok (.da out) ∧ Labelled exTimedQ out "time" [0, 1] "reference_frame" (some "d") ∧ out.data.shape = [2, 4] := by
  obtain ⟨out, h1, h2, h3, -⟩ := C57_quaternions Ex.holdSquad Ex.holdSquad_law exXr exXr_law Ex.reachM exTimedQ_ok (by decide) rfl rfl
    (by intro i hi
        simp only [List.length_cons, List.length_nil] at hi
        interval_cases i <;> simp [IsUnitQ, nsq, quat4, Ex.arr2, exTimedQ])
    (into := .byName "d") (outof := none) (a := 1) (b := 2) (.inr ⟨rfl, "m", rfl, ex_resolve _ _ (by rw [Ex.m3_eq]; rfl)⟩)
    (ex_resolve _ _ (by rw [Ex.m3_eq]; rfl)) (exM_lt (by norm_num)) (exM_lt (by norm_num)) ex_pathAll_moving ex_route_moving
  rw [ex_outStamps] at h2 h3
  exact ⟨out, h1, by rw [Ex.m3_eq] at h2; exact h2, by rw [h3]; rfl⟩

/-- `C56_dims`, `C56_axes`, `C56_untimed`, `C56_contradictory` for `exTimed`. -/
example : maybeUnpack (.da exTimed) (some "cartesian_axis") none none (.name "time") =
      .ok ⟨exTimed.data, ((1 : ℕ) : ℤ), some "cartesian_axis", some ((0 : ℕ) : ℤ), some "time", .arr (ofList [-1, 0, 1]), some exTimed.info⟩ ∧
    maybeUnpack (.da exTimed) none none none .none =
      .ok ⟨exTimed.data, -1, some "cartesian_axis", some 0, some "time", .arr (ofList [-1, 0, 1]), some exTimed.info⟩ ∧
    maybeUnpack (.da exTimed) (some "cartesian_axis") none none .no =
      .ok ⟨exTimed.data, ((1 : ℕ) : ℤ), some "cartesian_axis", none, none, .none, some exTimed.info⟩ ∧
    maybeUnpack (.da exTimed) (some "cartesian_axis") (some 1) none .none = .error .valueError ∧
    maybeUnpack (.da exTimed) (some "quaternion_axis") none none .none = .error .valueError := by
  have h1 : DimAt exTimed "cartesian_axis" 1 := rfl
  have h0 : DimAt exTimed "time" 0 := rfl
  have ht : exTimed.dimCoord "time" = .ok (ofList [-1, 0, 1]) := rfl
  refine ⟨C56_dims exTimed_ok.ok h1 h0 (by decide) ht none, ?_, C56_untimed exTimed_ok.ok h1 none (.inl rfl), ?_, ?_⟩
  · exact C56_axes (axis := none) (ta := none) exTimed_ok.ok (by simp [ND.ndim, exTimed, Ex.arr2])
      (p := 1) ⟨by simp [ND.ndim, exTimed, Ex.arr2], .inr (by simp [ND.ndim, exTimed, Ex.arr2, orDefault])⟩ h1
      (q := 0) ⟨by simp [ND.ndim, exTimed, Ex.arr2], .inl rfl⟩ h0 (by decide) ht
  · exact (C56_contradictory exTimed_ok.ok none).1 _ _ _
  · exact (C56_contradictory exTimed_ok.ok none).2.1 _ _ (by decide)

/-- `C45_dataarray`: the three vectors of `exTimed` and the same vectors, with the dimension by name. -/
example : ∃ out, shortestArcRotation exXr (.da exTimed) exTimed.data (some "cartesian_axis") none = .ok (.da out) ∧ out.data.shape = [3, 4] ∧
    Relabelled exTimed out 1 "cartesian_axis" "quaternion_axis" ["w", "x", "y", "z"] := by
  obtain ⟨out, h1, h2, -, h3⟩ := C45_dataarray exXr exTimed_ok.ok (w := exTimed.data) rfl (dim := some "cartesian_axis") (axis := none) (p := 1) rfl
    (.inl ⟨rfl, rfl⟩) (.inl (by decide)) (.inl (by decide)) rfl (by
      intro i hi
      have hne : vec3 exTimed.data 1 i ≠ 0 := by
        match i, hi with
        | [r, c], hi =>
          have hr : r < 3 := hi.1
          intro h
          have := congrFun h 0
          interval_cases r <;> simp [vec3, exTimed, Ex.arr2] at this
      refine ⟨hne, hne, ?_⟩
      rintro ⟨c, hc, h⟩
      have h2 : (1 - c) • vec3 exTimed.data 1 i = 0 := by rw [sub_smul, one_smul, ← h, sub_self]
      rcases smul_eq_zero.mp h2 with h | h
      · linarith
      · exact hne h)
  exact ⟨out, h1, by rw [h2]; rfl, h3⟩

/-- `C45_first_dim_fails`: with the vectors along the first dimension. -/
example : shortestArcRotation exXr (.da exTimed) exTimed.data (some "time") none = .error .valueError :=
  C45_first_dim_fails exXr exTimed_ok.ok exTimed.data (old := "time") rfl (.inl ⟨rfl, rfl⟩) (by simp [ND.ndim, exTimed, Ex.arr2])

end RBM.Props
