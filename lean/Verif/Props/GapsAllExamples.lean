import Verif.Props.GapsAll
import Verif.Props.GapsLookupExamples
import Verif.Props.ExamplesLookup

/-!
Examples for C101: timed arrays with missing entries along the moving path of the example tree, whose recording has a missing position.
-/

namespace RBM.Props

open RBM.Spec

/-- The array `v` with its entry at `i` missing. -/
def holeAt (i : List ℕ) (v : ND ℝ) : ND (Option ℝ) := ⟨v.shape, fun idx => if idx = i then none else some (v.get idx)⟩

theorem fits_hole (i : List ℕ) (v : ND ℝ) : FitsArr (holeAt i v) v := by
  refine ⟨rfl, fun idx _ x hx => ?_⟩
  simp only [holeAt] at hx
  split_ifs at hx
  exact Option.some.inj hx

/-- Three points, and three orientations. -/
noncomputable def arrP : ND ℝ := Ex.arr2 3 [[1, 2, 3], [4, 5, 6], [7, 8, 9]]
noncomputable def arrQ : ND ℝ := Ex.arr2 4 [[1, 0, 0, 0], [0, 1, 0, 0], [0, 0, 1, 0]]
noncomputable def argsP : TArgs := { timestamps := some (ofList [-1, 0, 1]) }

theorem arrP_resamples : Resamples arrP argsP :=
  .numbers (ta := 0) (q := 0) rfl ⟨by simp [arrP, ND.ndim, Ex.arr2], .inl rfl⟩ (by simp [arrP, Ex.arr2])

theorem arrQ_unit (i : ℕ) (h : i < 3) : ∀ j, IsUnitQ (quat4 arrQ 1 [i, j]) := by
  intro j
  rcases i with _ | _ | _ | i
  · simp [quat4, arrQ, Ex.arr2, IsUnitQ, nsq]
  · simp [quat4, arrQ, Ex.arr2, IsUnitQ, nsq]
  · simp [quat4, arrQ, Ex.arr2, IsUnitQ, nsq]
  · omega

theorem arrQ_resamples : Resamples arrQ argsP := by
  refine .quaternions (ta := 0) (q := 0) (ats := [-1, 0, 1]) rfl rfl ⟨by simp [arrQ, ND.ndim, Ex.arr2], .inl rfl⟩ (by simp [arrQ, ND.ndim, Ex.arr2])
    (by simp) (by simp [StrictlyIncreasing]) fun idx hv => ?_
  have hs : arrQ.shape = [3, 4] := rfl
  rw [hs] at hv
  match idx, hv with
  | [i, j], hv => exact arrQ_unit i hv.1 j

theorem exP_ok : ∃ out ts, Ex.m3.transformPoints stepSquad 1 arrP (.byObj 2) argsP = .ok (returned false out ts) := by
  have h1 := exM_lt (k := 1) (by norm_num)
  have h2 := exM_lt (k := 2) (by norm_num)
  obtain ⟨out, e, -⟩ := C15_points_timed stepSquad stepSquad_law Ex.reachM h1 h2 ex_pathAll_moving ex_route_moving arrP argsP (p := 1) (q := 0)
    ⟨by simp [arrP, ND.ndim, Ex.arr2], .inr (by simp [argsP, arrP, ND.ndim, Ex.arr2])⟩ rfl rfl ⟨by simp [arrP, ND.ndim, Ex.arr2], .inl rfl⟩ rfl
    ⟨by simp [arrP, ND.ndim, Ex.arr2], rfl, by simp, by simp [StrictlyIncreasing]⟩ (by norm_num) (by norm_num) rfl
  exact ⟨out, _, e⟩

theorem exV_ok : ∃ out ts, Ex.m3.transformVectors stepSquad 1 arrP (.byObj 2) argsP = .ok (returned false out ts) := by
  have h1 := exM_lt (k := 1) (by norm_num)
  have h2 := exM_lt (k := 2) (by norm_num)
  obtain ⟨out, e, -⟩ := C15_vectors_timed stepSquad stepSquad_law Ex.reachM h1 h2 ex_pathAll_moving ex_route_moving arrP argsP (p := 1) (q := 0)
    ⟨by simp [arrP, ND.ndim, Ex.arr2], .inr (by simp [argsP, arrP, ND.ndim, Ex.arr2])⟩ rfl rfl ⟨by simp [arrP, ND.ndim, Ex.arr2], .inl rfl⟩ rfl
    ⟨by simp [arrP, ND.ndim, Ex.arr2], rfl, by simp, by simp [StrictlyIncreasing]⟩ (by norm_num) (by norm_num) (.inl rfl)
  exact ⟨out, _, e⟩

theorem exQ_ok : ∃ out ts, Ex.m3.transformQuaternions stepSquad 1 arrQ (.byObj 2) argsP = .ok (returned false out ts) := by
  have h1 := exM_lt (k := 1) (by norm_num)
  have h2 := exM_lt (k := 2) (by norm_num)
  obtain ⟨out, e, -⟩ := C16_orientations_timed stepSquad stepSquad_law Ex.reachM h1 h2 ex_pathAll_moving ex_route_moving arrQ argsP (p := 1) (q := 0)
    ⟨by simp [arrQ, ND.ndim, Ex.arr2], .inr (by simp [argsP, arrQ, ND.ndim, Ex.arr2])⟩ rfl rfl ⟨by simp [arrQ, ND.ndim, Ex.arr2], .inl rfl⟩ rfl
    ⟨by simp [arrQ, ND.ndim, Ex.arr2], rfl, by simp, by simp [StrictlyIncreasing]⟩ (by norm_num) (by norm_num)
    (.inl ⟨by simp [arrQ, ND.ndim, Ex.arr2], fun i hi => arrQ_unit i hi 0⟩)
  exact ⟨out, _, e⟩

/-- A missing coordinate in the last point, and a missing position in the recording. -/
example : ∃ out ts ret, Ex.m3.transformPoints stepSquad 1 arrP (.byObj 2) argsP = .ok (returned false out ts) ∧
    Ex.m3.transformPointsAllGaps stepSquadGaps gapsM 1 (holeAt [2, 0] arrP) (.byObj 2) argsP = .ok ret ∧ FitsRet ret (returned false out ts) := by
  obtain ⟨out, ts, e⟩ := exP_ok
  obtain ⟨ret, h1, h2⟩ := C101_points stepSquadGaps_law Ex.reachM (exM_lt (by norm_num)) (exM_lt (by norm_num)) completesM ex_pathAll_moving (fits_hole [2, 0] arrP) arrP_resamples e
  exact ⟨out, ts, ret, e, h1, h2⟩

example : ∃ out ts ret, Ex.m3.transformVectors stepSquad 1 arrP (.byObj 2) argsP = .ok (returned false out ts) ∧
    Ex.m3.transformVectorsAllGaps stepSquadGaps gapsM 1 (holeAt [2, 0] arrP) (.byObj 2) argsP = .ok ret ∧ FitsRet ret (returned false out ts) := by
  obtain ⟨out, ts, e⟩ := exV_ok
  obtain ⟨ret, h1, h2⟩ := C101_vectors stepSquadGaps_law Ex.reachM (exM_lt (by norm_num)) (exM_lt (by norm_num)) completesM ex_pathAll_moving (fits_hole [2, 0] arrP) arrP_resamples e
  exact ⟨out, ts, ret, e, h1, h2⟩

example : ∃ out ts ret, Ex.m3.transformQuaternions stepSquad 1 arrQ (.byObj 2) argsP = .ok (returned false out ts) ∧
    Ex.m3.transformQuaternionsAllGaps stepSquadGaps gapsM 1 (holeAt [2, 0] arrQ) (.byObj 2) argsP = .ok ret ∧ FitsRet ret (returned false out ts) := by
  obtain ⟨out, ts, e⟩ := exQ_ok
  obtain ⟨ret, h1, h2⟩ := C101_quaternions stepSquadGaps_law Ex.reachM (exM_lt (by norm_num)) (exM_lt (by norm_num)) completesM ex_pathAll_moving (fits_hole [2, 0] arrQ) arrQ_resamples e
  exact ⟨out, ts, ret, e, h1, h2⟩

/-- The recordings of the example tree, complete. -/
def fullM : ℕ → Option GapData := fun i =>
  if i = 2 then some ⟨some (.many [gv 0 0 0, gv 0 0 0], .many [some ⟨1, 0, 0, 0⟩, some ⟨0, 0, 0, 1⟩]), some [1, 2], true⟩
  else if i = 1 then some ⟨some (.many [gv 0 0 0, gv 1 0 0, gv 4 0 0], .many [some 1, some 1, some 1]), some [0, 1, 2], false⟩
  else if i = 0 then some ⟨none, none, false⟩ else none

theorem completesFull : CompletesTree Ex.m3 fullM Ex.m3 := by
  refine ⟨⟨Ex.m3.data, rfl⟩, fun i => ?_⟩
  rw [Ex.m3_eq]
  simp only [fullM]
  have hq : ∀ q : Quat, FitsQ (some q) q := fun q x hx => by cases hx; rfl
  split_ifs with h1 h2 h3
  · refine .inr ⟨_, _, rfl, rfl, .some (.many (.cons ?_ (.cons ?_ .nil))) (.many (.cons (hq _) (.cons (hq _) .nil)))⟩
    · intro k x hx; cases hx; fin_cases k <;> rfl
    · intro k x hx; cases hx; fin_cases k <;> rfl
  · refine .inr ⟨_, _, rfl, rfl, .some (.many (.cons ?_ (.cons (fits_gv _ _ _) (.cons (fits_gv _ _ _) .nil))))
      (.many (.cons (hq _) (.cons (hq _) (.cons (hq _) .nil))))⟩
    intro k x hx; cases hx; fin_cases k <;> rfl
  · exact .inr ⟨_, _, rfl, rfl, .none⟩
  · exact .inl ⟨rfl, rfl⟩

theorem fullM_complete : ∀ i ∈ [1, 2], ∀ g, fullM i = some g → CompleteData g := by
  have hgv : ∀ x y z, Complete (gv x y z) := fun x y z k h => by cases h
  intro i hi g hg
  simp only [List.mem_cons, List.not_mem_nil, or_false] at hi
  rcases hi with rfl | rfl
  · simp only [fullM] at hg
    cases hg
    exact .many (by simp [hgv]) (by simp)
  · simp only [fullM] at hg
    cases hg
    exact .many (by simp [hgv]) (by simp)

/-- The array `v` without missing entries. -/
def noHole (v : ND ℝ) : ND (Option ℝ) := ⟨v.shape, fun idx => some (v.get idx)⟩

theorem fits_noHole (v : ND ℝ) : FitsArr (noHole v) v := ⟨rfl, fun _ _ _ hx => Option.some.inj hx⟩

theorem noHole_full (v : ND ℝ) : NoGaps (noHole v) := fun _ _ h => by cases h

example : (∃ ret, Ex.m3.transformPointsAllGaps stepSquadGaps fullM 1 (noHole arrP) (.byObj 2) argsP = .ok ret ∧ NoGaps (PyRetGaps.array ret)) ∧
    (∃ ret, Ex.m3.transformVectorsAllGaps stepSquadGaps fullM 1 (noHole arrP) (.byObj 2) argsP = .ok ret ∧ NoGaps (PyRetGaps.array ret)) ∧
    ∃ ret, Ex.m3.transformQuaternionsAllGaps stepSquadGaps fullM 1 (noHole arrQ) (.byObj 2) argsP = .ok ret ∧ NoGaps (PyRetGaps.array ret) := by
  obtain ⟨o1, t1, e1⟩ := exP_ok
  obtain ⟨o2, t2, e2⟩ := exV_ok
  obtain ⟨o3, t3, e3⟩ := exQ_ok
  have h1 := exM_lt (k := 1) (by norm_num)
  have h2 := exM_lt (k := 2) (by norm_num)
  obtain ⟨r1, f1, -, g1⟩ := C101_points_complete stepSquadGaps_law Ex.reachM h1 h2 completesFull ex_route_moving ex_pathAll_moving fullM_complete (fits_noHole _) (noHole_full _) arrP_resamples e1
  obtain ⟨r2, f2, -, g2⟩ := C101_vectors_complete stepSquadGaps_law Ex.reachM h1 h2 completesFull ex_route_moving ex_pathAll_moving fullM_complete (fits_noHole _) (noHole_full _) arrP_resamples e2
  obtain ⟨r3, f3, -, g3⟩ := C101_quaternions_complete stepSquadGaps_law Ex.reachM h1 h2 completesFull ex_route_moving ex_pathAll_moving fullM_complete (fits_noHole _) (noHole_full _) arrQ_resamples e3
  exact ⟨⟨r1, f1, g1⟩, ⟨r2, f2, g2⟩, r3, f3, g3⟩

/-- A frame on the route without a pose. -/
example : (∃ e, Ex.m3.lookupTransformGaps stepSquadGaps (fun _ => none) 1 (.byObj 2) = .error e) ∧
    ∃ e, Ex.m3.transformPointsAllGaps stepSquadGaps (fun _ => none) 1 (noHole arrP) (.byObj 2) argsP = .error e :=
  ⟨C98_no_pose Ex.reachM (exM_lt (by norm_num)) (exM_lt (by norm_num)) ex_route_moving (i := 1) (by simp) (fun _ h => by cases h),
    (C101_no_pose Ex.reachM (exM_lt (by norm_num)) (exM_lt (by norm_num)) ex_route_moving (i := 1) (by simp) (fun _ h => by cases h) _ _).2.1⟩

end RBM.Props
