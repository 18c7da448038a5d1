import Verif.Props.GapsAllNear
import Verif.Props.GapsAllExamples

/-!
Examples for C101, near one time: the first sample of the array and the first position of the recording are missing; the result for time 2
is complete.
-/

namespace RBM.Props

open RBM.Spec

noncomputable def arrP4 : ND ℝ := Ex.arr2 3 [[1, 2, 3], [4, 5, 6], [7, 8, 9], [1, 0, 1]]
noncomputable def arrQ4 : ND ℝ := Ex.arr2 4 [[1, 0, 0, 0], [0, 1, 0, 0], [0, 0, 1, 0], [0, 0, 0, 1]]
noncomputable def argsP4 : TArgs := { timestamps := some (ofList [-1, 0, 1, 2]), returnTimestamps := true }

theorem gapsM_near : ∀ i ∈ [1, 2], ∀ g, gapsM i = some g → NoGapsNear 2 g := by
  intro i hi g hg
  have hgv : ∀ x y z, Complete (gv x y z) := fun x y z k h => by cases h
  simp only [List.mem_cons, List.not_mem_nil, or_false] at hi
  rcases hi with rfl | rfl
  · simp only [gapsM] at hg
    cases hg
    refine .continuous (fun k hk g hg => ?_) fun k _ => ?_
    · rcases k with _ | _ | _ | k
      · exact absurd (hk.2.1 1 rfl) (by norm_num)
      · cases hg; exact hgv _ _ _
      · cases hg; exact hgv _ _ _
      · simp at hg
    · rcases k with _ | _ | _ | k <;> simp
  · simp only [gapsM] at hg
    cases hg
    refine .discrete (fun k _ g hg => ?_) fun k _ => ?_
    · rcases k with _ | _ | k
      · cases hg; exact hgv _ _ _
      · cases hg; exact hgv _ _ _
      · simp at hg
    · rcases k with _ | _ | k <;> simp

theorem ex_timedP (v : ND (Option ℝ)) (m : ℕ) (h : v.shape = [4, m]) : TimedFirst v argsP4 [-1, 0, 1, 2] [] m :=
  ⟨by simp [h], ⟨by simp, .inr (by simp [argsP4])⟩, rfl, ⟨0, rfl, by simp, .inl rfl⟩, by simp, by simp [StrictlyIncreasing]; norm_num⟩

theorem ex_out2 : ∃ K : ℕ, (outStamps Ex.m3 [1, 2] [-1, 0, 1, 2])[K]? = some 2 := by
  have hc : [1, 2].filterMap (stampsOf Ex.m3 false) = [[0, 1, 2]] := by rw [Ex.m3_eq]; simp [stampsOf, Ex.dataM, Ex.dataD]
  have hm : ∀ y ∈ ([-1, 0, 1, 2] : List ℝ) :: [1, 2].filterMap (stampsOf Ex.m3 false), InRange y 2 := by
    rw [hc]
    intro y hy
    simp only [List.mem_cons, List.not_mem_nil, or_false] at hy
    rcases hy with rfl | rfl
    · simp [InRange]; norm_num
    · simp [InRange]
  have : (2 : ℝ) ∈ outStamps Ex.m3 [1, 2] [-1, 0, 1, 2] := by
    classical
    simp only [outStamps, commonStamps]
    exact List.mem_filter.mpr ⟨by simp, decide_eq_true hm⟩
  exact List.getElem?_of_mem this

theorem close4 {j n : ℕ} (hn : n = 1 ∨ n = 2) (h : Close [-1, 0, 1, 2] n 2 j) : j ≠ 0 := by
  rintro rfl
  rcases hn with rfl | rfl
  · exact absurd (h.2.1 0 rfl) (by norm_num)
  · exact absurd (h.2.1 1 rfl) (by norm_num)

theorem hole_row {v : ND ℝ} {j : ℕ} (hj : j ≠ 0) (k : ℕ) : (holeAt [0, 0] v).get (j :: ([] ++ [k])) ≠ none := by
  simp [holeAt, hj]

/-- Points. -/
example : ∃ out ts g K, Ex.m3.transformPoints stepSquad 1 arrP4 (.byObj 2) argsP4 = .ok (.withTs out (some ts)) ∧ ts[K]? = some 2 ∧
    Ex.m3.transformPointsAllGaps stepSquadGaps gapsM 1 (holeAt [0, 0] arrP4) (.byObj 2) argsP4 = .ok (.withTs g (some ts)) ∧
    ∀ k < 3, g.get [K, k] = some (out.get [K, k]) := by
  have h1 := exM_lt (k := 1) (by norm_num)
  have h2 := exM_lt (k := 2) (by norm_num)
  obtain ⟨out, e, -⟩ := C15_points_timed stepSquad stepSquad_law Ex.reachM h1 h2 ex_pathAll_moving ex_route_moving arrP4 argsP4 (p := 1) (q := 0)
    ⟨by simp [arrP4, ND.ndim, Ex.arr2], .inr (by simp [argsP4, arrP4, ND.ndim, Ex.arr2])⟩ rfl rfl ⟨by simp [arrP4, ND.ndim, Ex.arr2], .inl rfl⟩ rfl
    ⟨by simp [arrP4, ND.ndim, Ex.arr2], rfl, by simp, by simp [StrictlyIncreasing]; norm_num⟩ (by norm_num) (by norm_num) rfl
  obtain ⟨K, hK⟩ := ex_out2
  obtain ⟨g, e1, e2⟩ := C101_near_points stepSquad_law stepSquadGaps_law Ex.reachM h1 h2 completesM ex_route_moving (by simp) ex_pathAll_moving
    (fits_hole [0, 0] arrP4) (ex_timedP _ 3 rfl) e hK gapsM_near (c := []) trivial fun j hj k _ => hole_row (close4 (.inl rfl) hj) k
  exact ⟨out, _, g, K, e, hK, e1, e2⟩

/-- Vectors. -/
example : ∃ out ts g K, Ex.m3.transformVectors stepSquad 1 arrP4 (.byObj 2) argsP4 = .ok (.withTs out (some ts)) ∧ ts[K]? = some 2 ∧
    Ex.m3.transformVectorsAllGaps stepSquadGaps gapsM 1 (holeAt [0, 0] arrP4) (.byObj 2) argsP4 = .ok (.withTs g (some ts)) ∧
    ∀ k < 3, g.get [K, k] = some (out.get [K, k]) := by
  have h1 := exM_lt (k := 1) (by norm_num)
  have h2 := exM_lt (k := 2) (by norm_num)
  obtain ⟨out, e, -⟩ := C15_vectors_timed stepSquad stepSquad_law Ex.reachM h1 h2 ex_pathAll_moving ex_route_moving arrP4 argsP4 (p := 1) (q := 0)
    ⟨by simp [arrP4, ND.ndim, Ex.arr2], .inr (by simp [argsP4, arrP4, ND.ndim, Ex.arr2])⟩ rfl rfl ⟨by simp [arrP4, ND.ndim, Ex.arr2], .inl rfl⟩ rfl
    ⟨by simp [arrP4, ND.ndim, Ex.arr2], rfl, by simp, by simp [StrictlyIncreasing]; norm_num⟩ (by norm_num) (by norm_num) (.inl rfl)
  obtain ⟨K, hK⟩ := ex_out2
  obtain ⟨g, e1, e2⟩ := C101_near_vectors stepSquad_law stepSquadGaps_law Ex.reachM h1 h2 completesM ex_route_moving (by simp) ex_pathAll_moving
    (fits_hole [0, 0] arrP4) (ex_timedP _ 3 rfl) e hK gapsM_near (c := []) trivial fun j hj k _ => hole_row (close4 (.inl rfl) hj) k
  exact ⟨out, _, g, K, e, hK, e1, e2⟩

theorem arrQ4_unit (i : ℕ) (h : i < 4) : ∀ j, IsUnitQ (quat4 arrQ4 1 [i, j]) := by
  intro j
  rcases i with _ | _ | _ | _ | i
  · simp [quat4, arrQ4, Ex.arr2, IsUnitQ, nsq]
  · simp [quat4, arrQ4, Ex.arr2, IsUnitQ, nsq]
  · simp [quat4, arrQ4, Ex.arr2, IsUnitQ, nsq]
  · simp [quat4, arrQ4, Ex.arr2, IsUnitQ, nsq]
  · omega

/-- Quaternions. -/
example : ∃ out ts g K, Ex.m3.transformQuaternions stepSquad 1 arrQ4 (.byObj 2) argsP4 = .ok (.withTs out (some ts)) ∧ ts[K]? = some 2 ∧
    Ex.m3.transformQuaternionsAllGaps stepSquadGaps gapsM 1 (holeAt [0, 0] arrQ4) (.byObj 2) argsP4 = .ok (.withTs g (some ts)) ∧
    ∀ k < 4, g.get [K, k] = some (out.get [K, k]) := by
  have h1 := exM_lt (k := 1) (by norm_num)
  have h2 := exM_lt (k := 2) (by norm_num)
  obtain ⟨out, e, -⟩ := C16_orientations_timed stepSquad stepSquad_law Ex.reachM h1 h2 ex_pathAll_moving ex_route_moving arrQ4 argsP4 (p := 1) (q := 0)
    ⟨by simp [arrQ4, ND.ndim, Ex.arr2], .inr (by simp [argsP4, arrQ4, ND.ndim, Ex.arr2])⟩ rfl rfl ⟨by simp [arrQ4, ND.ndim, Ex.arr2], .inl rfl⟩ rfl
    ⟨by simp [arrQ4, ND.ndim, Ex.arr2], rfl, by simp, by simp [StrictlyIncreasing]; norm_num⟩ (by norm_num) (by norm_num)
    (.inl ⟨by simp [arrQ4, ND.ndim, Ex.arr2], fun i hi => arrQ4_unit i hi 0⟩)
  obtain ⟨K, hK⟩ := ex_out2
  obtain ⟨g, e1, e2⟩ := C101_near_quaternions stepSquad_law stepSquadGaps_law Ex.reachM h1 h2 completesM ex_route_moving (by simp) ex_pathAll_moving
    (fits_hole [0, 0] arrQ4) (ex_timedP _ 4 rfl) (fun idx hv => by
      have hs : arrQ4.shape = [4, 4] := rfl
      rw [hs] at hv
      match idx, hv with
      | [i, j], hv => exact arrQ4_unit i hv.1 j) e hK gapsM_near (c := []) trivial fun j hj k _ => hole_row (close4 (.inr rfl) hj) k
  exact ⟨out, _, g, K, e, hK, e1, e2⟩

end RBM.Props
