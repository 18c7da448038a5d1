import Verif.Props.LookupExamples
import Verif.Props.VelocityTop
import Verif.Props.RoundingArrays
import Verif.Props.Locality
import Verif.Props.MoreExamples

/-!
Concrete cases for theorems of C36, C56, C57, C66, C82 and C86.
-/

namespace RBM.Props

open RBM RBM.Spec

/-- `C66_linear`: the turning frame moves with 2 m/s along x. -/
example : ∃ d, topLookupLinear Ex.extR Ex.v3 (.byName "v") none none {} true = .ok (.da d) ∧
    RecordedVelocity d "linear_velocity" "m/s" [0, 1, 3] (some "v") (some "world") (some "world") := by
  obtain ⟨h, hr⟩ := Ex.reachV
  have hst : outStamps Ex.v3 [] [0, 1, 3] = [0, 1, 3] := outStamps_nil (by simp [StrictlyIncreasing])
  obtain ⟨out, o1, o2, o3⟩ := C36_lookup_uniform (reference := some (.byObj 0)) (representIn := some (.byObj 0)) Ex.extR_squad Ex.extR_filt exXr hr exV_lt.2.1 exV_lt.1 exV_lt.1
    (resolveOr_obj 0) (resolveOr_obj 0) exV_path.1 pathAll_self route_self exV_lookup { allowStatic := false, returnTimestamps := true } rfl (by simp) (by rw [hst]; simp)
    (fun τ hτ A hA => (exV_poses τ hτ A hA).1)
  rw [hst] at o1 o2
  obtain ⟨d, d1, _, d2, _⟩ := C66_linear exV_velocityOf {} o1 o2
  refine ⟨d, d1, ?_⟩
  rw [Ex.v3_eq] at d2
  exact d2

/-- `C36_timestamps_false`: a labelled array, its timestamps refused. -/
example : estimateLinearVelocity Ex.ext exXr (.da exTimed) (some "cartesian_axis") none .no none none none = .error .attributeError :=
  (C36_timestamps_false Ex.ext exXr exTimed_ok.ok exTimed_ok.space none "quaternion" none none).1

/-- `C56_no_coordinate`: positions without time coordinate. -/
example : ∃ t, maybeUnpack (.da ⟨Ex.arr2 3 [[1, 2, 3], [4, 5, 6]], ⟨[], ["time", "cartesian_axis"], none, []⟩⟩) (some "cartesian_axis") none none (.name "time") =
      .ok ⟨Ex.arr2 3 [[1, 2, 3], [4, 5, 6]], 1, some "cartesian_axis", some 0, some "time", .arr t, some ⟨[], ["time", "cartesian_axis"], none, []⟩⟩ ∧
    t.shape = [2] ∧ ∀ i : ℕ, t.get [i] = i := by
  have hd : DArr.Ok ⟨Ex.arr2 3 [[1, 2, 3], [4, 5, 6]], ⟨[], ["time", "cartesian_axis"], none, []⟩⟩ :=
    ⟨rfl, by simp, by simp, by simp, by simp, by simp [dictGet]⟩
  exact (C56_no_coordinate hd (p := 1) (q := 0) rfl rfl (by decide) none).1 rfl

/-- `C86_not_interpolated`: the discrete frame. -/
example (τ : ℝ) (P : Pose) : RoundedPoseOf exFl Ex.holdSquad Ex.m3 τ 2 P ↔ PoseOf Ex.holdSquad Ex.m3 τ 2 P :=
  C86_not_interpolated (by rw [Ex.m3_eq]; simp [stampsOf, Ex.dataD])

/-- `C82_velocities`: the registry does not matter. -/
example (ext : Ext) (o : VelArgs) : (runOps Ex.s4 [.clear]).lookupTwist ext 2 (some (.byObj 3)) (some (.byObj 3)) o =
    Ex.s4.lookupTwist ext 2 (some (.byObj 3)) (some (.byObj 3)) o := by
  have hr : ∃ h, Reachable (runOps Ex.s4 [.clear]) h := ⟨_, Reachable.step .clear Ex.reach4 trivial⟩
  obtain ⟨h, hr⟩ := hr
  refine (C82_velocities Ex.reach4 hr (by decide) (by decide) (by decide) (by decide) (by decide) (by decide) ?_ ?_ ?_ ext o).1
  · exact ⟨[2, 1], [3], by decide, fun i _ => ⟨rfl, rfl⟩⟩
  · exact ⟨[2, 1], [3], by decide, fun i _ => ⟨rfl, rfl⟩⟩
  · exact ⟨[], [], by decide, by simp⟩

/-- `C86_orientations`: three orientations of the example, recorded at -1, 0 and 1, in the moving frame. -/
example : ∃ out, Ex.m3.transformQuaternionsFl exFl Ex.holdSquad 1 exTimedQ.data (.byObj 2) { timestamps := some (ofList [-1, 0, 1]) } =
      .ok (returned false out (some [0, 1])) ∧ out.shape = [2, 4] := by
  obtain ⟨out, e1, e2, -⟩ := C86_orientations exFl_mono Ex.holdSquad Ex.holdSquad_law Ex.reachM (exM_lt (by norm_num)) (exM_lt (by norm_num))
    exFl_path ex_route_moving exTimedQ.data { timestamps := some (ofList [-1, 0, 1]) } (p := 1) (q := 0) (ta := 0) (ats := [-1, 0, 1])
    ⟨by simp [ND.ndim, exTimedQ, Ex.arr2], .inr (by simp [ND.ndim, exTimedQ, Ex.arr2])⟩ rfl rfl ⟨by simp [ND.ndim, exTimedQ, Ex.arr2], .inl rfl⟩ rfl
    ⟨by simp [ND.ndim, exTimedQ, Ex.arr2], rfl, by simp, by simp [StrictlyIncreasing]⟩ exFl_array (by norm_num) (by norm_num)
    (.inl ⟨rfl, by
      intro i hi
      simp only [List.length_cons, List.length_nil] at hi
      interval_cases i <;> simp [IsUnitQ, nsq, quat4, Ex.arr2, exTimedQ]⟩)
  rw [ex_outStamps] at e1 e2
  exact ⟨out, e1, e2⟩

/-- `C57_plain_velocity`: the velocity of `v`, moving frame changed to `p`, by the top level function. -/
example : ∃ out, topLinearVelocity Ex.extR exXr Ex.v3 (.nd (ND.ofVecs (.many (([0, 1, 3] : List ℝ).map fun τ => rot (Ex.rz τ)⁻¹ ![2, 0, 0])))) (.byName "p")
      "moving_frame" none none { outof := some (.byName "v"), timestamps := .arr (ND.vec1 [0, 1, 3]), returnTimestamps := some true } none none =
    .ok (.withTs out (some [0, 1, 3])) := by
  obtain ⟨out, o1, -⟩ := exV_moving
  exact ⟨out, ((C57_plain_velocity (x := exXr) (ND.ofVecs (.many (([0, 1, 3] : List ℝ).map fun τ => rot (Ex.rz τ)⁻¹ ![2, 0, 0]))) (by decide)
    (into := .byName "p") (outof := .byName "v") (movingFrame := none) (referenceFrame := none) "moving_frame" (a := 1) (b := 2)
    (by rw [Ex.v3_eq]; simp [State.resolve, dictGet, List.lookup]) (by rw [Ex.v3_eq]; simp [State.resolve, dictGet, List.lookup]) none none (ND.vec1 [0, 1, 3])).2.2.1
    out (some [0, 1, 3]) o1).2⟩

end RBM.Props
