import Verif.Props.StaticArrays
import Verif.Props.LookupTop
import Verif.Props.LookupExamples
import Verif.Lemmas.Example5

/-!
C70 for orientations, and C66 for static poses: a static pose looked up as a dataset, transformed into another frame.
-/

namespace RBM.Props

open RBM.Spec

section

variable {sq : SquadFn} {x : XrOps} {s : State} {h : List Event} {a b : ℕ} {d : DArr} {dim : String} {into : FrameRef} {outof : Option FrameRef}

/-- A single static orientation given as DataArray: transformed between static frames, or to one orientation for every timestamp of the
lookup with a new time dimension. -/
theorem C70_orientation_partial (hsq : SquadLaw sq) (hr : Reachable s h) (hok : DArr.Ok d) (hdims : d.info.dims = [dim]) (hdim : dim ≠ "time")
    (h4 : d.data.shape = [4]) (h1 : SourceFrame s d outof "reference_frame" a) (h2 : s.resolve into = .ok b)
    (ha : a < s.size) (hb : b < s.size) (hp : PathAll s a b (FrameOk true s)) :
    ∃ out t r ts, topQuaternions sq x s (.da d) into { outof := outof } = .ok (.da out) ∧ s.lookupTransform sq a (.byObj b) = .ok (t, r, ts) ∧
      LabelledNewTime d out ts "reference_frame" (s.name b) ∧ out.data.shape = sampleShape 4 ts ∧
      ∀ τ q, QuatSampleAt out.data ts τ q → ∃ A, IsTransformAt sq s a b τ A ∧ q = A.r * quat4 d.data 0 [0] := by
  obtain ⟨c0, la0, lb0, hc0, hla0, hlb0, _⟩ := id hp
  have hl : Route s a b (la0 ++ lb0.reverse) := ⟨c0, la0, lb0, hc0, hla0, hlb0, rfl⟩
  rcases lookup_facts sq hsq hr ha hb hp hl with ⟨A, e, hA, _, hps⟩ | ⟨hm, _⟩
  · obtain ⟨B, out, f1, f2, f3, f4, f5⟩ := C16_orientations_static sq hr ha hb hps d.data ⟨-1, none, none, true⟩ (p := 0)
      ⟨by simp [ND.ndim, h4], .inr (by simp [ND.ndim, h4])⟩ (by simp [h4]) rfl (by intro t ht; cases ht)
    obtain ⟨o, o1, rfl, o3⟩ := top_single x hok hdims hdim h4 h1 h2 (method := fun _ a v dst t => s.transformQuaternions sq a v dst t) f3
      (by rw [f4, h4]; rfl)
    refine ⟨o, _, _, _, o1, f2, o3, by rw [f4, h4]; rfl, fun τ v hv => ⟨B, f1 τ, ?_⟩⟩
    rw [show v = _ from hv]
    exact f5 [0] (by rw [h4]; exact ⟨by omega, trivial⟩)
  · obtain ⟨out, ts, tl, rl, f1, f2, f3, f4⟩ := single_orientation sq hsq hr ha hb hp hl hm d.data _ (.inl ⟨h4, rfl⟩) true none (by intro t ht; cases ht)
    obtain ⟨o, o1, rfl, o3⟩ := top_single x hok hdims hdim h4 h1 h2 (method := fun _ a v dst t => s.transformQuaternions sq a v dst t) f1 f3
    refine ⟨o, _, _, _, o1, f2, o3, f3, ?_⟩
    rintro τ v ⟨k, hk, rfl⟩
    exact f4 k τ hk

end

section

variable {sq : SquadFn} {s : State} {h : List Event} {a b : ℕ}

/-- A static pose looked up as a dataset and transformed into any frame — without naming its source or timestamps — is the pose in that frame: one
pose if nothing moves, and otherwise the pose at every timestamp of the frames on the way. -/
theorem C66_static_pose_into (hsq : SquadLaw sq) (x : XrOps) (hr : Reachable s h) {frame reference into : FrameRef} {c : ℕ}
    (h1 : s.resolve frame = .ok a) (h2 : s.resolve reference = .ok b) (h3 : s.resolve into = .ok c)
    (ha : a < s.size) (hb : b < s.size) (hc : c < s.size) (hp : PathAll s a b (FrameOk true s)) (hp' : PathAll s b c (FrameOk true s))
    {n : String} (hn : s.name b = some n) (hreg : s.resolve (.byName n) = .ok b)
    {t0 : Arr Vec} {r0 : Arr Quat} (hstatic : s.lookupTransform sq a (.byObj b) = .ok (t0, r0, none)) :
    ∃ ds pos ori pos' ori' t r ts, topLookupPose sq s frame reference true false = .ok (.ds ds) ∧
      ds.var "position" = some pos ∧ ds.var "orientation" = some ori ∧
      topPoints sq x s (.da pos) into {} = .ok (.da pos') ∧ topQuaternions sq x s (.da ori) into {} = .ok (.da ori') ∧
      s.lookupTransform sq b (.byObj c) = .ok (t, r, ts) ∧
      LabelledWith pos' (s.name c) ∧ LabelledWith ori' (s.name c) ∧
      LabelledNewTime pos pos' ts "reference_frame" (s.name c) ∧ LabelledNewTime ori ori' ts "reference_frame" (s.name c) ∧
      pos'.data.shape = sampleShape 3 ts ∧ ori'.data.shape = sampleShape 4 ts ∧
      ∀ τ P, PoseSampleAt pos'.data ori'.data ts τ P → IsTransformAt sq s a c τ P := by
  obtain ⟨ds, pos, ori, ts0, e1, e2, e3, e4, e5, -, e7, e8, _, _, e9, e10⟩ := C66_pose hsq hr h1 h2 ha hb hp true
  have e1' : topLookupPose sq s frame reference true false = .ok (.ds ds) := by
    rw [← e1]; simp [topLookupPose]
  have hts : ts0 = none := by
    simp [topLookupPose, h1, h2, hstatic, bind, Except.bind, Pure.pure, Except.pure] at e10
    exact e10.2.2.symm
  subst hts
  have hpc := e9
  obtain ⟨pos', t, r, ts, p1, p2, p3, p4, p5⟩ := C70_point_partial (x := x) hsq hr e4.ok e4.dims (by decide) e4.shape
    (outof := none) (a := b) (b := c) (into := into) (.inr ⟨rfl, n, by rw [← hn]; exact e7.2, hreg⟩) h3 hb hc hp'
  obtain ⟨ori', t', r', ts', q1, q2, q3, q4, q5⟩ := C70_orientation_partial (x := x) hsq hr e5.ok e5.dims (by decide) e5.shape
    (outof := none) (a := b) (b := c) (into := into) (.inr ⟨rfl, n, by rw [← hn]; exact e8.2, hreg⟩) h3 hb hc hp'
  rw [p2] at q2
  obtain ⟨rfl, rfl, rfl⟩ : t = t' ∧ r = r' ∧ ts = ts' := by simpa using q2
  refine ⟨ds, pos, ori, pos', ori', t, r, ts, e1', e2, e3, p1, q1, p2, ⟨p3.repr, p3.frame⟩, ⟨q3.repr, q3.frame⟩, p3, q3, p4, q4, ?_⟩
  intro τ P hP
  have key := e9 τ ⟨vec3 pos.data 0 [0], quat4 ori.data 0 [0]⟩ rfl
  have hv : SampleAt pos'.data ts τ P.t ∧ QuatSampleAt ori'.data ts τ P.r := by
    cases ts with
    | none => subst hP; exact ⟨rfl, rfl⟩
    | some l => obtain ⟨k, hk, rfl⟩ := hP; exact ⟨⟨k, hk, rfl⟩, ⟨k, hk, rfl⟩⟩
  obtain ⟨B, hB, f1⟩ := p5 τ _ hv.1
  obtain ⟨B', hB', f2⟩ := q5 τ _ hv.2
  have := isTransformAt_unique hr.wf (mv := true) (fun _ => hsq) hp' hB hB'
  subst this
  have := (isTransformAt_comp (mv := true) (fun _ => hsq) hr.wf ha hc hp hp' key hB).1
  have hPe : P = B.comp ⟨vec3 pos.data 0 [0], quat4 ori.data 0 [0]⟩ := by
    cases P; simp only at f1 f2; subst f1 f2; rfl
  rw [hPe]
  exact this

end

/-- One orientation in the frame `d`. -/
noncomputable def exOrient : DArr :=
  ⟨Ex.arr1 [0, 0, 0, 1], ⟨[("quaternion_axis", labelCoord "quaternion_axis" ["w", "x", "y", "z"])], ["quaternion_axis"], some "orientation",
    [("reference_frame", some "d"), ("representation_frame", some "d")]⟩⟩

theorem exOrient_ok : DArr.Ok exOrient := by
  refine ⟨rfl, by simp [exOrient], ?_, ?_, by simp [exOrient], ?_⟩
  · simp [exOrient, labelCoord]
  · simp [exOrient, labelCoord, CVals.shape, Ex.arr1]
  · intro k c hc hk
    simp only [exOrient, List.mem_cons, List.not_mem_nil, or_false] at hk
    subst hk
    simp [exOrient, dictGet, List.lookup, labelCoord] at hc
    subst hc
    rfl

/-- Non-vacuous: the orientation in the moving frame `d`, in `world`. -/
example : ∃ out t r ts, topQuaternions Ex.holdSquad exXr Ex.m3 (.da exOrient) (.byName "world") {} = .ok (.da out) ∧
      Ex.m3.lookupTransform Ex.holdSquad 2 (.byObj 0) = .ok (t, r, ts) ∧
      LabelledNewTime exOrient out ts "reference_frame" (Ex.m3.name 0) ∧ out.data.shape = sampleShape 4 ts ∧
      ∀ τ q, QuatSampleAt out.data ts τ q → ∃ A, IsTransformAt Ex.holdSquad Ex.m3 2 0 τ A ∧ q = A.r * quat4 exOrient.data 0 [0] := by
  have r0 : Ex.m3.resolve (.byName "world") = .ok 0 := by rw [Ex.m3_eq]; simp [State.resolve, dictGet, List.lookup]
  have r1 : Ex.m3.resolve (.byName "d") = .ok 2 := by rw [Ex.m3_eq]; simp [State.resolve, dictGet, List.lookup]
  exact C70_orientation_partial Ex.holdSquad_law Ex.reachM exOrient_ok (d := exOrient) (outof := none) rfl (by decide) rfl
    (.inr ⟨rfl, "d", rfl, r1⟩) r0 (by rw [Ex.m3_eq]; norm_num) (by rw [Ex.m3_eq]; norm_num) ex_pathAll_d

theorem exPm_static : PathAll Ex.pm 1 0 (FrameOk true Ex.pm) := by
  have hpar : Ex.pm.parent 1 = some 0 := by rw [Ex.pm_eq]; simp
  refine ⟨0, [1], [], ⟨.single hpar, .refl, fun d _ h => h⟩, .up (by decide) hpar .here, .here, ?_⟩
  intro i hi
  have : i = 1 := by simpa using hi
  subst this
  simp only [FrameOk, if_true]
  exact ⟨⟨some (.one ![1, 2, 3], .one ⟨0, 0, 0, 1⟩), none, false⟩, by rw [Ex.pm_eq]; simp, .static (by simp [IsUnitQ, nsq])⟩

theorem exPm_moving : PathAll Ex.pm 0 3 (FrameOk true Ex.pm) := by
  have hpar : Ex.pm.parent 3 = some 0 := by rw [Ex.pm_eq]; simp
  refine ⟨0, [], [3], ⟨.refl, .single hpar, fun d h _ => h⟩, .here, .up (by decide) hpar .here, ?_⟩
  intro i hi
  have : i = 3 := by simpa using hi
  subst this
  simp only [FrameOk, if_true]
  exact ⟨Ex.dataD, by rw [Ex.pm_eq]; simp, Ex.goodD⟩

/-- Non-vacuous: the static pose of `mount` in `world`, transformed into the moving frame `d`. -/
example : ∃ ds pos ori pos' ori' t r ts, topLookupPose Ex.holdSquad Ex.pm (.byName "mount") (.byName "world") true false = .ok (.ds ds) ∧
      ds.var "position" = some pos ∧ ds.var "orientation" = some ori ∧
      topPoints Ex.holdSquad exXr Ex.pm (.da pos) (.byName "d") {} = .ok (.da pos') ∧
      topQuaternions Ex.holdSquad exXr Ex.pm (.da ori) (.byName "d") {} = .ok (.da ori') ∧
      Ex.pm.lookupTransform Ex.holdSquad 0 (.byObj 3) = .ok (t, r, ts) ∧
      ∀ τ P, PoseSampleAt pos'.data ori'.data ts τ P → IsTransformAt Ex.holdSquad Ex.pm 1 3 τ P := by
  obtain ⟨h, hr⟩ := Ex.reachPm
  have r0 : Ex.pm.resolve (.byName "world") = .ok 0 := by rw [Ex.pm_eq]; simp [State.resolve, dictGet, List.lookup]
  have r1 : Ex.pm.resolve (.byName "mount") = .ok 1 := by rw [Ex.pm_eq]; simp [State.resolve, dictGet, List.lookup]
  have r3 : Ex.pm.resolve (.byName "d") = .ok 3 := by rw [Ex.pm_eq]; simp [State.resolve, dictGet, List.lookup]
  have hpar : Ex.pm.parent 1 = some 0 := by rw [Ex.pm_eq]; simp
  have hd : Ex.pm.data 1 = some ⟨some (.one ![1, 2, 3], .one ⟨0, 0, 0, 1⟩), none, false⟩ := by rw [Ex.pm_eq]; simp
  have hs := lookup_static Ex.holdSquad hr.wf (a := 1) (b := 0) (c := 0) (la := [1]) (lb := []) (Pa := [⟨![1, 2, 3], ⟨0, 0, 0, 1⟩⟩]) (Pb := [])
    (by rw [Ex.pm_eq]; norm_num) (by rw [Ex.pm_eq]; norm_num) ⟨.single hpar, .refl, fun d _ h => h⟩ (.up (by decide) hpar .here) .here
    (.cons ⟨⟨false, hd⟩, Spec.IsUnitQ.ne_zero (by simp [IsUnitQ, nsq])⟩ .nil) .nil
  obtain ⟨ds, pos, ori, pos', ori', t, r, ts, e1, e2, e3, e4, e5, e6, _, _, _, _, _, _, e7⟩ := C66_static_pose_into Ex.holdSquad_law exXr hr r1 r0 r3
    (by rw [Ex.pm_eq]; norm_num) (by rw [Ex.pm_eq]; norm_num) (by rw [Ex.pm_eq]; norm_num) exPm_static exPm_moving (n := "world")
    (by rw [Ex.pm_eq]; simp) r0 hs
  exact ⟨ds, pos, ori, pos', ori', t, r, ts, e1, e2, e3, e4, e5, e6, e7⟩

end RBM.Props
