import Verif.Props.ExamplesVelocity
import Verif.Props.LookupVelocity
import Verif.Props.VelocityExamples

/-!
C66: concrete cases, and the wrong labels of `lookup_transform`.
-/

namespace RBM.Props

open RBM.Spec

theorem exS_lookup (sq : SquadFn) : Ex.s4.lookupTransform sq 1 (.byObj 0) =
    .ok (.one (⟨![1, 2, 3], ⟨0, 0, 0, 1⟩⟩ : Pose).t, .one (⟨![1, 2, 3], ⟨0, 0, 0, 1⟩⟩ : Pose).r, none) := by
  have hpar : Ex.s4.parent 1 = some 0 := by rw [Ex.s4_eq]; simp
  have hd : Ex.s4.data 1 = some ⟨some (.one ![1, 2, 3], .one ⟨0, 0, 0, 1⟩), none, false⟩ := by rw [Ex.s4_eq]; simp
  have := lookup_static sq Ex.reach4.wf (a := 1) (b := 0) (c := 0) (la := [1]) (lb := []) (Pa := [⟨![1, 2, 3], ⟨0, 0, 0, 1⟩⟩]) (Pb := [])
    (by rw [Ex.s4_eq]; norm_num) (by rw [Ex.s4_eq]; norm_num) ⟨.single hpar, .refl, fun d _ h => h⟩ (.up (by decide) hpar .here) .here
    (.cons ⟨⟨false, hd⟩, Spec.IsUnitQ.ne_zero (by simp [IsUnitQ, nsq])⟩ .nil) .nil
  rw [this]
  have e : (chain []).inv.comp (chain [⟨![1, 2, 3], ⟨0, 0, 0, 1⟩⟩]) = ⟨![1, 2, 3], ⟨0, 0, 0, 1⟩⟩ := by
    simp only [chain, Pose.id, Pose.inv, Pose.comp, inv_one, rot_one, neg_zero, zero_add, add_zero]
    congr 1
    exact (one_mul (M := Quat) _).trans (one_mul (M := Quat) _)
  rw [e]

theorem exS_path : PathAll Ex.s4 1 0 (FrameOk true Ex.s4) := by
  have hpar : Ex.s4.parent 1 = some 0 := by rw [Ex.s4_eq]; simp
  refine ⟨0, [1], [], ⟨.single hpar, .refl, fun d _ h => h⟩, .up (by decide) hpar .here, .here, ?_⟩
  intro i hi
  have : i = 1 := by simpa using hi
  subst this
  simp only [FrameOk, if_true]
  exact ⟨⟨some (.one ![1, 2, 3], .one ⟨0, 0, 0, 1⟩), none, false⟩, by rw [Ex.s4_eq]; simp, .static (by simp [IsUnitQ, nsq])⟩

theorem exS_resolve (n : String) (k : ℕ) (h : Ex.s4.reg.lookup n = some k) : Ex.s4.resolve (.byName n) = .ok k := by
  simp [State.resolve, dictGet, h]

/-- The labels of `lookup_transform` are wrong: they say that the translation is given in the frame `outof`, but it is given in `into`; moving it from its
labelled frame into `into` changes it. -/
theorem C66_transform_labels_is_false : ¬ ∀ (sq : SquadFn), SquadLaw sq → ∀ (x : XrOps), XrLaw x → ∀ (s : State) (h : List Event), Reachable s h →
    ∀ (a b : ℕ) (outof into : FrameRef), a < s.size → b < s.size → PathAll s a b (FrameOk true s) → s.resolve outof = .ok a → s.resolve into = .ok b →
    ∀ (ds : DSet) (tr out : DArr), topLookupTransform sq s outof into true false = .ok (.ds ds) → ds.var "translation" = some tr →
      topPoints sq x s (.da tr) into {} = .ok (.da out) → vec3 out.data 0 [0] = vec3 tr.data 0 [0] := by
  intro hall
  have h1 := exS_resolve "a" 1 (by rw [Ex.s4_eq]; rfl)
  have h2 := exS_resolve "world" 0 (by rw [Ex.s4_eq]; rfl)
  have hlt : 1 < Ex.s4.size ∧ 0 < Ex.s4.size := by rw [Ex.s4_eq]; norm_num
  obtain ⟨ds, tr, out, e1, e2, e3, e4, e5⟩ := C66_transform_twice (x := exXr) Ex.holdSquad_law Ex.reach4 h1 h2 hlt.1 hlt.2 exS_path
    (n := "a") (by rw [Ex.s4_eq]; rfl) h1 (exS_lookup _)
  have := hall _ Ex.holdSquad_law _ exXr_law _ _ Ex.reach4 1 0 (.byName "a") (.byName "world") hlt.1 hlt.2 exS_path h1 h2 ds tr out e1 e2 e3
  rw [e4, e5] at this
  have hq : (⟨0, 0, 0, 1⟩ : Quat) ≠ 0 := Spec.IsUnitQ.ne_zero (by simp [IsUnitQ, nsq])
  have e : rot (⟨0, 0, 0, 1⟩ : Quat) ![1, 2, 3] = 0 := add_eq_right.mp this
  have e' := rot_inv_rot _ hq ![1, 2, 3]
  rw [e, rot_zero] at e'
  have := congrFun e' 0
  simp at this

/-- Non-vacuous: the pose of `m` in `world`, transformed into `d`. -/
example : ∃ ds pos ori pos' ori', topLookupPose Ex.holdSquad Ex.m3 (.byName "m") (.byName "world") true false = .ok (.ds ds) ∧
      ds.var "position" = some pos ∧ ds.var "orientation" = some ori ∧
      topPoints Ex.holdSquad exXr Ex.m3 (.da pos) (.byName "d") { dim := some "cartesian_axis", timestamps := .name "time" } = .ok (.da pos') ∧
      topQuaternions Ex.holdSquad exXr Ex.m3 (.da ori) (.byName "d") { dim := some "quaternion_axis", timestamps := .name "time" } = .ok (.da ori') ∧
      ∀ τ P, PoseSampleAt pos'.data ori'.data (some (outStamps Ex.m3 [2] [0, 1, 2])) τ P → IsTransformAt Ex.holdSquad Ex.m3 1 2 τ P := by
  have hp1 : Ex.m3.parent 1 = some 0 := by rw [Ex.m3_eq]; simp
  have hlt : 1 < Ex.m3.size ∧ 0 < Ex.m3.size ∧ 2 < Ex.m3.size := by rw [Ex.m3_eq]; norm_num
  have hp : PathAll Ex.m3 1 0 (FrameOk true Ex.m3) := by
    refine ⟨0, [1], [], ⟨.single hp1, .refl, fun d _ h => h⟩, .up (by decide) hp1 .here, .here, ?_⟩
    intro i hi
    have : i = 1 := by simpa using hi
    subst this
    simp only [FrameOk, if_true]
    exact ⟨Ex.dataM, by rw [Ex.m3_eq]; simp, Ex.goodM⟩
  have h1 := ex_resolve "m" 1 (by rw [Ex.m3_eq]; rfl)
  have h2 := ex_resolve "world" 0 (by rw [Ex.m3_eq]; rfl)
  have h3 := ex_resolve "d" 2 (by rw [Ex.m3_eq]; rfl)
  obtain ⟨ds, pos, ori, ts, e1, e2, e3, e4, _, e6, _, _, _, _, e9, e10⟩ := C66_pose Ex.holdSquad_law Ex.reachM h1 h2 hlt.1 hlt.2.1 hp true
  have hl := C25_lookup_samples Ex.holdSquad Ex.holdSquad_law Ex.reachM hp1 (by rw [Ex.m3_eq]; rfl : Ex.m3.data 1 = some Ex.dataM) Ex.goodM
  have hts : ts = some [0, 1, 2] := by
    simp only [topLookupPose, h1, h2, hl, bind, Except.bind, Pure.pure, Except.pure, if_true, Bool.false_eq_true, if_false, Except.ok.injEq, LookupRet.triple.injEq] at e10
    exact e10.2.2.symm
  subst hts
  have e1' : topLookupPose Ex.holdSquad Ex.m3 (.byName "m") (.byName "world") true false = .ok (.ds ds) := e1
  obtain ⟨pos', ori', f1, f2, _, _, _, _, f3⟩ := C66_pose_into Ex.holdSquad_law exXr exXr_law Ex.reachM h1 h2 h3 hlt.1 hlt.2.1 hlt.2.2 hp (pathAll_symm ex_pathAll_d)
    (l := [2]) (route_symm ex_route_d) (n := "world") (by rw [Ex.m3_eq]; rfl) h2 e1' e2 e3 (e4.stamps _ rfl) (by simp)
  exact ⟨ds, pos, ori, pos', ori', e1', e2, e3, f1, f2, f3⟩

/-- Non-vacuous: the velocity of the frame `u` in its parent (2 m/s along x), transformed into `u`, which is rotated by 180° about z. -/
example : ∃ d d', topLookupLinear Ex.ext Ex.u2 (.byName "u") none none {} true = .ok (.da d) ∧
      topVectors Ex.ext.squad exXr Ex.u2 (.da d) (.byName "u") { dim := some "cartesian_axis", timestamps := .name "time" } = .ok (.da d') ∧
      RecordedVelocity d "linear_velocity" "m/s" [0, 1, 3] (some "u") (some "world") (some "world") := by
  obtain ⟨h, hr⟩ := Ex.reachU
  have hlt : (1 : ℕ) < Ex.u2.size ∧ (0 : ℕ) < Ex.u2.size := by rw [Ex.u2_eq]; norm_num
  have r1 : Ex.u2.resolve (.byName "u") = .ok 1 := by rw [Ex.u2_eq]; rfl
  have r0 : Ex.u2.resolve (.byName "world") = .ok 0 := by rw [Ex.u2_eq]; rfl
  have hf : VelocityOf Ex.u2 (.byName "u") none none 1 0 0 :=
    ⟨r1, .inr ⟨fun ⟨f, hf, _⟩ => by simp at hf, by rw [Ex.u2_eq]; simp⟩, .inr ⟨fun ⟨f, hf, _⟩ => by simp at hf, rfl⟩⟩
  obtain ⟨hinc, _, _, _⟩ := lookup_rows Ex.ext_squad hr hlt.1 hlt.2 Ex.pathU.1 exU_lookup
  obtain ⟨v, v1, v2, v3⟩ := C36_exact (ext := Ex.ext) Ex.ext_filt exXr (ND.ofVecs (.many [![0, 0, 0], ![2, 0, 0], ![6, 0, 0]])) (axis := none) (ta := none) (pa := 1) (p := 0)
    (ts := [0, 1, 3]) ⟨by simp [ND.ofVecs, ND.ndim], .inr (by simp [ND.ofVecs, ND.ndim, orDefault])⟩ ⟨by simp [ND.ofVecs, ND.ndim], .inl rfl⟩ (by decide)
    ⟨by simp [ND.ofVecs, ND.ndim], rfl, by simp, hinc⟩ none (by simp)
  have hfin : AllFinite v := by
    intro idx hv
    rw [v2] at hv
    match idx, hv with
    | [k, j], hv' =>
      have hj : j < 3 := hv'.2.1
      have hk : k < 3 := hv'.1
      rw [(v3 [k, j] hv').1 0 (if j = 0 then 2 else 0) ?_]
      · simp
      · intro i τ hi
        have hi3 : i < 3 := (List.getElem?_eq_some_iff.mp hi).1
        interval_cases i <;> simp at hi <;> subst hi <;> interval_cases j <;> simp [ND.ofVecs, Fin.ofNat] <;> norm_num
  obtain ⟨d, d', e1, e2, e3, _⟩ := C66_linear_into (ext := Ex.ext) Ex.ext_squad exXr_law hr hf hlt.1 hlt.2 hlt.2 Ex.pathU.1 pathAll_self route_self exU_lookup {} v1 hfin
    (by rw [exU_stamps]; simp) (n := "world") (by rw [Ex.u2_eq]; rfl) r0 r1 hlt.1 (pathAll_symm Ex.pathU.1) (route_symm Ex.pathU.2.1)
  rw [exU_stamps] at e3
  exact ⟨d, d', e1, e2, by rw [Ex.u2_eq] at e3; exact e3⟩

/-- `C66_transform_partial`: the moving frame `m` in `d`. -/
example : ∃ ds tr ro ts, topLookupTransform Ex.holdSquad Ex.m3 (.byName "m") (.byName "d") true false = .ok (.ds ds) ∧ ds.var "translation" = some tr ∧
    ds.var "rotation" = some ro ∧ ∀ τ P, PoseSampleAt tr.data ro.data ts τ P → IsTransformAt Ex.holdSquad Ex.m3 1 2 τ P := by
  have hlt : 1 < Ex.m3.size ∧ 2 < Ex.m3.size := by rw [Ex.m3_eq]; norm_num
  obtain ⟨ds, tr, ro, ts, e1, e2, e3, _, _, _, _, _, _, _, e4, _⟩ := C66_transform_partial Ex.holdSquad_law Ex.reachM (ex_resolve "m" 1 (by rw [Ex.m3_eq]; rfl))
    (ex_resolve "d" 2 (by rw [Ex.m3_eq]; rfl)) hlt.1 hlt.2 ex_pathAll_moving false
  exact ⟨ds, tr, ro, ts, e1, e2, e3, e4⟩

/-- The reference of a root frame must be given (`C66_root_reference`); static frames have no velocity (`C66_static_velocity`). -/
example (ext : Ext) : topLookupTwist ext Ex.s4 (.byName "world") none none {} true = .error .typeError :=
  (C66_root_reference (a := 0) (exS_resolve "world" 0 (by rw [Ex.s4_eq]; rfl)) (by rw [Ex.s4_eq]; simp) (fun ⟨f, hf, _⟩ => by simp at hf) {} true).1

example (ext : Ext) : topLookupLinear ext Ex.s4 (.byName "a") none none {} true = .error .valueError :=
  (C66_static_velocity (a := 1) (ref := 0) (rep := 0) ⟨exS_resolve "a" 1 (by rw [Ex.s4_eq]; rfl), .inr ⟨fun ⟨f, hf, _⟩ => by simp at hf, by rw [Ex.s4_eq]; simp⟩,
    .inr ⟨fun ⟨f, hf, _⟩ => by simp at hf, rfl⟩⟩ {} true (exS_lookup _)).1

theorem exV_velocityOf : VelocityOf Ex.v3 (.byName "v") none none 1 0 0 :=
  ⟨by rw [Ex.v3_eq]; simp [State.resolve, dictGet, List.lookup], .inr ⟨fun ⟨f, hf, _⟩ => by simp at hf, exV_facts.1⟩, .inr ⟨fun ⟨f, hf, _⟩ => by simp at hf, rfl⟩⟩

/-- A failing lookup passes through (`C66_velocity_errors`). -/
example (x : XrOps) (asDS : Bool) : topLookupLinear Ex.extR Ex.v3 (.byName "v") none none { outlier := some 1 } asDS = .error .nonfinite :=
  (C66_velocity_errors (ext := Ex.extR) exV_velocityOf { outlier := some 1 } asDS .nonfinite).1
    (exV_nan x (by rfl) (by rfl) _ rfl rfl)

/-- `C66_angular` and `C66_twist` for the turning frame: 2 m/s along x, 1 rad/s about z. -/
example : ∃ d, topLookupAngular Ex.extR Ex.v3 (.byName "v") none none {} true = .ok (.da d) ∧
    RecordedVelocity d "angular_velocity" "rad/s" [0, 1, 3] (some "v") (some "world") (some "world") := by
  obtain ⟨h, hr⟩ := Ex.reachV
  obtain ⟨out, o1, o2, o3⟩ := C37_lookup_exact (reference := some (.byObj 0)) (representIn := some (.byObj 0)) Ex.extR_squad exXr hr exV_lt.2.1 exV_lt.1 (resolveOr_obj 0) (resolveOr_obj 0) exV_path.1 exV_lookup exV_acc (by simp) true false
    Ex.rz_unit (fun τ hτ A hA => (exV_poses τ hτ A hA).2) Ex.rz_deriv
  obtain ⟨d, d1, _, d2, _⟩ := C66_angular exV_velocityOf {} o1 o2
  refine ⟨d, d1, ?_⟩
  rw [Ex.v3_eq] at d2
  exact d2

example : ∃ ds dl da, topLookupTwist Ex.extR Ex.v3 (.byName "v") none none {} true = .ok (.ds ds) ∧ ds.var "linear_velocity" = some dl ∧
    ds.var "angular_velocity" = some da ∧ (∀ τ v, SampleAt dl.data (some [0, 1, 3]) τ v → v = ![2, 0, 0]) ∧
    ∀ τ w, SampleAt da.data (some [0, 1, 3]) τ w → w = ![0, 0, 1] := by
  obtain ⟨h, hr⟩ := Ex.reachV
  obtain ⟨lin, ang, o1, o2, o3, o4, o5⟩ := C38_twist_exact Ex.extR_squad Ex.extR_filt exXr hr exV_lt.2.1 exV_lt.1 exV_path.1 exV_lookup exV_acc (by simp) true false
    Ex.rz_unit exV_poses Ex.rz_deriv
  obtain ⟨ds, dl, da, e1, e2, e3, e4, e5, _⟩ := C66_twist exV_velocityOf {} o1 o2.1 o3.1
  refine ⟨ds, dl, da, e1, e2, e3, ?_, ?_⟩
  · rw [e4]; exact o4
  · rw [e5]; exact fun τ w hw => space_unique (Ex.rz_unit τ).ne_zero (o5 τ w hw) (Ex.rz_rate τ).1

end RBM.Props
