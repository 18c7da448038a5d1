import Verif.Props.Stacks
import Verif.Props.ExamplesVelocity
import Verif.Props.LookupExamples

/-!
C94: concrete cases. The frame `v` (1) moves and turns in the world frame (0), see `Props/ExamplesVelocity`.
-/

namespace RBM.Props

open RBM.Spec

/-- `m` resting series at three times. -/
def exStack (m : ℕ) : ND ℝ := ⟨[3, m, 3], fun _ => 0⟩

theorem exStack_ok (m : ℕ) : IsStack (exStack m) m [0, 1, 3] := ⟨rfl, by simp, by simp [StrictlyIncreasing]⟩

theorem exV_angular : ∃ ang, Ex.v3.lookupAngularVelocity Ex.extR 1 (some (.byObj 0)) (some (.byObj 0)) { allowStatic := true, returnTimestamps := true } =
    .ok (.withTs ang (some [0, 1, 3])) ∧ IsSeries ang (some [0, 1, 3]) := by
  obtain ⟨h, hr⟩ := Ex.reachV
  obtain ⟨out, o1, o2, _⟩ := C37_lookup_exact Ex.extR_squad exXr hr exV_lt.2.1 exV_lt.1 (resolveOr_obj 0) (resolveOr_obj 0) exV_path.1 exV_lookup exV_acc (by simp) true true
    Ex.rz_unit (fun τ hτ A hA => (exV_poses τ hτ A hA).2) Ex.rz_deriv
  exact ⟨out, o1, o2⟩

/-- Two series in the turning frame: each can be transformed, but the stack of both raises `ValueError` (`C94_reference_frame_partial`). -/
theorem C94_angular_is_false : ∃ (ext : Ext) (s : State) (h : List Event) (a b : ℕ) (v : ND ℝ) (ats : List ℝ), SquadLaw ext.squad ∧ Reachable s h ∧ IsStack v 2 ats ∧
    s.transformAngularVelocity ext a v (.byObj b) "reference_frame" { timestamps := stampArg (some ats), returnTimestamps := true } none = .error .valueError ∧
    (∀ j < 2, ∃ w, s.transformAngularVelocity ext a (column v j) (.byObj b) "reference_frame" { timestamps := stampArg (some ats), returnTimestamps := true } none =
      .ok (.withTs w (some ats))) ∧
    ¬ ColumnWise (fun x => s.transformAngularVelocity ext a x (.byObj b) "reference_frame" { timestamps := stampArg (some ats), returnTimestamps := true } none) v 2 := by
  obtain ⟨h, hr⟩ := Ex.reachV
  obtain ⟨ang, a1, a2⟩ := exV_angular
  have hst := exV_stamps [1] (by simp)
  have hsh : sharedStamps [some (outStamps Ex.v3 [1] [0, 1, 3]), some [0, 1, 3]] = some [0, 1, 3] := by
    rw [hst]; exact sharedStamps_all (by simp [StrictlyIncreasing]) (by simp) (by simp)
  have hk := (C94_reference_frame_partial Ex.extR_squad hr exV_lt.2.1 exV_lt.1 exV_path.1 exV_path.2 (exStack_ok 2) (by rw [hst]; simp) a1 a2 hsh true).1 (by simp) (by simp)
  refine ⟨Ex.extR, Ex.v3, h, 1, 0, exStack 2, [0, 1, 3], Ex.extR_squad, hr, exStack_ok 2, hk, fun j _ => ?_, ?_⟩
  · have hst' : ∀ lts, arrayStamps Ex.v3 [1] lts (some [0, 1, 3]) = some [0, 1, 3] := by
      intro lts; simp only [arrayStamps]; rw [hst]
    obtain ⟨out, ots, o1, o2, _⟩ := C37_reference_frame Ex.extR_squad hr exV_lt.2.1 exV_lt.1 exV_path.1 exV_path.2 (column_series (exStack_ok 2) j) exV_lookup
      (by rw [hst']; intro y hy; cases hy; simp) a1 a2 true
    rw [hst', sharedStamps_all (by simp [StrictlyIncreasing] : StrictlyIncreasing [0, 1, 3]) (by simp) (by simp)] at o2
    subst o2
    exact ⟨out, o1⟩
  · rintro ⟨out, ots, e, _⟩
    have e' := hk.symm.trans e
    cases e'

theorem rot_rz (θ : ℝ) (x y : ℝ) : rot (Ex.rz θ) ![x, y, 0] = ![Real.cos θ * x - Real.sin θ * y, Real.sin θ * x + Real.cos θ * y, 0] := by
  have hsc := Real.sin_sq_add_cos_sq (θ / 2)
  have h1 : Real.cos θ = Real.cos (θ / 2) ^ 2 - Real.sin (θ / 2) ^ 2 := by
    rw [show θ = 2 * (θ / 2) by ring, Real.cos_two_mul']; ring_nf
  have h2 : Real.sin θ = 2 * Real.sin (θ / 2) * Real.cos (θ / 2) := by
    rw [show θ = 2 * (θ / 2) by ring, Real.sin_two_mul]; ring_nf
  have r : (Ex.rz θ).re = Real.cos (θ / 2) ∧ (Ex.rz θ).imI = 0 ∧ (Ex.rz θ).imJ = 0 ∧ (Ex.rz θ).imK = Real.sin (θ / 2) := ⟨rfl, rfl, rfl, rfl⟩
  have z : (Spec.pure ![x, y, 0]).re = 0 ∧ (Spec.pure ![x, y, 0]).imI = x ∧ (Spec.pure ![x, y, 0]).imJ = y ∧ (Spec.pure ![x, y, 0]).imK = 0 :=
    ⟨rfl, rfl, rfl, rfl⟩
  rw [rot_unit (Ex.rz_unit θ), h1, h2]
  generalize Spec.pure ![x, y, 0] = zq at z
  ext i
  fin_cases i
  · simp [imVec, r, z]; ring
  · simp [imVec, r, z]; ring
  · simp [imVec, r, z]

/-- Three resting series in the frame that moves and turns: they are equal, so their transforms are equal, but the transform of the stack, which succeeds, has
different columns (`C94_linear_reference_frame_partial`). -/
theorem C94_linear_is_false : ∃ (ext : Ext) (s : State) (h : List Event) (a b : ℕ) (v : ND ℝ) (ats : List ℝ) (mf : FrameRef) (out : ND ℝ), SquadLaw ext.squad ∧ Reachable s h ∧
    IsStack v 3 ats ∧ column v 0 = column v 1 ∧
    s.transformLinearVelocity ext a v (.byObj b) "reference_frame" (some mf) none { timestamps := stampArg (some ats), returnTimestamps := true } none none =
      .ok (.withTs out (some ats)) ∧ cell out 0 0 ≠ cell out 0 1 ∧
    ¬ ColumnWise (fun x => s.transformLinearVelocity ext a x (.byObj b) "reference_frame" (some mf) none { timestamps := stampArg (some ats), returnTimestamps := true } none none) v 3 := by
  obtain ⟨h, hr⟩ := Ex.reachV
  have hst := exV_stamps [1] (by simp)
  have hst' : ∀ lts, arrayStamps Ex.v3 [1] lts (some [0, 1, 3]) = some [0, 1, 3] := by
    intro lts; simp only [arrayStamps]; rw [hst]
  obtain ⟨lin, ang, o1, o2, o3, o4, o5⟩ := C38_twist_exact Ex.extR_squad Ex.extR_filt exXr hr exV_lt.2.1 exV_lt.1 exV_path.1 exV_lookup exV_acc (by simp) true true
    Ex.rz_unit exV_poses Ex.rz_deriv
  have hsh : sharedStamps [some (outStamps Ex.v3 [1] [0, 1, 3]), some [0, 1, 3], some [0, 1, 3], arrayStamps Ex.v3 [1] (some [0, 1, 3]) (some [0, 1, 3])] = some [0, 1, 3] := by
    rw [hst, hst']; exact sharedStamps_all (by simp [StrictlyIncreasing]) (by simp) (by simp)
  have key := C94_linear_reference_frame_partial Ex.extR_squad hr exV_lt.2.1 exV_lt.1 exV_lt.2.2 exV_path.1 exP_path.1 exV_path.2 (exStack_ok 3) exV_lookup exP_lookup
    (by rw [hst', hst]; rintro y (hy | hy | hy) <;> cases hy <;> simp) o1 o2 o3 (mref := .byName "p")
    (by rw [Ex.v3_eq]; simp [State.resolve, dictGet, List.lookup]) none hsh true
  obtain ⟨out, lever, e1, e2, e3, e4, e5⟩ := key.2 (.inr (.inl (by simp)))
  have hval : ∀ (j : ℕ) (τ : ℝ), ([0, 1, 3] : List ℝ)[j]? = some τ →
      cell out 0 j = ![2, 0, 0] + cross ![0, 0, 1] (rot (Ex.rz τ) ![1, τ, 0]) := by
    intro j τ hj
    have hτ := List.mem_of_getElem? hj
    have hjl := (List.getElem?_eq_some_iff.mp hj).1
    obtain ⟨A, u, ω, d, hA, hu, hω, hd, e⟩ := e5 0 j 0 0 τ rfl rfl (by simpa using hjl) (by simpa using hj)
    have hu' := o4 τ u (valueAt_sample o2 hu fun y hy => by cases hy; exact hτ)
    have hω' := space_unique (Ex.rz_unit τ).ne_zero (o5 τ ω (valueAt_sample o3 hω fun y hy => by cases hy; exact hτ)) (Ex.rz_rate τ).1
    obtain ⟨B, C, hB, hC, hd'⟩ := e4 τ d (valueAt_sample e3 hd fun y hy => by rw [hst'] at hy; cases hy; exact hτ)
    rw [(exV_poses τ hτ B hB).2, (exP_poses τ hτ C hC).1] at hd'
    rw [e, hu', hω', hd']
    have hc : cell (exStack 3) 0 (if 3 = 1 then 0 else j) = 0 := rfl
    rw [hc, rot_zero, zero_add]
    congr 3
    ext i; fin_cases i <;> simp
  have hne : cell out 0 0 ≠ cell out 0 1 := by
    rw [hval 0 0 rfl, hval 1 1 rfl, rot_rz, rot_rz]
    intro hc
    have := congrFun hc 0
    simp [cross] at this
    have h1 := Real.sin_pos_of_pos_of_lt_pi (x := 1) one_pos (by have := Real.pi_gt_three; linarith)
    have h2 := Real.cos_pos_of_le_one (x := 1) (by norm_num)
    linarith
  refine ⟨Ex.extR, Ex.v3, h, 1, 0, exStack 3, [0, 1, 3], .byName "p", out, Ex.extR_squad, hr, exStack_ok 3, rfl, e1, hne, ?_⟩
  rintro ⟨out', ots, f, _, g⟩
  have f' := e1.symm.trans f
  simp only [returned, if_true, Except.ok.injEq, PyRet.withTs.injEq] at f'
  obtain ⟨rfl, hots⟩ := f'
  cases hots
  obtain ⟨w, w1, _, w3⟩ := g 0 (by norm_num)
  obtain ⟨w', w1', _, w3'⟩ := g 1 (by norm_num)
  have hww : w = w' := by
    have : (Except.ok (.withTs w (some [0, 1, 3])) : Res PyRet) = .ok (.withTs w' (some [0, 1, 3])) := w1.symm.trans w1'
    simp only [Except.ok.injEq, PyRet.withTs.injEq] at this
    exact this.1
  subst hww
  apply hne
  ext c
  exact (w3 0 c (by simp) c.isLt).trans (w3' 0 c (by simp) c.isLt).symm

/-- A stack in the turning frame, rotated only (`C94_vectors`). -/
example : ColumnWise (fun x => Ex.v3.transformVectors Ex.extR.squad 1 x (.byObj 0) { timestamps := stampArg (some [0, 1, 3]), returnTimestamps := true }) (exStack 2) 2 := by
  obtain ⟨h, hr⟩ := Ex.reachV
  exact (C94_vectors Ex.extR_squad hr exV_lt.2.1 exV_lt.1 exV_path.1 exV_path.2 (exStack_ok 2)).1

/-! Static frames: the frame `a` (1) in the world frame (0) of `Ex.s4`. -/

theorem exS_static : PathAll Ex.s4 1 0 (FrameOk false Ex.s4) := by
  have hpar : Ex.s4.parent 1 = some 0 := by rw [Ex.s4_eq]; simp
  refine ⟨0, [1], [], ⟨.single hpar, .refl, fun d _ h => h⟩, .up (by decide) hpar .here, .here, ?_⟩
  intro i hi
  have : i = 1 := by simpa using hi
  subst this
  have hd : Ex.s4.data 1 = some ⟨some (.one ![1, 2, 3], .one ⟨0, 0, 0, 1⟩), none, false⟩ := by rw [Ex.s4_eq]; simp
  exact ⟨⟨![1, 2, 3], ⟨0, 0, 0, 1⟩⟩, ⟨false, hd⟩, Spec.IsUnitQ.ne_zero (by simp [IsUnitQ, nsq])⟩

theorem exS_route : Route Ex.s4 1 0 [1] := by
  have hpar : Ex.s4.parent 1 = some 0 := by rw [Ex.s4_eq]; simp
  exact ⟨0, [1], [], ⟨.single hpar, .refl, fun d _ h => h⟩, .up (by decide) hpar .here, .here, rfl⟩

theorem exS_lt : 0 < Ex.s4.size ∧ 1 < Ex.s4.size := by rw [Ex.s4_eq]; norm_num

theorem exS_out : outStamps Ex.s4 [1] [0, 1, 3] = [0, 1, 3] := by
  refine outStamps_eq_self (by simp [StrictlyIncreasing]) ?_
  intro τ _ i hi y hy
  have : i = 1 := by simpa using hi
  subst this
  have hd : Ex.s4.data 1 = some ⟨some (.one ![1, 2, 3], .one ⟨0, 0, 0, 1⟩), none, false⟩ := by rw [Ex.s4_eq]; simp
  simp [stampsOf, hd] at hy

theorem exS_back : ∃ A : Pose, Ex.s4.lookupTransform Ex.ext.squad 0 (.byObj 1) = .ok (.one A.t, .one A.r, none) := by
  obtain ⟨A, _, _, _, _, _, _, e⟩ := core_static Ex.ext.squad Ex.reach4.wf exS_lt.1 exS_lt.2 (pathAll_symm exS_static) zeros3
  exact ⟨A, e⟩

/-- Without timestamps, arrays of any shape can be transformed between static frames (`C94_static`). -/
example : ∃ out out', Ex.s4.transformAngularVelocity Ex.ext 1 (⟨[2, 5, 3], fun i => (i.getD 1 0 : ℝ)⟩ : ND ℝ) (.byObj 0) "reference_frame"
      { returnTimestamps := true } none = .ok (.withTs out none) ∧
    Ex.s4.transformLinearVelocity Ex.ext 1 (⟨[2, 5, 3], fun i => (i.getD 1 0 : ℝ)⟩ : ND ℝ) (.byObj 0) "reference_frame" (some (.byName "world")) none
      { returnTimestamps := true } none none = .ok (.withTs out' none) ∧ out.shape = [2, 5, 3] ∧ out'.shape = [2, 5, 3] := by
  obtain ⟨A, out, _, h2, h3, h4, _⟩ := C94_static (ext := Ex.ext) Ex.reach4 exS_lt.2 exS_lt.1 exS_static (v := ⟨[2, 5, 3], fun i => (i.getD 1 0 : ℝ)⟩) (sh := [2, 5]) rfl true
    (some 0) (fun t ht => by cases ht; exact ⟨by decide, .inl rfl⟩) none none
  obtain ⟨out', k1, k2, _⟩ := h3 none (exS_resolve "world" 0 (by rw [Ex.s4_eq]; rfl)) exS_lt.1 (pathAll_symm exS_static)
  exact ⟨out, out', h2, k1, h4, k2⟩

/-- With timestamps the stack is refused even between static frames, where nothing has to be added (`C94_moving_frame_partial`,
`C94_linear_moving_frame_partial`). -/
theorem C94_static_timestamps_is_false : ∃ (ext : Ext) (s : State) (h : List Event) (a b : ℕ) (v : ND ℝ) (ats : List ℝ), SquadLaw ext.squad ∧ Reachable s h ∧
    PathAll s a b (FrameOk false s) ∧ IsStack v 2 ats ∧
    s.transformAngularVelocity ext a v (.byObj b) "moving_frame" { timestamps := stampArg (some ats), returnTimestamps := true } none = .error .valueError ∧
    s.transformLinearVelocity ext a v (.byObj b) "moving_frame" none none { timestamps := stampArg (some ats), returnTimestamps := true } none none =
      .error .valueError := by
  obtain ⟨A, hA⟩ := exS_back
  have hz := lookup_static_zero (ext := Ex.ext) (resolveOr_obj (s := Ex.s4) (a := 0) 1) (resolveOr_obj 0) hA { allowStatic := true, returnTimestamps := true }
  have hpar : Ex.s4.parent 1 = some 0 := by rw [Ex.s4_eq]; simp
  have hz' := lookup_static_zero (ext := Ex.ext) (s := Ex.s4) (a := 1) (reference := none) (representIn := some (.byObj 0)) (by simp [State.resolveOr, hpar]) (resolveOr_obj 0)
    (exS_lookup _) { allowStatic := true, returnTimestamps := true }
  simp only [if_true] at hz hz'
  have hsh : ∀ l : List (Option (List ℝ)), (∀ x ∈ l, x = none) → sharedStamps (some (outStamps Ex.s4 [1] [0, 1, 3]) :: l) = some [0, 1, 3] := by
    intro l hl
    rw [exS_out]
    refine sharedStamps_all (by simp [StrictlyIncreasing]) ?_ (by simp)
    intro x hx
    rcases List.mem_cons.mp hx with rfl | hx
    · exact .inr rfl
    · exact .inl (hl x hx)
  refine ⟨Ex.ext, Ex.s4, _, 1, 0, exStack 2, [0, 1, 3], Ex.ext_squad, Ex.reach4, exS_static, exStack_ok 2, ?_, ?_⟩
  · exact (C94_moving_frame_partial Ex.ext_squad Ex.reach4 exS_lt.2 exS_lt.1 exS_path exS_route (exStack_ok 2) (by rw [exS_out]; simp) hz.1 rfl
      (hsh [none] (by simp)) true).1 (by simp) (by simp)
  · exact (C94_linear_moving_frame_partial Ex.ext_squad Ex.reach4 exS_lt.2 exS_lt.1 exS_path (pathAll_symm exS_path) exS_route (exStack_ok 2) (exS_lookup _) hA
      (by rw [exS_out]; rintro y (hy | hy | hy) <;> cases hy; simp) hz.2.1 hz'.1 rfl rfl none (hsh [none, none, none] (by simp)) true).1 (by simp) (by simp) (by simp)

end RBM.Props
