import Verif.Lemmas.Example3
import Verif.Props.LinearTransform
import Verif.Props.Frames
import Verif.Props.TopLevel

/-!
C34 for the velocity lookups; concrete cases for C36 - C38.
-/

namespace RBM.Props

open RBM.Spec

/-! ### C34 -/

section

variable {ext : Ext} {s : State} {a ref rep : ℕ} {reference representIn : Option FrameRef}

/-- Along static paths the velocity lookups with `allow_static=True` always return the timestamps (`None`) too, also
with `return_timestamps=False`. -/
theorem C34_static_lookups (h1 : s.resolveOr a reference = .ok ref) (h2 : s.resolveOr a representIn = .ok rep)
    {t : Arr Vec} {r : Arr Quat} (he : s.lookupTransform ext.squad a (.byObj ref) = .ok (t, r, none)) (o : VelArgs) (hs : o.allowStatic = true) :
    s.lookupAngularVelocity ext a reference representIn o = .ok (.withTs zeros3 none) ∧
    s.lookupLinearVelocity ext a reference representIn o = .ok (.withTs zeros3 none) ∧
    s.lookupTwist ext a reference representIn o = .ok (.triple zeros3 zeros3 none) := by
  obtain ⟨x, y, z⟩ := lookup_static_zero (ext := ext) h1 h2 he o
  rw [x, y, z]
  simp [hs]

/-- Hence `return_timestamps=False` does not mean that only the array is returned. -/
theorem C34_lookups_is_false : ∃ (s : State) (h : List Event) (a : ℕ), Reachable s h ∧ ∀ ext : Ext,
    s.lookupLinearVelocity ext a none none { allowStatic := true, returnTimestamps := false } = .ok (.withTs zeros3 none) ∧
    s.lookupAngularVelocity ext a none none { allowStatic := true, returnTimestamps := false } = .ok (.withTs zeros3 none) ∧
    s.lookupTwist ext a none none { allowStatic := true, returnTimestamps := false } = .ok (.triple zeros3 zeros3 none) := by
  refine ⟨Ex.s4, Ex.h4, 1, Ex.reach4, fun ext => ?_⟩
  have hres : Ex.s4.resolveOr 1 none = .ok 0 := by rw [Ex.s4_eq]; simp [State.resolveOr]
  have hpar : Ex.s4.parent 1 = some 0 := by rw [Ex.s4_eq]; simp
  have hd : Ex.s4.data 1 = some ⟨some (.one ![1, 2, 3], .one ⟨0, 0, 0, 1⟩), none, false⟩ := by rw [Ex.s4_eq]; simp
  have hl : ∃ t r, Ex.s4.lookupTransform ext.squad 1 (.byObj 0) = .ok (t, r, none) := by
    have := lookup_static ext.squad Ex.reach4.wf (a := 1) (b := 0) (c := 0) (la := [1]) (lb := []) (Pa := [⟨![1, 2, 3], ⟨0, 0, 0, 1⟩⟩]) (Pb := [])
      (by rw [Ex.s4_eq]; norm_num) (by rw [Ex.s4_eq]; norm_num) ⟨.single hpar, .refl, fun d _ h => h⟩ (.up (by decide) hpar .here) .here
      (.cons ⟨⟨false, hd⟩, Spec.IsUnitQ.ne_zero (by simp [IsUnitQ, nsq])⟩ .nil) .nil
    exact ⟨_, _, this⟩
  obtain ⟨t, r, hl⟩ := hl
  obtain ⟨x, y, z⟩ := C34_static_lookups (ext := ext) hres hres hl { allowStatic := true, returnTimestamps := false } rfl
  exact ⟨y, x, z⟩

/-- Along moving paths the flag is respected: there is one outcome (an error, or an array with timestamps) that does not depend on it. -/
theorem C34_moving_lookups_partial {t : Arr Vec} {r : Arr Quat} {ts : List ℝ} (h1 : s.resolveOr a reference = .ok ref)
    (he : s.lookupTransform ext.squad a (.byObj ref) = .ok (t, r, some ts)) (o : VelArgs) :
    (∃ x : Res (ND ℝ × Option (List ℝ)), ∀ rt, s.lookupLinearVelocity ext a reference representIn { o with returnTimestamps := rt } =
      x.map fun p => returned rt p.1 p.2) ∧
    (∃ x : Res (ND ℝ × Option (List ℝ)), ∀ rt, s.lookupAngularVelocity ext a reference representIn { o with returnTimestamps := rt } =
      x.map fun p => returned rt p.1 p.2) ∧
    (∃ x : Res (ND ℝ × ND ℝ × Option (List ℝ)), ∀ rt, s.lookupTwist ext a reference representIn { o with returnTimestamps := rt } =
      x.map fun p => if rt then .triple p.1 p.2.1 p.2.2 else .pair p.1 p.2.1) := by
  cases h2 : s.resolveOr a representIn with
  | error e =>
    refine ⟨⟨.error e, fun rt => ?_⟩, ⟨.error e, fun rt => ?_⟩, ⟨.error e, fun rt => ?_⟩⟩
    · simp only [State.lookupLinearVelocity, bind, Except.bind, h1, h2]; rfl
    · simp only [State.lookupAngularVelocity, bind, Except.bind, h1, h2]; rfl
    · simp only [State.lookupTwist, bind, Except.bind, h1, h2]; rfl
  | ok rep =>
    have hl' : ∀ rt, linearRows ext t ts { o with returnTimestamps := rt } = linearRows ext t ts o := fun _ => rfl
    have ha' : ∀ rt, angularRows ext r ts { o with returnTimestamps := rt } = angularRows ext r ts o := fun _ => rfl
    have ha'' : ∀ rt, angularRows ext r ts { o with returnTimestamps := rt, outlier := none } = angularRows ext r ts { o with outlier := none } := fun _ => rfl
    refine ⟨⟨(linearRows ext t ts o).bind fun L => s.vectorsWithTs ext.squad ref L rep { timestamps := stampArg (some ts) }, fun rt => ?_⟩,
      ⟨(angularRows ext r ts o).bind fun L => s.vectorsWithTs ext.squad a L rep { timestamps := stampArg (some ts) }, fun rt => ?_⟩,
      ⟨(linearRows ext t ts o).bind fun L => (angularRows ext r ts { o with outlier := none }).bind fun N =>
        (s.vectorsWithTs ext.squad ref L rep { timestamps := stampArg (some ts) }).bind fun L' =>
        (s.vectorsWithTs ext.squad a N rep { timestamps := stampArg (some ts) }).bind fun N' =>
        (matchArrays ext.squad [⟨N'.1, N'.2⟩, ⟨L'.1, L'.2⟩]).bind fun
          | ([angular, linear], tts) => .ok (linear, angular, tts)
          | _ => .error .valueError, fun rt => ?_⟩⟩
    · simp only [State.lookupLinearVelocity, bind, Except.bind, h1, h2, he, hl', Pure.pure, Except.pure, pyReturn_eq]
      cases linearRows ext t ts o with
      | error e => rfl
      | ok L =>
        simp only
        cases s.vectorsWithTs ext.squad ref L rep { timestamps := stampArg (some ts) } <;> rfl
    · simp only [State.lookupAngularVelocity, bind, Except.bind, h1, h2, he, ha', Pure.pure, Except.pure, pyReturn_eq]
      cases angularRows ext r ts o with
      | error e => rfl
      | ok L =>
        simp only
        cases s.vectorsWithTs ext.squad a L rep { timestamps := stampArg (some ts) } <;> rfl
    · simp only [State.lookupTwist, bind, Except.bind, h1, h2, he, hl', ha'', Pure.pure, Except.pure]
      cases linearRows ext t ts o with
      | error e => rfl
      | ok L =>
        simp only
        cases angularRows ext r ts { o with outlier := none } with
        | error e => rfl
        | ok N =>
          simp only
          cases s.vectorsWithTs ext.squad ref L rep { timestamps := stampArg (some ts) } with
          | error e => rfl
          | ok L' =>
            simp only
            cases s.vectorsWithTs ext.squad a N rep { timestamps := stampArg (some ts) } with
            | error e => rfl
            | ok N' =>
              simp only
              cases matchArrays ext.squad [⟨N'.1, N'.2⟩, ⟨L'.1, L'.2⟩] with
              | error e => rfl
              | ok p =>
                obtain ⟨outs, tts⟩ := p
                rcases outs with _ | ⟨x, _ | ⟨y, _ | _⟩⟩ <;> first | rfl | (cases rt <;> rfl)

end

/-! ### Concrete cases -/

theorem exU_lookup : Ex.u2.lookupTransform Ex.ext.squad 1 (.byObj 0) =
    .ok (.many [![0, 0, 0], ![2, 0, 0], ![6, 0, 0]], .many [⟨0, 0, 0, 1⟩, ⟨0, 0, 0, 1⟩, ⟨0, 0, 0, 1⟩], some [0, 1, 3]) := by
  obtain ⟨h, hr⟩ := Ex.reachU
  exact C25_lookup_samples _ Ex.ext_squad hr (by rw [Ex.u2_eq]; simp) (by rw [Ex.u2_eq]; simp [Ex.dataU]) Ex.goodU

theorem exU_poses : ∀ τ ∈ ([0, 1, 3] : List ℝ), ∀ A, IsTransformAt Ex.ext.squad Ex.u2 1 0 τ A → A.t = 0 + τ • ![2, 0, 0] ∧ A.r = ⟨0, 0, 0, 1⟩ := by
  obtain ⟨h, hr⟩ := Ex.reachU
  intro τ hτ A hA
  have hlt : (1 : ℕ) < Ex.u2.size ∧ (0 : ℕ) < Ex.u2.size := by rw [Ex.u2_eq]; norm_num
  obtain ⟨_, _, _, hrow⟩ := lookup_rows Ex.ext_squad hr hlt.1 hlt.2 Ex.pathU.1 exU_lookup
  have key : ∀ (k : ℕ) (x : ℝ), ([0, 1, 3] : List ℝ)[k]? = some x → τ = x → ∀ t r, ([![0, 0, 0], ![2, 0, 0], ![6, 0, 0]] : List Vec)[k]? = some t →
      ([⟨0, 0, 0, 1⟩, ⟨0, 0, 0, 1⟩, ⟨0, 0, 0, 1⟩] : List Quat)[k]? = some r → A.t = t ∧ A.r = r := by
    rintro k x hk rfl t r ht hr'
    obtain ⟨B, hB, e1, e2⟩ := hrow k τ hk
    have := isTransformAt_unique hr.wf (fun _ => Ex.ext_squad) Ex.pathU.1 hA hB
    subst this
    rw [ht] at e1; rw [hr'] at e2
    exact ⟨(Option.some.inj e1).symm, (Option.some.inj e2).symm⟩
  simp only [List.mem_cons, List.not_mem_nil, or_false] at hτ
  rcases hτ with e | e | e
  · obtain ⟨a1, a2⟩ := key 0 _ rfl e _ _ rfl rfl
    exact ⟨by rw [a1, e]; ext i; fin_cases i <;> simp, a2⟩
  · obtain ⟨a1, a2⟩ := key 1 _ rfl e _ _ rfl rfl
    exact ⟨by rw [a1, e]; ext i; fin_cases i <;> simp, a2⟩
  · obtain ⟨a1, a2⟩ := key 2 _ rfl e _ _ rfl rfl
    exact ⟨by rw [a1, e]; ext i; fin_cases i <;> simp; norm_num, a2⟩

theorem exU_stamps : outStamps Ex.u2 [] [0, 1, 3] = [0, 1, 3] := outStamps_nil (by simp [StrictlyIncreasing])

theorem exU_stamps' : outStamps Ex.u2 [1] [0, 1, 3] = [0, 1, 3] := by
  refine outStamps_eq_self (by simp [StrictlyIncreasing]) ?_
  intro τ hτ i hi y hy
  simp only [List.mem_singleton] at hi
  subst hi
  have : y = [0, 1, 3] := by
    rw [Ex.u2_eq] at hy
    simpa [stampsOf, Ex.dataU] using hy.symm
  subst this
  exact inRange_mem (by simp [StrictlyIncreasing]) hτ

/-- The frame moves with velocity 2 along x: `lookup_linear_velocity` returns it at every timestamp. -/
example : ∃ out, Ex.u2.lookupLinearVelocity Ex.ext 1 none none { returnTimestamps := true } = .ok (returned true out (some [0, 1, 3])) ∧
    ∀ τ w, SampleAt out (some [0, 1, 3]) τ w → w = ![2, 0, 0] := by
  obtain ⟨h, hr⟩ := Ex.reachU
  have hlt : (1 : ℕ) < Ex.u2.size ∧ (0 : ℕ) < Ex.u2.size := by rw [Ex.u2_eq]; norm_num
  have hres : Ex.u2.resolveOr 1 none = .ok 0 := by rw [Ex.u2_eq]; simp [State.resolveOr]
  obtain ⟨out, o1, o2, o3⟩ := C36_lookup_uniform (ext := Ex.ext) Ex.ext_squad Ex.ext_filt exXr hr hlt.1 hlt.2 hlt.2 hres hres Ex.pathU.1 pathAll_self route_self
    exU_lookup { returnTimestamps := true } rfl (by simp) (by rw [exU_stamps]; simp) (c := 0) (V := ![2, 0, 0]) (fun τ hτ A hA => (exU_poses τ hτ A hA).1)
  rw [exU_stamps] at o1 o2 o3
  refine ⟨out, o1, fun τ w hw => ?_⟩
  obtain ⟨B, hB, e⟩ := o3 τ w hw
  obtain rfl := isTransformAt_self hr.wf hB
  rw [e]
  exact rot_one _

/-- The hypotheses of `C37_chain` hold for this frame (whose orientation is constant) and the angular velocity of a motion in it. -/
example : ∃ out ots, Ex.u2.transformAngularVelocity Ex.ext 1 (Ex.arr1 [0, 0, 0]) (.byObj 0) "reference_frame" { returnTimestamps := true } =
        .ok (returned true out ots) ∧ ots = sharedStamps [some [0, 1, 3], some [0, 1, 3]] ∧
      ∀ τ w, τ ∈ ([0, 1, 3] : List ℝ) → SampleAt out ots τ w → IsSpaceRate (fun _ => (⟨0, 0, 0, 1⟩ : Quat) * (⟨0, 1, 0, 0⟩ : Quat)) τ w := by
  obtain ⟨h, hr⟩ := Ex.reachU
  have hlt : (1 : ℕ) < Ex.u2.size ∧ (0 : ℕ) < Ex.u2.size := by rw [Ex.u2_eq]; norm_num
  have hu : IsUnitQ (⟨0, 0, 0, 1⟩ : Quat) := by simp [IsUnitQ, nsq]
  have hu' : IsUnitQ (⟨0, 1, 0, 0⟩ : Quat) := by simp [IsUnitQ, nsq]
  have h0 : ∀ (c : ℝ) (k : ℕ) (τ : ℝ), ([0, 1, 3] : List ℝ)[k]? = some τ → Ex.ext.deriv [c, c, c] [0, 1, 3] k = 0 := by
    intro c k τ hk
    have := Ex.ext_deriv.affine [0, 1, 3] c 0 k (by simp) (by simp [StrictlyIncreasing]) (List.getElem?_eq_some_iff.mp hk).1
    simpa using this
  obtain ⟨out, ots, o1, o2, _, o3⟩ := C37_chain (ext := Ex.ext) Ex.ext_squad exXr hr hlt.1 hlt.2 Ex.pathU.1 Ex.pathU.2.1 (arr := Ex.arr1 [0, 0, 0]) (ats := none) rfl
    exU_lookup (Ex.ext_deriv.accepts _ (by simp) (by simp [StrictlyIncreasing])) (by simp) (by intro y hy; cases hy; simp) true
    (q := fun _ => ⟨0, 0, 0, 1⟩) (m := fun _ => ⟨0, 1, 0, 0⟩) (fun _ => hu) (fun _ => hu'.ne_zero) (fun τ hτ A hA => (exU_poses τ hτ A hA).2)
    (by
      intro k τ hk
      have : quatDeriv Ex.ext [⟨0, 0, 0, 1⟩, ⟨0, 0, 0, 1⟩, ⟨0, 0, 0, 1⟩] [0, 1, 3] k = 0 := by
        have hz := h0 0 k τ hk
        have h1 := h0 1 k τ hk
        apply Quaternion.ext
        · exact hz
        · exact hz
        · exact hz
        · exact h1
      rw [this]
      exact hasDerivAt_const _ _)
    (by
      intro τ w hw p
      have : w = 0 := by rw [show w = _ from hw]; ext i; fin_cases i <;> rfl
      rw [this]
      have hc : cross 0 (rot (⟨0, 1, 0, 0⟩ : Quat) p) = 0 := by ext i; fin_cases i <;> simp [cross]
      rw [hc]
      exact hasDerivAt_const _ _)
  exact ⟨out, ots, o1, o2, o3⟩

end RBM.Props
