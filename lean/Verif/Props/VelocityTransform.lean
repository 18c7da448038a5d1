import Verif.Lemmas.VelMatch
import Verif.Props.VelocityLookup

/-!
C37, C38: `transform_angular_velocity`, `transform_linear_velocity`.
-/

namespace RBM.Props

open RBM.Spec

/-- The timestamps of a transformed array: its own ones in the ranges of the continuous frames of the route, or those of
the lookup if it has none. -/
noncomputable def arrayStamps (s : State) (l : List ℕ) (lts : Option (List ℝ)) : Option (List ℝ) → Option (List ℝ)
  | none => lts
  | some y => some (outStamps s l y)

section

variable {ext : Ext} {s : State} {h : List Event} {a b : ℕ} {l : List ℕ}

theorem mem_sharedStamps {y ots : List ℝ} {r : List (Option (List ℝ))} (h : sharedStamps (some y :: r) = some ots) {τ : ℝ}
    (hτ : τ ∈ ots) : τ ∈ y := by
  simp only [sharedStamps, List.filterMap_cons_some (show id (some y) = some y from rfl), Option.some.injEq] at h
  subst h
  exact (List.mem_filter.mp hτ).1

theorem sharedStamps_none {x : Option (List ℝ)} {r : List (Option (List ℝ))} (h : sharedStamps (x :: r) = none) : x = none := by
  cases x with
  | none => rfl
  | some y => simp [sharedStamps] at h

/-- The transformed array (first argument of the matching) at a matched time. -/
theorem first_sample {s' : State} {arr' : ND ℝ} {ats' ots : Option (List ℝ)} (hs : IsSeries arr' ats') {r : List (Option (List ℝ))}
    (ho : ots = sharedStamps (ats' :: r)) {c : ND ℝ} {τ : ℝ} {w u : Vec} (hw : SampleAt c ots τ w) (hv : ValueAt arr' ats' τ u) :
    SampleAt arr' ats' τ u := by
  refine valueAt_sample hs hv fun y hy => ?_
  subst hy
  cases ots with
  | none => exact absurd (sharedStamps_none ho.symm) (by simp)
  | some z =>
    obtain ⟨k, hk, _⟩ := hw
    exact mem_sharedStamps ho.symm (List.mem_of_getElem? hk)

theorem addAngular_spec (hsq : SquadLaw ext.squad) (hr : Reachable s h) (ha : a < s.size) (hb : b < s.size)
    (hp : PathAll s a b (FrameOk true s)) (hl : Route s a b l) {arr : ND ℝ} {ats : Option (List ℝ)} (hs : IsSeries arr ats)
    {t : Arr Vec} {r : Arr Quat} {lts : Option (List ℝ)} (he : s.lookupTransform ext.squad a (.byObj b) = .ok (t, r, lts))
    (h2 : ∀ y, arrayStamps s l lts ats = some y → 2 ≤ y.length) {ang : ND ℝ} {angTs : Option (List ℝ)} (hang : IsSeries ang angTs) (rt : Bool) :
    ∃ out ots, s.addAngular ext a arr (.byObj b) { timestamps := stampArg ats, returnTimestamps := rt } ang angTs = .ok (returned rt out ots) ∧
      ots = sharedStamps [arrayStamps s l lts ats, angTs] ∧ out.shape = seriesShape ots ∧
      ∀ τ w, SampleAt out ots τ w → ∃ A w0 ω, IsTransformAt ext.squad s a b τ A ∧ SampleAt arr ats τ w0 ∧ ValueAt ang angTs τ ω ∧
        w = rot A.r w0 + ω := by
  obtain ⟨arr', ats', f1, f2, f3, f4, f5⟩ := transform_series ext.squad hsq hr ha hb hp hl hs
    (fun y hy => h2 _ (by rw [hy]; rfl)) (fun hn t' r' ts' h' => by
      rw [he] at h'
      simp only [Except.ok.injEq, Prod.mk.injEq] at h'
      exact h2 _ (by rw [hn]; exact h'.2.2)) true
  have hats : ats' = arrayStamps s l lts ats := by
    cases ats with
    | some y => exact f4 y rfl
    | none =>
      obtain ⟨t', r', h'⟩ := f5 rfl
      rw [he] at h'
      simp only [Except.ok.injEq, Prod.mk.injEq] at h'
      exact h'.2.2.symm
  obtain ⟨outs, ots, o1, o2, o3⟩ := matchArrays_values ext.squad (l := [⟨arr', ats'⟩, ⟨ang, angTs⟩]) (by simp [f2, hang])
  simp only [List.map_cons, List.map_nil] at o2
  rcases o3 with _ | ⟨⟨hX, vX⟩, _ | ⟨⟨hY, vY⟩, _ | _⟩⟩
  obtain ⟨c, c1, c2, c3⟩ := iadd_series hX hY
  refine ⟨c, ots, ?_, by rw [o2, hats], c2, ?_⟩
  · simp only [State.addAngular, f1, returned, if_true, unpackPair, bind, Except.bind, o1, c1, Pure.pure, Except.pure]
    rw [pyReturn_eq]; rfl
  · intro τ w hw
    obtain ⟨u, v, hu, hv, e⟩ := c3 τ w hw
    have hu' := first_sample (s' := s) f2 o2 hw (vX τ u hu)
    obtain ⟨A, w0, hA, hw0, e'⟩ := f3 τ u hu'
    exact ⟨A, w0, v, hA, hw0, vY τ v hv, by rw [e, e']⟩

/-- `what="reference_frame"`: every sample is the rotated angular velocity plus the angular velocity of the frame wrt
the new reference frame, expressed in the new reference frame, as given by `lookup_angular_velocity` (see `C37_lookup`). -/
theorem C37_reference_frame (hsq : SquadLaw ext.squad) (hr : Reachable s h) (ha : a < s.size) (hb : b < s.size)
    (hp : PathAll s a b (FrameOk true s)) (hl : Route s a b l) {arr : ND ℝ} {ats : Option (List ℝ)} (hs : IsSeries arr ats)
    {t : Arr Vec} {r : Arr Quat} {lts : Option (List ℝ)} (he : s.lookupTransform ext.squad a (.byObj b) = .ok (t, r, lts))
    (h2 : ∀ y, arrayStamps s l lts ats = some y → 2 ≤ y.length) {cutoff : Option ℝ} {ang : ND ℝ} {angTs : Option (List ℝ)}
    (hlook : s.lookupAngularVelocity ext a (some (.byObj b)) (some (.byObj b)) { cutoff := cutoff, allowStatic := true, returnTimestamps := true } =
      .ok (.withTs ang angTs)) (hang : IsSeries ang angTs) (rt : Bool) :
    ∃ out ots, s.transformAngularVelocity ext a arr (.byObj b) "reference_frame" { timestamps := stampArg ats, returnTimestamps := rt } cutoff =
        .ok (returned rt out ots) ∧
      ots = sharedStamps [arrayStamps s l lts ats, angTs] ∧ out.shape = seriesShape ots ∧
      ∀ τ w, SampleAt out ots τ w → ∃ A w0 ω, IsTransformAt ext.squad s a b τ A ∧ SampleAt arr ats τ w0 ∧ ValueAt ang angTs τ ω ∧
        w = rot A.r w0 + ω := by
  obtain ⟨out, ots, o1, o2⟩ := addAngular_spec hsq hr ha hb hp hl hs he h2 hang rt
  refine ⟨out, ots, ?_, o2⟩
  simp only [State.transformAngularVelocity, if_true, bind, Except.bind, hlook, unpackPair]
  exact o1

/-- `what="moving_frame"`: every sample is the rotated angular velocity plus the angular velocity of the new moving frame
wrt the old one, expressed in the new one. -/
theorem C37_moving_frame (hsq : SquadLaw ext.squad) (hr : Reachable s h) (ha : a < s.size) (hb : b < s.size)
    (hp : PathAll s a b (FrameOk true s)) (hl : Route s a b l) {arr : ND ℝ} {ats : Option (List ℝ)} (hs : IsSeries arr ats)
    {t : Arr Vec} {r : Arr Quat} {lts : Option (List ℝ)} (he : s.lookupTransform ext.squad a (.byObj b) = .ok (t, r, lts))
    (h2 : ∀ y, arrayStamps s l lts ats = some y → 2 ≤ y.length) {cutoff : Option ℝ} {ang : ND ℝ} {angTs : Option (List ℝ)}
    (hlook : s.lookupAngularVelocity ext b (some (.byObj a)) (some (.byObj b)) { cutoff := cutoff, allowStatic := true, returnTimestamps := true } =
      .ok (.withTs ang angTs)) (hang : IsSeries ang angTs) (rt : Bool) :
    ∃ out ots, s.transformAngularVelocity ext a arr (.byObj b) "moving_frame" { timestamps := stampArg ats, returnTimestamps := rt } cutoff =
        .ok (returned rt out ots) ∧
      ots = sharedStamps [arrayStamps s l lts ats, angTs] ∧ out.shape = seriesShape ots ∧
      ∀ τ w, SampleAt out ots τ w → ∃ A w0 ω, IsTransformAt ext.squad s a b τ A ∧ SampleAt arr ats τ w0 ∧ ValueAt ang angTs τ ω ∧
        w = rot A.r w0 + ω := by
  obtain ⟨out, ots, o1, o2⟩ := addAngular_spec hsq hr ha hb hp hl hs he h2 hang rt
  refine ⟨out, ots, ?_, o2⟩
  have hres : s.resolve (.byObj b) = .ok b := rfl
  simp only [State.transformAngularVelocity, if_neg (show "moving_frame" ≠ "reference_frame" by decide), if_true, bind, Except.bind, hres, hlook, unpackPair]
  exact o1

/-- `what="representation_frame"` is `transform_vectors`, any other value is refused. -/
theorem C37_representation_frame (arr : ND ℝ) (dst : FrameRef) (o : TArgs) (cutoff : Option ℝ) :
    s.transformAngularVelocity ext a arr dst "representation_frame" o cutoff = s.transformVectors ext.squad a arr dst o ∧
    ∀ what, what ≠ "reference_frame" → what ≠ "moving_frame" → what ≠ "representation_frame" →
      s.transformAngularVelocity ext a arr dst what o cutoff = .error .valueError := by
  constructor
  · simp [State.transformAngularVelocity]
  · intro what h1 h2 h3
    simp [State.transformAngularVelocity, h1, h2, h3]

theorem resolveOr_obj (i : ℕ) : s.resolveOr a (some (.byObj i)) = .ok i := by
  simp [State.resolveOr, State.resolve]

/-- Angular velocities add up along the tree (`what="reference_frame"`): if `arr` is the angular velocity of a motion with
orientation `m` in frame `a`, and the numerical derivative of the orientation `q` of `a` in `b` is exact, the
result is, at the timestamps of the path, the angular velocity of `q m`, the orientation in `b`. -/
theorem C37_chain (hsq : SquadLaw ext.squad) (x : XrOps) (hr : Reachable s h) (ha : a < s.size) (hb : b < s.size)
    (hp : PathAll s a b (FrameOk true s)) (hl : Route s a b l) {arr : ND ℝ} {ats : Option (List ℝ)} (hs : IsSeries arr ats)
    {tl : List Vec} {rl : List Quat} {ts : List ℝ} (he : s.lookupTransform ext.squad a (.byObj b) = .ok (.many tl, .many rl, some ts))
    (hacc : ext.derivErr ts = none) (h2ts : 2 ≤ ts.length) (h2 : ∀ y, arrayStamps s l (some ts) ats = some y → 2 ≤ y.length) (rt : Bool)
    {q m : ℝ → Quat} (hu : ∀ t, IsUnitQ (q t)) (hm : ∀ t, m t ≠ 0)
    (hq : ∀ τ ∈ ts, ∀ A, IsTransformAt ext.squad s a b τ A → A.r = q τ)
    (hd : ∀ (k : ℕ) τ, ts[k]? = some τ → HasDerivAt q (quatDeriv ext rl ts k) τ)
    (harr : ∀ τ w, SampleAt arr ats τ w → IsSpaceRate m τ w) :
    ∃ out ots, s.transformAngularVelocity ext a arr (.byObj b) "reference_frame" { timestamps := stampArg ats, returnTimestamps := rt } =
        .ok (returned rt out ots) ∧
      ots = sharedStamps [arrayStamps s l (some ts) ats, some ts] ∧ out.shape = seriesShape ots ∧
      ∀ τ w, τ ∈ ts → SampleAt out ots τ w → IsSpaceRate (fun t => q t * m t) τ w := by
  obtain ⟨ang, a1, a2, a3⟩ := C37_lookup_exact hsq x hr ha hb (resolveOr_obj b) (resolveOr_obj b) hp he hacc h2ts true true hu hq hd
  obtain ⟨out, ots, o1, o2, o3, o4⟩ := C37_reference_frame hsq hr ha hb hp hl hs he h2 (cutoff := none) a1 a2 rt
  refine ⟨out, ots, o1, o2, o3, fun τ w hτ hw => ?_⟩
  obtain ⟨A, w0, ω, hA, hw0, hω, rfl⟩ := o4 τ w hw
  have hω' := a3 τ ω (valueAt_sample a2 hω fun y hy => by cases hy; exact hτ)
  rw [hq τ hτ A hA]
  exact hω'.mul (harr τ w0 hw0) (fun t => (hu t).ne_zero) hm

/-- The same for `what="moving_frame"`: if `arr` is the angular velocity, expressed in frame `a`, of a motion of `a` with orientation `m`,
and the numerical derivative of the orientation `q` of `b` in `a` is exact, the result is the
angular velocity, expressed in `b`, of the orientation `m q` of `b`. -/
theorem C37_chain_moving (hsq : SquadLaw ext.squad) (x : XrOps) (hr : Reachable s h) (ha : a < s.size) (hb : b < s.size)
    (hp : PathAll s a b (FrameOk true s)) (hp' : PathAll s b a (FrameOk true s)) (hl : Route s a b l) {arr : ND ℝ} {ats : Option (List ℝ)} (hs : IsSeries arr ats)
    {t : Arr Vec} {r : Arr Quat} {lts : Option (List ℝ)} (he : s.lookupTransform ext.squad a (.byObj b) = .ok (t, r, lts))
    {tl : List Vec} {rl : List Quat} {ts : List ℝ} (he' : s.lookupTransform ext.squad b (.byObj a) = .ok (.many tl, .many rl, some ts))
    (hacc : ext.derivErr ts = none) (h2ts : 2 ≤ ts.length) (h2 : ∀ y, arrayStamps s l lts ats = some y → 2 ≤ y.length) (rt : Bool)
    {q m : ℝ → Quat} (hu : ∀ t, IsUnitQ (q t)) (hm : ∀ t, m t ≠ 0)
    (hq : ∀ τ ∈ ts, ∀ A, IsTransformAt ext.squad s b a τ A → A.r = q τ)
    (hd : ∀ (k : ℕ) τ, ts[k]? = some τ → HasDerivAt q (quatDeriv ext rl ts k) τ)
    (harr : ∀ τ w, SampleAt arr ats τ w → IsBodyRate m τ w) :
    ∃ out ots, s.transformAngularVelocity ext a arr (.byObj b) "moving_frame" { timestamps := stampArg ats, returnTimestamps := rt } =
        .ok (returned rt out ots) ∧
      ots = sharedStamps [arrayStamps s l lts ats, some ts] ∧ out.shape = seriesShape ots ∧
      ∀ τ w, τ ∈ ts → SampleAt out ots τ w → IsBodyRate (fun t => m t * q t) τ w := by
  obtain ⟨ang, a1, a2, a3⟩ := C37_lookup_exact_body hsq x hr hb ha (resolveOr_obj a) (resolveOr_obj b) hp' he' hacc h2ts true true hu hq hd
  obtain ⟨out, ots, o1, o2, o3, o4⟩ := C37_moving_frame hsq hr ha hb hp hl hs he h2 (cutoff := none) a1 a2 rt
  refine ⟨out, ots, o1, o2, o3, fun τ w hτ hw => ?_⟩
  obtain ⟨A, w0, ω, hA, hw0, hω, rfl⟩ := o4 τ w hw
  have hω' := a3 τ ω (valueAt_sample a2 hω fun y hy => by cases hy; exact hτ)
  obtain ⟨_, _, _, hrow⟩ := lookup_rows hsq hr hb ha hp' he'
  obtain ⟨k, hk⟩ := List.mem_iff_getElem?.mp hτ
  obtain ⟨B, hB, _⟩ := hrow k τ hk
  have e := isTransformAt_inv hr.wf (fun _ => hsq) hp' hB hA
  have e2 : A.r = (q τ)⁻¹ := by rw [e, ← hq τ hτ B hB]; rfl
  rw [e2]
  exact (harr τ w0 hw0).mul hω' hm (fun t => (hu t).ne_zero)

/-- On a static path nothing is added: `transform_angular_velocity` rotates like `transform_vectors`. -/
theorem C37_static_path (hsq : SquadLaw ext.squad) (hr : Reachable s h) (ha : a < s.size) (hb : b < s.size)
    (hp : PathAll s a b (FrameOk true s)) (hl : Route s a b l) {arr : ND ℝ} {ats : Option (List ℝ)} (hs : IsSeries arr ats)
    {t : Arr Vec} {r : Arr Quat} (he : s.lookupTransform ext.squad a (.byObj b) = .ok (t, r, none))
    (h2 : ∀ y, arrayStamps s l none ats = some y → 2 ≤ y.length) (cutoff : Option ℝ) (rt : Bool) :
    ∃ out ots, s.transformAngularVelocity ext a arr (.byObj b) "reference_frame" { timestamps := stampArg ats, returnTimestamps := rt } cutoff =
        .ok (returned rt out ots) ∧ ots = sharedStamps [arrayStamps s l none ats] ∧ out.shape = seriesShape ots ∧
      ∀ τ w, SampleAt out ots τ w → ∃ A w0, IsTransformAt ext.squad s a b τ A ∧ SampleAt arr ats τ w0 ∧ w = rot A.r w0 := by
  have hz := (lookup_static_zero (ext := ext) (resolveOr_obj (s := s) (a := a) b) (resolveOr_obj b) he { cutoff := cutoff, allowStatic := true, returnTimestamps := true }).1
  rw [if_pos rfl] at hz
  obtain ⟨out, ots, o1, o2, o3, o4⟩ := C37_reference_frame hsq hr ha hb hp hl hs he h2 (cutoff := cutoff) hz rfl rt
  refine ⟨out, ots, o1, ?_, o3, fun τ w hw => ?_⟩
  · rw [o2]
    cases arrayStamps s l none ats <;> rfl
  · obtain ⟨A, w0, ω, hA, hw0, hω, e⟩ := o4 τ w hw
    refine ⟨A, w0, hA, hw0, ?_⟩
    have : ω = 0 := by
      rw [show ω = vec3 zeros3 0 [0] from hω]
      ext i; fin_cases i <;> rfl
    rw [e, this, add_zero]

end

end RBM.Props
