import Verif.Props.VelocityTransform

/-!
C38: `lookup_twist` and `transform_linear_velocity`.
-/

namespace RBM.Props

open RBM.Spec

section

variable {ext : Ext} {s : State} {h : List Event} {a b m : ℕ} {l : List ℕ}

/-- `transform_vectors` of a series, with its timestamps. -/
theorem series_pair (hsq : SquadLaw ext.squad) (hr : Reachable s h) (ha : a < s.size) (hb : b < s.size)
    (hp : PathAll s a b (FrameOk true s)) (hl : Route s a b l) {arr : ND ℝ} {ats : Option (List ℝ)} (hs : IsSeries arr ats)
    {t : Arr Vec} {r : Arr Quat} {lts : Option (List ℝ)} (he : s.lookupTransform ext.squad a (.byObj b) = .ok (t, r, lts))
    (h2 : ∀ y, arrayStamps s l lts ats = some y → 2 ≤ y.length) :
    ∃ out, s.transformVectors ext.squad a arr (.byObj b) { timestamps := stampArg ats, returnTimestamps := true } =
        .ok (.withTs out (arrayStamps s l lts ats)) ∧ IsSeries out (arrayStamps s l lts ats) ∧
      ∀ τ w, SampleAt out (arrayStamps s l lts ats) τ w → ∃ A w0, IsTransformAt ext.squad s a b τ A ∧ SampleAt arr ats τ w0 ∧ w = rot A.r w0 := by
  obtain ⟨arr', ats', f1, f2, f3, f4, f5⟩ := transform_series ext.squad hsq hr ha hb hp hl hs
    (fun y hy => h2 _ (by rw [hy]; rfl)) (fun hn t' r' ts' h' => by
      rw [he] at h'
      simp only [Except.ok.injEq, Prod.mk.injEq] at h'
      exact h2 _ (by rw [hn]; exact h'.2.2)) true
  have hats : ats' = arrayStamps s l lts ats := by
    cases ats with
    | some y => exact f4 y rfl
    | none =>
      obtain ⟨t', r', h'⟩ := f5 rfl
      rw [he] at h'
      simp only [Except.ok.injEq, Prod.mk.injEq] at h'
      exact h'.2.2.symm
  subst hats
  exact ⟨arr', f1, f2, f3⟩

theorem addLinear_spec (hsq : SquadLaw ext.squad) (hr : Reachable s h) (ha : a < s.size) (hb : b < s.size)
    (hp : PathAll s a b (FrameOk true s)) (hl : Route s a b l) {arr : ND ℝ} {ats : Option (List ℝ)} (hs : IsSeries arr ats)
    {t : Arr Vec} {r : Arr Quat} {lts : Option (List ℝ)} (he : s.lookupTransform ext.squad a (.byObj b) = .ok (t, r, lts))
    (h2 : ∀ y, arrayStamps s l lts ats = some y → 2 ≤ y.length) {lin ang : ND ℝ} {linTs angTs : Option (List ℝ)}
    (hlin : IsSeries lin linTs) (hang : IsSeries ang angTs) {tr : Arr Vec} {trTs : Option (List ℝ)} (htr : IsSeries (ND.ofVecs tr) trTs)
    (h2' : ∀ y, arrayStamps s l lts trTs = some y → 2 ≤ y.length) (rt : Bool) :
    ∃ out ots lever, s.addLinear ext a arr (.byObj b) { timestamps := stampArg ats, returnTimestamps := rt } lin ang linTs angTs tr trTs =
        .ok (returned rt out ots) ∧
      ots = sharedStamps [arrayStamps s l lts ats, linTs, angTs, arrayStamps s l lts trTs] ∧ out.shape = seriesShape ots ∧
      IsSeries lever (arrayStamps s l lts trTs) ∧
      (∀ τ d, SampleAt lever (arrayStamps s l lts trTs) τ d → ∃ A p, IsTransformAt ext.squad s a b τ A ∧ SampleAt (ND.ofVecs tr) trTs τ p ∧ d = rot A.r p) ∧
      ∀ τ w, SampleAt out ots τ w → ∃ A w0 v ω d, IsTransformAt ext.squad s a b τ A ∧ SampleAt arr ats τ w0 ∧ ValueAt lin linTs τ v ∧
        ValueAt ang angTs τ ω ∧ ValueAt lever (arrayStamps s l lts trTs) τ d ∧ w = rot A.r w0 + v + cross ω d := by
  obtain ⟨arr', f1, f2, f3⟩ := series_pair hsq hr ha hb hp hl hs he h2
  obtain ⟨lever, g1, g2, g3⟩ := series_pair hsq hr ha hb hp hl htr he h2'
  obtain ⟨outs, ots, o1, o2, o3⟩ := matchArrays_values ext.squad
    (l := [⟨arr', arrayStamps s l lts ats⟩, ⟨lin, linTs⟩, ⟨ang, angTs⟩, ⟨lever, arrayStamps s l lts trTs⟩]) (by simp [f2, hlin, hang, g2])
  simp only [List.map_cons, List.map_nil] at o2
  rcases o3 with _ | ⟨⟨hX, vX⟩, _ | ⟨⟨hY, vY⟩, _ | ⟨⟨hZ, vZ⟩, _ | ⟨⟨hW, vW⟩, _ | _⟩⟩⟩⟩
  obtain ⟨c, c1, c2, c3⟩ := bop_series hX hY
  obtain ⟨d, d1, d2, d3⟩ := cross_series hZ hW
  obtain ⟨e, e1, e2, e3⟩ := bop_series c2 d2
  refine ⟨e, ots, lever, ?_, o2, e2, g2, g3, ?_⟩
  · simp only [State.addLinear, f1, g1, unpackPair, bind, Except.bind, o1, c1, d1, e1, Pure.pure, Except.pure, pyReturn_eq]
  · intro τ w hw
    obtain ⟨u, x, hu, hx, rfl⟩ := e3 τ w hw
    obtain ⟨u1, u2, hu1, hu2, rfl⟩ := c3 τ u hu
    obtain ⟨x1, x2, hx1, hx2, rfl⟩ := d3 τ x hx
    obtain ⟨A, w0, hA, hw0, rfl⟩ := f3 τ u1 (first_sample (s' := s) f2 o2 hw (vX τ u1 hu1))
    exact ⟨A, w0, u2, x1, x2, hA, hw0, vY τ u2 hu2, vZ τ x1 hx1, vW τ x2 hx2, rfl⟩

/-- The translation returned by a lookup, as an array. -/
theorem translation_series (hsq : SquadLaw ext.squad) (hr : Reachable s h) (hm : m < s.size) (ha : a < s.size)
    (hp : PathAll s m a (FrameOk true s)) {tr : Arr Vec} {ro : Arr Quat} {trTs : Option (List ℝ)}
    (he : s.lookupTransform ext.squad m (.byObj a) = .ok (tr, ro, trTs)) (h2 : ∀ y, trTs = some y → 2 ≤ y.length) :
    IsSeries (ND.ofVecs tr) trTs ∧ ∀ τ p, SampleAt (ND.ofVecs tr) trTs τ p → ∃ C, IsTransformAt ext.squad s m a τ C ∧ p = C.t := by
  obtain ⟨c0, la0, lb0, hc0, hla0, hlb0, _⟩ := id hp
  rcases lookup_facts ext.squad hsq hr hm ha hp (l := la0 ++ lb0.reverse) ⟨c0, la0, lb0, hc0, hla0, hlb0, rfl⟩ with ⟨A, e, hA, _⟩ | ⟨_, ts', T, e, hinc, hT, _⟩
  · rw [he] at e
    simp only [Except.ok.injEq, Prod.mk.injEq] at e
    obtain ⟨rfl, rfl, rfl⟩ := e
    refine ⟨rfl, fun τ p hpp => ⟨A, hA τ, ?_⟩⟩
    rw [show p = _ from hpp]
    ext i; fin_cases i <;> rfl
  · rw [he] at e
    simp only [Except.ok.injEq, Prod.mk.injEq] at e
    obtain ⟨rfl, rfl, rfl⟩ := e
    refine ⟨⟨by simp [ND.ofVecs], h2 _ rfl, hinc⟩, ?_⟩
    rintro τ p ⟨k, hk, rfl⟩
    refine ⟨T τ, hT τ (List.mem_of_getElem? hk), ?_⟩
    have : (ts'.map fun τ => (T τ).t).getD k 0 = (T τ).t := by rw [List.getD_eq_getElem?_getD, List.getElem?_map, hk]; rfl
    ext i
    fin_cases i
    · exact congrFun this 0
    · exact congrFun this 1
    · exact congrFun this 2

/-- `lookup_twist` is the pair of `lookup_linear_velocity` and `lookup_angular_velocity` (without outlier removal), both at the timestamps of
the angular velocity that lie in the range of the linear velocity. -/
theorem C38_twist {ref rep : ℕ} {reference representIn : Option FrameRef} (h1 : s.resolveOr a reference = .ok ref) (h2 : s.resolveOr a representIn = .ok rep)
    {t : Arr Vec} {r : Arr Quat} {ts : List ℝ} (he : s.lookupTransform ext.squad a (.byObj ref) = .ok (t, r, some ts)) (o : VelArgs)
    {lin ang : ND ℝ} {lts ats : Option (List ℝ)}
    (hlin : s.lookupLinearVelocity ext a reference representIn { o with returnTimestamps := true } = .ok (.withTs lin lts))
    (hang : s.lookupAngularVelocity ext a reference representIn { o with returnTimestamps := true, outlier := none } = .ok (.withTs ang ats))
    (sl : IsSeries lin lts) (sa : IsSeries ang ats) :
    ∃ lin' ang' ots, s.lookupTwist ext a reference representIn o =
        .ok (if o.returnTimestamps then .triple lin' ang' ots else .pair lin' ang') ∧
      ots = sharedStamps [ats, lts] ∧ lin'.shape = seriesShape ots ∧ ang'.shape = seriesShape ots ∧
      (∀ τ w, SampleAt lin' ots τ w → ValueAt lin lts τ w) ∧ (∀ τ w, SampleAt ang' ots τ w → SampleAt ang ats τ w) := by
  simp only [State.lookupLinearVelocity, bind, Except.bind, h1, h2, he, Pure.pure, Except.pure] at hlin
  simp only [State.lookupAngularVelocity, bind, Except.bind, h1, h2, he, Pure.pure, Except.pure] at hang
  have hl' : linearRows ext t ts { o with returnTimestamps := true } = linearRows ext t ts o := rfl
  have ha' : angularRows ext r ts { o with returnTimestamps := true, outlier := none } = angularRows ext r ts { o with outlier := none } := rfl
  rw [hl'] at hlin
  rw [ha'] at hang
  cases hx : linearRows ext t ts o with
  | error e => rw [hx] at hlin; cases hlin
  | ok L =>
    rw [hx] at hlin
    simp only at hlin
    cases hy : s.vectorsWithTs ext.squad ref L rep { timestamps := stampArg (some ts) } with
    | error e => rw [hy] at hlin; cases hlin
    | ok LL =>
      rw [hy] at hlin
      obtain ⟨L1, L2⟩ := LL
      simp only [pyReturn, if_true, Except.ok.injEq, PyRet.withTs.injEq] at hlin
      obtain ⟨rfl, rfl⟩ := hlin
      cases hz : angularRows ext r ts { o with outlier := none } with
      | error e => rw [hz] at hang; cases hang
      | ok N =>
        rw [hz] at hang
        simp only at hang
        cases hw : s.vectorsWithTs ext.squad a N rep { timestamps := stampArg (some ts) } with
        | error e => rw [hw] at hang; cases hang
        | ok NN =>
          rw [hw] at hang
          obtain ⟨N1, N2⟩ := NN
          simp only [pyReturn, if_true, Except.ok.injEq, PyRet.withTs.injEq] at hang
          obtain ⟨rfl, rfl⟩ := hang
          obtain ⟨outs, ots, o1, o2, o3⟩ := matchArrays_values ext.squad (l := [⟨ang, ats⟩, ⟨lin, lts⟩]) (by simp [sa, sl])
          simp only [List.map_cons, List.map_nil] at o2
          rcases o3 with _ | ⟨⟨hX, vX⟩, _ | ⟨⟨hY, vY⟩, _ | _⟩⟩
          refine ⟨_, _, ots, ?_, o2, hY, hX, vY, fun τ w hw' => first_sample (s' := s) sa o2 hw' (vX τ w hw')⟩
          simp only [State.lookupTwist, bind, Except.bind, h1, h2, he, Pure.pure, Except.pure, hx, hy, hz, hw, o1]
          cases o.returnTimestamps <;> rfl

/-- `what="reference_frame"`: every sample is the rotated velocity, plus the velocity of the old reference frame in the new
one, plus the cross product of its angular velocity with the position of the moving frame in the old reference frame, all expressed in
the new reference frame. -/
theorem C38_reference_frame (hsq : SquadLaw ext.squad) (hr : Reachable s h) (ha : a < s.size) (hb : b < s.size) (hm : m < s.size)
    (hp : PathAll s a b (FrameOk true s)) (hpm : PathAll s m a (FrameOk true s)) (hl : Route s a b l)
    {arr : ND ℝ} {ats : Option (List ℝ)} (hs : IsSeries arr ats)
    {t : Arr Vec} {r : Arr Quat} {lts : Option (List ℝ)} (he : s.lookupTransform ext.squad a (.byObj b) = .ok (t, r, lts))
    {tr : Arr Vec} {ro : Arr Quat} {trTs : Option (List ℝ)} (hem : s.lookupTransform ext.squad m (.byObj a) = .ok (tr, ro, trTs))
    (h2 : ∀ y, arrayStamps s l lts ats = some y ∨ arrayStamps s l lts trTs = some y ∨ trTs = some y → 2 ≤ y.length)
    {outlier cutoff : Option ℝ} {lin ang : ND ℝ} {twTs : Option (List ℝ)}
    (htw : s.lookupTwist ext a (some (.byObj b)) (some (.byObj b)) { cutoff := cutoff, outlier := outlier, allowStatic := true, returnTimestamps := true } =
      .ok (.triple lin ang twTs)) (hlin : IsSeries lin twTs) (hang : IsSeries ang twTs) {mref : FrameRef} (hmref : s.resolve mref = .ok m)
    (rf : Option FrameRef) (rt : Bool) :
    ∃ out ots lever, s.transformLinearVelocity ext a arr (.byObj b) "reference_frame" (some mref) rf
        { timestamps := stampArg ats, returnTimestamps := rt } outlier cutoff = .ok (returned rt out ots) ∧
      ots = sharedStamps [arrayStamps s l lts ats, twTs, twTs, arrayStamps s l lts trTs] ∧ out.shape = seriesShape ots ∧
      IsSeries lever (arrayStamps s l lts trTs) ∧
      (∀ τ d, SampleAt lever (arrayStamps s l lts trTs) τ d → ∃ A C, IsTransformAt ext.squad s a b τ A ∧ IsTransformAt ext.squad s m a τ C ∧ d = rot A.r C.t) ∧
      ∀ τ w, SampleAt out ots τ w → ∃ A w0 v ω d, IsTransformAt ext.squad s a b τ A ∧ SampleAt arr ats τ w0 ∧ ValueAt lin twTs τ v ∧
        ValueAt ang twTs τ ω ∧ ValueAt lever (arrayStamps s l lts trTs) τ d ∧ w = rot A.r w0 + v + cross ω d := by
  obtain ⟨q1, q2⟩ := translation_series hsq hr hm ha hpm hem (fun y hy => h2 y (.inr (.inr hy)))
  obtain ⟨out, ots, lever, o1, o2, o3, o4, o5, o6⟩ := addLinear_spec hsq hr ha hb hp hl hs he (fun y hy => h2 y (.inl hy)) hlin hang q1
    (fun y hy => h2 y (.inr (.inl hy))) rt
  refine ⟨out, ots, lever, ?_, o2, o3, o4, fun τ d hd => ?_, o6⟩
  · simp only [State.transformLinearVelocity, if_true, bind, Except.bind, htw, unpackTriple, State.resolveOpt, hmref, hem]
    exact o1
  · obtain ⟨A, p, hA, hpp, e⟩ := o5 τ d hd
    obtain ⟨C, hC, rfl⟩ := q2 τ p hpp
    exact ⟨A, C, hA, hC, e⟩

/-- `what="moving_frame"`: every sample is the rotated velocity, plus the velocity of the new moving frame in the old one, plus the
cross product of the angular velocity of the old moving frame wrt the reference frame with the position of the new moving frame in the old one,
all expressed in the new moving frame. -/
theorem C38_moving_frame (hsq : SquadLaw ext.squad) (hr : Reachable s h) (ha : a < s.size) (hb : b < s.size)
    (hp : PathAll s a b (FrameOk true s)) (hp' : PathAll s b a (FrameOk true s)) (hl : Route s a b l)
    {arr : ND ℝ} {ats : Option (List ℝ)} (hs : IsSeries arr ats)
    {t : Arr Vec} {r : Arr Quat} {lts : Option (List ℝ)} (he : s.lookupTransform ext.squad a (.byObj b) = .ok (t, r, lts))
    {tr : Arr Vec} {ro : Arr Quat} {trTs : Option (List ℝ)} (heb : s.lookupTransform ext.squad b (.byObj a) = .ok (tr, ro, trTs))
    (h2 : ∀ y, arrayStamps s l lts ats = some y ∨ arrayStamps s l lts trTs = some y ∨ trTs = some y → 2 ≤ y.length)
    {outlier cutoff : Option ℝ} {lin ang : ND ℝ} {linTs angTs : Option (List ℝ)} {rf : Option FrameRef}
    (hlook : s.lookupLinearVelocity ext b (some (.byObj a)) (some (.byObj b)) { cutoff := cutoff, outlier := outlier, allowStatic := true, returnTimestamps := true } =
      .ok (.withTs lin linTs))
    (hlook' : s.lookupAngularVelocity ext a rf (some (.byObj b)) { cutoff := cutoff, allowStatic := true, returnTimestamps := true } =
      .ok (.withTs ang angTs)) (hlin : IsSeries lin linTs) (hang : IsSeries ang angTs) (mf : Option FrameRef) (rt : Bool) :
    ∃ out ots lever, s.transformLinearVelocity ext a arr (.byObj b) "moving_frame" mf rf
        { timestamps := stampArg ats, returnTimestamps := rt } outlier cutoff = .ok (returned rt out ots) ∧
      ots = sharedStamps [arrayStamps s l lts ats, linTs, angTs, arrayStamps s l lts trTs] ∧ out.shape = seriesShape ots ∧
      IsSeries lever (arrayStamps s l lts trTs) ∧
      (∀ τ d, SampleAt lever (arrayStamps s l lts trTs) τ d → ∃ A C, IsTransformAt ext.squad s a b τ A ∧ IsTransformAt ext.squad s b a τ C ∧ d = rot A.r C.t) ∧
      ∀ τ w, SampleAt out ots τ w → ∃ A w0 v ω d, IsTransformAt ext.squad s a b τ A ∧ SampleAt arr ats τ w0 ∧ ValueAt lin linTs τ v ∧
        ValueAt ang angTs τ ω ∧ ValueAt lever (arrayStamps s l lts trTs) τ d ∧ w = rot A.r w0 + v + cross ω d := by
  obtain ⟨q1, q2⟩ := translation_series hsq hr hb ha hp' heb (fun y hy => h2 y (.inr (.inr hy)))
  obtain ⟨out, ots, lever, o1, o2, o3, o4, o5, o6⟩ := addLinear_spec hsq hr ha hb hp hl hs he (fun y hy => h2 y (.inl hy)) hlin hang q1
    (fun y hy => h2 y (.inr (.inl hy))) rt
  have hres : s.resolve (.byObj b) = .ok b := rfl
  refine ⟨out, ots, lever, ?_, o2, o3, o4, fun τ d hd => ?_, o6⟩
  · simp only [State.transformLinearVelocity, if_neg (show "moving_frame" ≠ "reference_frame" by decide), if_true, bind, Except.bind, hres, hlook, hlook',
      unpackPair, heb]
    exact o1
  · obtain ⟨A, p, hA, hpp, e⟩ := o5 τ d hd
    obtain ⟨C, hC, rfl⟩ := q2 τ p hpp
    exact ⟨A, C, hA, hC, e⟩

/-- `what="representation_frame"` is `transform_vectors`, any other value is refused, and so is `reference_frame` without a moving frame. -/
theorem C38_representation_frame (arr : ND ℝ) (dst : FrameRef) (mf rf : Option FrameRef) (o : TArgs) (outlier cutoff : Option ℝ) :
    s.transformLinearVelocity ext a arr dst "representation_frame" mf rf o outlier cutoff = s.transformVectors ext.squad a arr dst o ∧
    (∀ what, what ≠ "reference_frame" → what ≠ "moving_frame" → what ≠ "representation_frame" →
      s.transformLinearVelocity ext a arr dst what mf rf o outlier cutoff = .error .valueError) ∧
    ∀ res, s.transformLinearVelocity ext a arr dst "reference_frame" none rf o outlier cutoff ≠ .ok res := by
  refine ⟨by simp [State.transformLinearVelocity], fun what h1 h2 h3 => by simp [State.transformLinearVelocity, h1, h2, h3], fun res hres => ?_⟩
  simp only [State.transformLinearVelocity, if_true, bind, Except.bind, State.resolveOpt] at hres
  split at hres <;> cases hres

/-- Transport theorem: a point with position `p t` in a frame with orientation `q t` and position `T t` moves with the sum that
`transform_linear_velocity` evaluates. -/
theorem C38_transport {q : ℝ → Quat} {T p : ℝ → Vec} {τ : ℝ} {ω v w : Vec} (h0 : q τ ≠ 0) (hω : IsSpaceRate q τ ω) (hT : HasDerivAt T v τ)
    (hp : HasDerivAt p w τ) :
    HasDerivAt (fun t => rot (q t) (p t) + T t) (rot (q τ) w + v + cross ω (rot (q τ) (p τ))) τ := by
  have h : HasDerivAt (fun t => rot (q t) (p t) + T t) _ τ := (hω.transport h0 hp).add hT
  convert h using 1
  abel

/-- If the velocities that are looked up are exact, `transform_linear_velocity` with `what="reference_frame"` gives the velocity of the
moving frame in the new reference frame at all common timestamps: `q`, `T` are the orientation and position of the old reference frame
in the new one, `p` is the position of the moving frame in the old reference frame, and `arr` is its derivative. -/
theorem C38_exact (hsq : SquadLaw ext.squad) (hr : Reachable s h) (ha : a < s.size) (hb : b < s.size) (hm : m < s.size)
    (hp : PathAll s a b (FrameOk true s)) (hpm : PathAll s m a (FrameOk true s)) (hl : Route s a b l)
    {arr : ND ℝ} {ats : Option (List ℝ)} (hs : IsSeries arr ats)
    {t : Arr Vec} {r : Arr Quat} {lts : Option (List ℝ)} (he : s.lookupTransform ext.squad a (.byObj b) = .ok (t, r, lts))
    {tr : Arr Vec} {ro : Arr Quat} {trTs : Option (List ℝ)} (hem : s.lookupTransform ext.squad m (.byObj a) = .ok (tr, ro, trTs))
    (h2 : ∀ y, arrayStamps s l lts ats = some y ∨ arrayStamps s l lts trTs = some y ∨ trTs = some y → 2 ≤ y.length)
    {outlier cutoff : Option ℝ} {lin ang : ND ℝ} {twTs : Option (List ℝ)}
    (htw : s.lookupTwist ext a (some (.byObj b)) (some (.byObj b)) { cutoff := cutoff, outlier := outlier, allowStatic := true, returnTimestamps := true } =
      .ok (.triple lin ang twTs)) (hlin : IsSeries lin twTs) (hang : IsSeries ang twTs) {mref : FrameRef} (hmref : s.resolve mref = .ok m)
    (rf : Option FrameRef) (rt : Bool) :
    ∃ out ots, s.transformLinearVelocity ext a arr (.byObj b) "reference_frame" (some mref) rf
        { timestamps := stampArg ats, returnTimestamps := rt } outlier cutoff = .ok (returned rt out ots) ∧
      ots = sharedStamps [arrayStamps s l lts ats, twTs, twTs, arrayStamps s l lts trTs] ∧ out.shape = seriesShape ots ∧
      ∀ τ w, (∀ y, twTs = some y ∨ arrayStamps s l lts trTs = some y → τ ∈ y) → SampleAt out ots τ w →
        ∀ (q : ℝ → Quat) (T p : ℝ → Vec), (∀ A, IsTransformAt ext.squad s a b τ A → A.r = q τ) →
          (∀ C, IsTransformAt ext.squad s m a τ C → C.t = p τ) → (∀ v, SampleAt lin twTs τ v → HasDerivAt T v τ) →
          (∀ w, SampleAt ang twTs τ w → IsSpaceRate q τ w) → (∀ w, SampleAt arr ats τ w → HasDerivAt p w τ) →
          HasDerivAt (fun t => rot (q t) (p t) + T t) w τ := by
  obtain ⟨out, ots, lever, o1, o2, o3, o4, o5, o6⟩ := C38_reference_frame hsq hr ha hb hm hp hpm hl hs he hem h2 htw hlin hang hmref rf rt
  refine ⟨out, ots, o1, o2, o3, fun τ w hτ hw q T p hq hpos hT hω harr => ?_⟩
  obtain ⟨A, w0, v, ω, d, hA, hw0, hv, hω', hd, rfl⟩ := o6 τ w hw
  have hv' := hT v (valueAt_sample hlin hv fun y hy => hτ y (.inl hy))
  have hω'' := hω ω (valueAt_sample hang hω' fun y hy => hτ y (.inl hy))
  obtain ⟨A', C, hA', hC, rfl⟩ := o5 τ d (valueAt_sample o4 hd fun y hy => hτ y (.inr hy))
  have h0 : q τ ≠ 0 := by rw [← hq A hA]; exact isTransformAt_ne hr.wf (fun _ => hsq) hp hA
  rw [hq A hA, hq A' hA', hpos C hC]
  exact C38_transport h0 hω'' hv' (harr w0 hw0)

/-- The same for `what="moving_frame"`: `q`, `T` are orientation and position of the old moving frame in the reference frame, `p` is the position of
the new moving frame in the old one; velocities are expressed in the moving frames, `R` being the orientation of the new one in the old one. -/
theorem C38_exact_moving (hsq : SquadLaw ext.squad) (hr : Reachable s h) (ha : a < s.size) (hb : b < s.size)
    (hp : PathAll s a b (FrameOk true s)) (hp' : PathAll s b a (FrameOk true s)) (hl : Route s a b l)
    {arr : ND ℝ} {ats : Option (List ℝ)} (hs : IsSeries arr ats)
    {t : Arr Vec} {r : Arr Quat} {lts : Option (List ℝ)} (he : s.lookupTransform ext.squad a (.byObj b) = .ok (t, r, lts))
    {tr : Arr Vec} {ro : Arr Quat} {trTs : Option (List ℝ)} (heb : s.lookupTransform ext.squad b (.byObj a) = .ok (tr, ro, trTs))
    (h2 : ∀ y, arrayStamps s l lts ats = some y ∨ arrayStamps s l lts trTs = some y ∨ trTs = some y → 2 ≤ y.length)
    {outlier cutoff : Option ℝ} {lin ang : ND ℝ} {linTs angTs : Option (List ℝ)} {rf : Option FrameRef}
    (hlook : s.lookupLinearVelocity ext b (some (.byObj a)) (some (.byObj b)) { cutoff := cutoff, outlier := outlier, allowStatic := true, returnTimestamps := true } =
      .ok (.withTs lin linTs))
    (hlook' : s.lookupAngularVelocity ext a rf (some (.byObj b)) { cutoff := cutoff, allowStatic := true, returnTimestamps := true } =
      .ok (.withTs ang angTs)) (hlin : IsSeries lin linTs) (hang : IsSeries ang angTs) (mf : Option FrameRef) (rt : Bool) :
    ∃ out ots, s.transformLinearVelocity ext a arr (.byObj b) "moving_frame" mf rf
        { timestamps := stampArg ats, returnTimestamps := rt } outlier cutoff = .ok (returned rt out ots) ∧
      ots = sharedStamps [arrayStamps s l lts ats, linTs, angTs, arrayStamps s l lts trTs] ∧ out.shape = seriesShape ots ∧
      ∀ τ w, (∀ y, linTs = some y ∨ angTs = some y ∨ arrayStamps s l lts trTs = some y → τ ∈ y) → SampleAt out ots τ w →
        ∀ (q R : ℝ → Quat) (T p : ℝ → Vec), q τ ≠ 0 → (∀ A, IsTransformAt ext.squad s b a τ A → A.r = R τ ∧ A.t = p τ) →
          (∀ v, SampleAt lin linTs τ v → HasDerivAt p (rot (R τ) v) τ) → (∀ w, SampleAt ang angTs τ w → IsBodyRate q τ (rot (R τ) w)) →
          (∀ w, SampleAt arr ats τ w → HasDerivAt T (rot (q τ) w) τ) →
          HasDerivAt (fun t => rot (q t) (p t) + T t) (rot (q τ * R τ) w) τ := by
  obtain ⟨out, ots, lever, o1, o2, o3, o4, o5, o6⟩ := C38_moving_frame hsq hr ha hb hp hp' hl hs he heb h2 hlook hlook' hlin hang mf rt
  refine ⟨out, ots, o1, o2, o3, fun τ w hτ hw q R T p h0 hRp hv hω harr => ?_⟩
  obtain ⟨A, w0, v, ω, d, hA, hw0, hv1, hω1, hd, rfl⟩ := o6 τ w hw
  have hv' := hv v (valueAt_sample hlin hv1 fun y hy => hτ y (.inl hy))
  have hω'' := hω ω (valueAt_sample hang hω1 fun y hy => hτ y (.inr (.inl hy)))
  obtain ⟨A', C, hA', hC, rfl⟩ := o5 τ d (valueAt_sample o4 hd fun y hy => hτ y (.inr (.inr hy)))
  have eA := isTransformAt_inv hr.wf (fun _ => hsq) hp' hC hA
  have eA' := isTransformAt_inv hr.wf (fun _ => hsq) hp' hC hA'
  have hCne := isTransformAt_ne hr.wf (fun _ => hsq) hp' hC
  have hRC := (hRp C hC).1
  have hAr : A.r = (R τ)⁻¹ := by rw [eA, ← hRC]; rfl
  have hAr' : A'.r = (R τ)⁻¹ := by rw [eA', ← hRC]; rfl
  have hRne : R τ ≠ 0 := by rw [← hRC]; exact hCne
  rw [hAr, hAr', (hRp C hC).2]
  have key := (hω''.transport hv').add (harr w0 hw0)
  have h : HasDerivAt (fun t => rot (q t) (p t) + T t) _ τ := key
  convert h using 1
  simp only [rot_mul _ _ h0 hRne, rot_add, rot_rot_inv _ hRne, ← cross_rot _ hRne]
  abel

end

end RBM.Props
