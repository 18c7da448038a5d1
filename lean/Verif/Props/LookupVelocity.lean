import Verif.Props.LookupTop
import Verif.Props.StaticArrays
import Verif.Props.LinearTransform

/-!
C66: the top level velocity lookups, and the labels of `lookup_transform`.
-/

namespace RBM.Props

open RBM.Spec

section

variable {ext : Ext} {s : State} {h : List Event} {a ref rep : ℕ} {frame : FrameRef} {reference representIn : Option FrameRef}

theorem given_iff {x : Option FrameRef} : (¬ ∃ f, Given x f) ↔ (x = none ∨ x = some (.byName "")) := by
  constructor
  · intro hx
    cases x with
    | none => exact .inl rfl
    | some f =>
      by_cases hf : f = .byName ""
      · subst hf; exact .inr rfl
      · exact absurd ⟨f, rfl, hf⟩ hx
  · rintro (rfl | rfl) ⟨f, h1, h2⟩
    · cases h1
    · cases h1; exact h2 rfl

theorem frameOr_given {x y : Option FrameRef} {f : FrameRef} (hf : Given x f) : frameOr x y = some f := by
  obtain ⟨rfl, h2⟩ := hf
  rw [frameOr, if_neg]
  rintro (h | h)
  · cases h
  · cases h; exact h2 rfl

/-- The reference frame of a velocity lookup defaults to the parent of the moving frame and the representation frame to the reference frame;
a root frame has no default reference (TypeError), unknown frames are refused. -/
theorem C66_frames : velocityFrames s frame reference representIn = .ok (a, ref, rep) ↔ VelocityOf s frame reference representIn a ref rep := by
  have hobj : ∀ i, s.resolve (.byObj i) = .ok i := fun _ => rfl
  unfold velocityFrames VelocityOf
  cases hf : s.resolve frame with
  | error e => simp [bind, Except.bind]
  | ok a' =>
    simp only [bind, Except.bind]
    have key : ∀ r, (s.resolveOpt (frameOr reference ((s.parent a').map .byObj)) = .ok r ↔
        ((∃ f, Given reference f ∧ s.resolve f = .ok r) ∨ ((¬ ∃ f, Given reference f) ∧ s.parent a' = some r))) := by
      intro r
      by_cases hg : ∃ f, Given reference f
      · obtain ⟨f, hg'⟩ := id hg
        rw [frameOr_given hg']
        simp only [State.resolveOpt, hg, not_true, false_and, or_false]
        constructor
        · intro h1; exact ⟨f, hg', h1⟩
        · rintro ⟨f', h1, h2⟩
          have := h1.1.symm.trans hg'.1
          cases this
          exact h2
      · have hg' := given_iff.mp hg
        rw [frameOr, if_pos hg']
        simp only [hg, not_false_iff, true_and]
        have : ¬ ∃ f, Given reference f ∧ s.resolve f = .ok r := fun ⟨f, h1, _⟩ => hg ⟨f, h1⟩
        simp only [this, false_or]
        cases s.parent a' with
        | none => simp [State.resolveOpt]
        | some p => simp [State.resolveOpt, hobj]
    have key2 : ∀ r r', (s.resolveOpt (frameOr representIn (some (.byObj r))) = .ok r' ↔
        ((∃ f, Given representIn f ∧ s.resolve f = .ok r') ∨ ((¬ ∃ f, Given representIn f) ∧ r' = r))) := by
      intro r r'
      by_cases hg : ∃ f, Given representIn f
      · obtain ⟨f, hg'⟩ := id hg
        rw [frameOr_given hg']
        simp only [State.resolveOpt, hg, not_true, false_and, or_false]
        constructor
        · intro h1; exact ⟨f, hg', h1⟩
        · rintro ⟨f', h1, h2⟩
          have := h1.1.symm.trans hg'.1
          cases this
          exact h2
      · have hg' := given_iff.mp hg
        rw [frameOr, if_pos hg']
        simp only [hg, not_false_iff, true_and]
        have : ¬ ∃ f, Given representIn f ∧ s.resolve f = .ok r' := fun ⟨f, h1, _⟩ => hg ⟨f, h1⟩
        simp only [this, false_or, State.resolveOpt, hobj, Except.ok.injEq]
        exact eq_comm
    constructor
    · intro hh
      cases h1 : s.resolveOpt (frameOr reference ((s.parent a').map .byObj)) with
      | error e => rw [h1] at hh; simp at hh
      | ok r =>
        rw [h1] at hh
        simp only at hh
        cases h2 : s.resolveOpt (frameOr representIn (some (.byObj r))) with
        | error e => rw [h2] at hh; simp at hh
        | ok r' =>
          rw [h2] at hh
          simp only [Pure.pure, Except.pure, Except.ok.injEq, Prod.mk.injEq] at hh
          obtain ⟨rfl, rfl, rfl⟩ := hh
          exact ⟨rfl, (key r).mp h1, (key2 r r').mp h2⟩
    · rintro ⟨h0, h1, h2⟩
      cases h0
      rw [(key ref).mpr h1]
      simp only
      rw [(key2 ref rep).mpr h2]
      rfl

/-- A root frame has no default reference frame. -/
theorem C66_root_reference (hf : s.resolve frame = .ok a) (hp : s.parent a = none) (hg : ¬ ∃ f, Given reference f) (o : VelArgs) (asDS : Bool) :
    topLookupTwist ext s frame reference representIn o asDS = .error .typeError ∧
    topLookupLinear ext s frame reference representIn o asDS = .error .typeError ∧
    topLookupAngular ext s frame reference representIn o asDS = .error .typeError := by
  have e : velocityFrames s frame reference representIn = .error .typeError := by
    simp [velocityFrames, hf, hp, bind, Except.bind, frameOr, given_iff.mp hg, State.resolveOpt]
  simp [topLookupTwist, topLookupLinear, topLookupAngular, e, bind, Except.bind]

theorem velocityArray_spec {v : ND ℝ} {ts : List ℝ} (isAng : Bool) (m r p : Option String) (hs : v.shape = [ts.length, 3]) :
    ∃ d, makeVelocityDataArray v isAng m r p ts = .ok d ∧ d.data = v ∧
      RecordedVelocity d (if isAng then "angular_velocity" else "linear_velocity") (if isAng then "rad/s" else "m/s") ts m r p := by
  obtain ⟨d, h1, h2, h3, h4⟩ := recorded_of (axis := "cartesian_axis") (by decide) (labels := ["x", "y", "z"]) (ts := some ts) (arr := v)
    (name := if isAng then "angular_velocity" else "linear_velocity")
    (attrs := velocityAttrs p r m (if isAng then "angular_velocity" else "linear_velocity") (if isAng then "Angular velocity" else "Linear velocity")
      (if isAng then "rad/s" else "m/s")) rfl hs
  refine ⟨d, h1, h2, h4, ?_, ?_, ?_, ?_, ?_⟩ <;> cases isAng <;> simp [Attr, h3, velocityAttrs, dictGet, List.lookup]

/-- `lookup_linear_velocity(..., as_dataarray=True)`: the values of the lookup at its timestamps, labelled with the frames; without `as_dataarray`
the same values, with the timestamps if asked for. -/
theorem C66_linear (hf : VelocityOf s frame reference representIn a ref rep) (o : VelArgs) {out : ND ℝ} {ts : List ℝ}
    (hm : s.lookupLinearVelocity ext a (some (.byObj ref)) (some (.byObj rep)) { o with allowStatic := false, returnTimestamps := true } = .ok (.withTs out (some ts)))
    (hs : IsSeries out (some ts)) :
    ∃ d, topLookupLinear ext s frame reference representIn o true = .ok (.da d) ∧ d.data = out ∧
      RecordedVelocity d "linear_velocity" "m/s" ts (s.name a) (s.name ref) (s.name rep) ∧
      topLookupLinear ext s frame reference representIn o false = .ok (if o.returnTimestamps then .withTs out (some ts) else .single out) := by
  obtain ⟨d, h1, h2, h3⟩ := velocityArray_spec false (s.name a) (s.name ref) (s.name rep) hs.1
  refine ⟨d, ?_, h2, h3, ?_⟩
  · simp only [topLookupLinear, C66_frames.mpr hf, hm, unpackPair, someStamps, h1, bind, Except.bind, Pure.pure, Except.pure, if_true]
  · cases ho : o.returnTimestamps <;>
      simp [topLookupLinear, C66_frames.mpr hf, hm, unpackPair, bind, Except.bind, Pure.pure, Except.pure, ho]

/-- The same for `lookup_angular_velocity`. -/
theorem C66_angular (hf : VelocityOf s frame reference representIn a ref rep) (o : VelArgs) {out : ND ℝ} {ts : List ℝ}
    (hm : s.lookupAngularVelocity ext a (some (.byObj ref)) (some (.byObj rep)) { o with allowStatic := false, returnTimestamps := true } = .ok (.withTs out (some ts)))
    (hs : IsSeries out (some ts)) :
    ∃ d, topLookupAngular ext s frame reference representIn o true = .ok (.da d) ∧ d.data = out ∧
      RecordedVelocity d "angular_velocity" "rad/s" ts (s.name a) (s.name ref) (s.name rep) ∧
      topLookupAngular ext s frame reference representIn o false = .ok (if o.returnTimestamps then .withTs out (some ts) else .single out) := by
  obtain ⟨d, h1, h2, h3⟩ := velocityArray_spec true (s.name a) (s.name ref) (s.name rep) hs.1
  refine ⟨d, ?_, h2, h3, ?_⟩
  · simp only [topLookupAngular, C66_frames.mpr hf, hm, unpackPair, someStamps, h1, bind, Except.bind, Pure.pure, Except.pure, if_true]
  · cases ho : o.returnTimestamps <;>
      simp [topLookupAngular, C66_frames.mpr hf, hm, unpackPair, bind, Except.bind, Pure.pure, Except.pure, ho]

/-- The same for both velocities in the dataset of `lookup_twist`. -/
theorem C66_twist (hf : VelocityOf s frame reference representIn a ref rep) (o : VelArgs) {lin ang : ND ℝ} {ts : List ℝ}
    (hm : s.lookupTwist ext a (some (.byObj ref)) (some (.byObj rep)) { o with allowStatic := false, returnTimestamps := true } = .ok (.triple lin ang (some ts)))
    (hl : lin.shape = [ts.length, 3]) (ha : ang.shape = [ts.length, 3]) :
    ∃ ds dl da, topLookupTwist ext s frame reference representIn o true = .ok (.ds ds) ∧ ds.var "linear_velocity" = some dl ∧
      ds.var "angular_velocity" = some da ∧ dl.data = lin ∧ da.data = ang ∧
      RecordedVelocity dl "linear_velocity" "m/s" ts (s.name a) (s.name ref) (s.name rep) ∧
      RecordedVelocity da "angular_velocity" "rad/s" ts (s.name a) (s.name ref) (s.name rep) ∧
      topLookupTwist ext s frame reference representIn o false = .ok (if o.returnTimestamps then .triple lin ang (some ts) else .pair lin ang) := by
  obtain ⟨dl, h1, h2, h3⟩ := velocityArray_spec false (s.name a) (s.name ref) (s.name rep) hl
  obtain ⟨da, k1, k2, k3⟩ := velocityArray_spec true (s.name a) (s.name ref) (s.name rep) ha
  have hfil : [timeCoord ts, cartesianCoord].filter (fun c => decide (∀ x ∈ c.2.dims, x ∈ ["time", "cartesian_axis"])) = [timeCoord ts, cartesianCoord] := by
    simp [timeCoord, cartesianCoord, labelCoord, List.filter_cons]
  simp only [makeVelocityDataArray, if_true, Bool.false_eq_true, if_false] at h1 k1
  have e : makeTwistDataset ang lin (s.name a) (s.name ref) (s.name rep) ts = .ok ⟨[("angular_velocity", da), ("linear_velocity", dl)]⟩ := by
    simp only [makeTwistDataset, dsVar, hfil, h1, k1, bind, Except.bind, Pure.pure, Except.pure]
  refine ⟨⟨[("angular_velocity", da), ("linear_velocity", dl)]⟩, dl, da, ?_, ?_, ?_, h2, k2, h3, k3, ?_⟩
  · simp only [topLookupTwist, C66_frames.mpr hf, hm, unpackTriple, someStamps, e, bind, Except.bind, Pure.pure, Except.pure, if_true]
  · simp [DSet.var, dictGet, List.lookup]
  · simp [DSet.var, dictGet, List.lookup]
  · cases ho : o.returnTimestamps <;>
      simp [topLookupTwist, C66_frames.mpr hf, hm, unpackTriple, bind, Except.bind, Pure.pure, Except.pure, ho]

/-- Failures of the lookups pass through; in particular two frames that do not move relative to each other give ValueError. -/
theorem C66_velocity_errors (hf : VelocityOf s frame reference representIn a ref rep) (o : VelArgs) (asDS : Bool) (e : PyErr) :
    (s.lookupLinearVelocity ext a (some (.byObj ref)) (some (.byObj rep)) { o with allowStatic := false, returnTimestamps := true } = .error e →
      topLookupLinear ext s frame reference representIn o asDS = .error e) ∧
    (s.lookupAngularVelocity ext a (some (.byObj ref)) (some (.byObj rep)) { o with allowStatic := false, returnTimestamps := true } = .error e →
      topLookupAngular ext s frame reference representIn o asDS = .error e) ∧
    (s.lookupTwist ext a (some (.byObj ref)) (some (.byObj rep)) { o with allowStatic := false, returnTimestamps := true } = .error e →
      topLookupTwist ext s frame reference representIn o asDS = .error e) := by
  refine ⟨fun hm => ?_, fun hm => ?_, fun hm => ?_⟩
  · simp only [topLookupLinear, C66_frames.mpr hf, hm, unpackPair, bind, Except.bind]
  · simp only [topLookupAngular, C66_frames.mpr hf, hm, unpackPair, bind, Except.bind]
  · simp only [topLookupTwist, C66_frames.mpr hf, hm, unpackTriple, bind, Except.bind]

theorem C66_static_velocity (hf : VelocityOf s frame reference representIn a ref rep) (o : VelArgs) (asDS : Bool)
    {t : Arr Vec} {r : Arr Quat} (he : s.lookupTransform ext.squad a (.byObj ref) = .ok (t, r, none)) :
    topLookupLinear ext s frame reference representIn o asDS = .error .valueError ∧
    topLookupAngular ext s frame reference representIn o asDS = .error .valueError ∧
    topLookupTwist ext s frame reference representIn o asDS = .error .valueError := by
  obtain ⟨h1, h2, h3⟩ := C66_velocity_errors (ext := ext) hf o asDS .valueError
  have r1 : ∀ i, s.resolveOr a (some (.byObj i)) = .ok i := fun _ => rfl
  refine ⟨h1 ?_, h2 ?_, h3 ?_⟩
  · simp [State.lookupLinearVelocity, r1, he, bind, Except.bind, throw, throwThe, MonadExceptOf.throw]
  · simp [State.lookupAngularVelocity, r1, he, bind, Except.bind, throw, throwThe, MonadExceptOf.throw]
  · simp [State.lookupTwist, r1, he, bind, Except.bind, throw, throwThe, MonadExceptOf.throw]

theorem recordedVelocity_into {sq : SquadFn} (hsq : SquadLaw sq) {x : XrOps} (hx : XrLaw x) (hr : Reachable s h) {d : DArr} {motion units : String} {ts : List ℝ} {m r : Option String}
    (hd : RecordedVelocity d motion units ts m r (s.name rep)) (hi : StrictlyIncreasing ts) (h2 : 2 ≤ ts.length)
    {n : String} (hn : s.name rep = some n) (hreg : s.resolve (.byName n) = .ok rep) {into : FrameRef} {c : ℕ} (hc : s.resolve into = .ok c)
    (hrs : rep < s.size) (hcs : c < s.size) (hp : PathAll s rep c (FrameOk true s)) {l : List ℕ} (hl : Route s rep c l) :
    ∃ d', topVectors sq x s (.da d) into { dim := some "cartesian_axis", timestamps := .name "time" } = .ok (.da d') ∧
      Labelled d d' "time" (outStamps s l ts) "representation_frame" (s.name c) ∧ d'.data.shape = [(outStamps s l ts).length, 3] ∧
      ∀ τ w, SampleAt d'.data (some (outStamps s l ts)) τ w → ∃ B w0, IsTransformAt sq s rep c τ B ∧ SampleAt d.data (some ts) τ w0 ∧ w = rot B.r w0 := by
  have hsh : d.data.shape = [ts.length, 3] := hd.recorded.shape
  obtain ⟨out, o1, o2, o3, o4⟩ := C57_vectors sq hsq x hx hr (timedDA_of hd.recorded hi h2) (by decide) (by rw [hsh]; rfl) (by decide)
    (.inl (by rw [ND.ndim, hsh]; rfl)) (into := into) (outof := none) (a := rep) (b := c) (.inr ⟨rfl, n, by rw [← hn]; exact hd.repr, hreg⟩) hc hrs hcs hp hl
  refine ⟨out, o1, o2, by rw [o3, hsh]; rfl, ?_⟩
  rintro τ w ⟨i, hi', rfl⟩
  obtain ⟨hm, _⟩ := mem_outStamps.mp (List.mem_of_getElem? hi')
  obtain ⟨k, hk⟩ := List.mem_iff_getElem?.mp hm
  have hkl : k < ts.length := (List.getElem?_eq_some_iff.mp hk).1
  obtain ⟨B, hB, f⟩ := o4 i k τ hi' hk
  have g := f [k, 0] (by rw [hsh]; exact ⟨hkl, by omega, trivial⟩)
  simp only [List.set_cons_zero] at g
  exact ⟨B, _, hB, ⟨k, hk, rfl⟩, g⟩

/-- A looked-up linear velocity, transformed with `transform_vectors` into another frame, is the velocity that is looked up with this frame as
`represent_in`: the estimated velocity relative to the reference frame, rotated from the reference frame. -/
theorem C66_linear_into (hsq : SquadLaw ext.squad) {x : XrOps} (hx : XrLaw x) (hr : Reachable s h) (hf : VelocityOf s frame reference representIn a ref rep)
    (ha : a < s.size) (hb : ref < s.size) (hrs : rep < s.size) (hp : PathAll s a ref (FrameOk true s)) (hp' : PathAll s ref rep (FrameOk true s))
    {l : List ℕ} (hl : Route s ref rep l)
    {tl : List Vec} {rl : List Quat} {ts : List ℝ} (he : s.lookupTransform ext.squad a (.byObj ref) = .ok (.many tl, .many rl, some ts))
    (o : VelArgs) {v : ND (Option ℝ)}
    (hv : estimateLinearVelocity ext x (.nd (ND.ofVecs (.many tl))) none none (.arr (ofList ts)) none o.outlier o.cutoff = .ok (.nd v))
    (hfin : AllFinite v) (hn2 : 2 ≤ (outStamps s l ts).length)
    {n : String} (hn : s.name rep = some n) (hreg : s.resolve (.byName n) = .ok rep) {into : FrameRef} {c : ℕ} (hc : s.resolve into = .ok c)
    (hcs : c < s.size) (hp'' : PathAll s rep c (FrameOk true s)) {l' : List ℕ} (hl' : Route s rep c l') :
    ∃ d d', topLookupLinear ext s frame reference representIn o true = .ok (.da d) ∧
      topVectors ext.squad x s (.da d) into { dim := some "cartesian_axis", timestamps := .name "time" } = .ok (.da d') ∧
      RecordedVelocity d "linear_velocity" "m/s" (outStamps s l ts) (s.name a) (s.name ref) (s.name rep) ∧
      (∀ τ w, SampleAt d.data (some (outStamps s l ts)) τ w → ∃ B w0 k, IsTransformAt ext.squad s ref rep τ B ∧ ts[k]? = some τ ∧
        HasVec v 1 [k, 0] w0 ∧ w = rot B.r w0) ∧
      HasStamps d' "time" (outStamps s l' (outStamps s l ts)) ∧ Attr d' "representation_frame" (s.name c) ∧ Attr d' "reference_frame" (s.name ref) ∧
      Attr d' "moving_frame" (s.name a) ∧
      ∀ τ w, SampleAt d'.data (some (outStamps s l' (outStamps s l ts))) τ w → ∃ B w0 k, IsTransformAt ext.squad s ref c τ B ∧ ts[k]? = some τ ∧
        HasVec v 1 [k, 0] w0 ∧ w = rot B.r w0 := by
  obtain ⟨out, h1, h2, h3⟩ := C36_lookup hsq x hr ha hb hrs (reference := some (.byObj ref)) (representIn := some (.byObj rep)) rfl rfl hp hp' hl he
    { o with allowStatic := false, returnTimestamps := true } hv hfin hn2
  obtain ⟨d, d1, d2, d3, _⟩ := C66_linear hf o h1 h2
  obtain ⟨d', e1, e2, e3, e4⟩ := recordedVelocity_into hsq hx hr d3 h2.2.2 h2.2.1 hn hreg hc hrs hcs hp'' hl'
  subst d2
  refine ⟨d, d', d1, e1, d3, h3, e2.stamps, e2.repr, ?_, ?_, ?_⟩
  · rw [Attr, e2.attrs _ (by decide) (by decide)]; exact d3.reference
  · rw [Attr, e2.attrs _ (by decide) (by decide)]; exact d3.moving
  · intro τ w hw
    obtain ⟨C, w1, hC, hw1, rfl⟩ := e4 τ w hw
    obtain ⟨B, w0, k, hB, hk, hw0, rfl⟩ := h3 τ w1 hw1
    refine ⟨C.comp B, w0, k, (isTransformAt_comp (mv := true) (fun _ => hsq) hr.wf hb hcs hp' hp'' hB hC).1, hk, hw0, ?_⟩
    exact (rot_mul _ _ (isTransformAt_ne hr.wf (mv := true) (fun _ => hsq) hp'' hC) (isTransformAt_ne hr.wf (mv := true) (fun _ => hsq) hp' hB) w0).symm

/-- The same for the angular velocity. -/
theorem C66_angular_into (hsq : SquadLaw ext.squad) {x : XrOps} (hx : XrLaw x) (hr : Reachable s h) (hf : VelocityOf s frame reference representIn a ref rep)
    (ha : a < s.size) (hb : ref < s.size) (hrs : rep < s.size) (hp : PathAll s a ref (FrameOk true s)) (hp' : PathAll s a rep (FrameOk true s))
    {l : List ℕ} (hl : Route s a rep l)
    {tl : List Vec} {rl : List Quat} {ts : List ℝ} (he : s.lookupTransform ext.squad a (.byObj ref) = .ok (.many tl, .many rl, some ts))
    (o : VelArgs) {v : ND (Option ℝ)}
    (hv : estimateAngularVelocity ext x (.nd (ND.ofQuats (.many rl))) none none (.arr (ofList ts)) none o.mode o.outlier o.cutoff = .ok (.nd v))
    (hfin : AllFinite v) (hn2 : 2 ≤ (outStamps s l ts).length)
    {n : String} (hn : s.name rep = some n) (hreg : s.resolve (.byName n) = .ok rep) {into : FrameRef} {c : ℕ} (hc : s.resolve into = .ok c)
    (hcs : c < s.size) (hp'' : PathAll s rep c (FrameOk true s)) {l' : List ℕ} (hl' : Route s rep c l') :
    ∃ d d', topLookupAngular ext s frame reference representIn o true = .ok (.da d) ∧
      topVectors ext.squad x s (.da d) into { dim := some "cartesian_axis", timestamps := .name "time" } = .ok (.da d') ∧
      RecordedVelocity d "angular_velocity" "rad/s" (outStamps s l ts) (s.name a) (s.name ref) (s.name rep) ∧
      (∀ τ w, SampleAt d.data (some (outStamps s l ts)) τ w → ∃ A w0 k, IsTransformAt ext.squad s a rep τ A ∧ ts[k]? = some τ ∧
        HasVec v 1 [k, 0] w0 ∧ w = rot A.r w0) ∧
      HasStamps d' "time" (outStamps s l' (outStamps s l ts)) ∧ Attr d' "representation_frame" (s.name c) ∧ Attr d' "reference_frame" (s.name ref) ∧
      Attr d' "moving_frame" (s.name a) ∧
      ∀ τ w, SampleAt d'.data (some (outStamps s l' (outStamps s l ts))) τ w → ∃ A w0 k, IsTransformAt ext.squad s a c τ A ∧ ts[k]? = some τ ∧
        HasVec v 1 [k, 0] w0 ∧ w = rot A.r w0 := by
  obtain ⟨out, h1, h2, h3⟩ := C37_lookup hsq x hr ha hb hrs (reference := some (.byObj ref)) (representIn := some (.byObj rep)) rfl rfl hp hp' hl he
    { o with allowStatic := false, returnTimestamps := true } hv hfin hn2
  obtain ⟨d, d1, d2, d3, _⟩ := C66_angular hf o h1 h2
  obtain ⟨d', e1, e2, e3, e4⟩ := recordedVelocity_into hsq hx hr d3 h2.2.2 h2.2.1 hn hreg hc hrs hcs hp'' hl'
  subst d2
  refine ⟨d, d', d1, e1, d3, h3, e2.stamps, e2.repr, ?_, ?_, ?_⟩
  · rw [Attr, e2.attrs _ (by decide) (by decide)]; exact d3.reference
  · rw [Attr, e2.attrs _ (by decide) (by decide)]; exact d3.moving
  · intro τ w hw
    obtain ⟨C, w1, hC, hw1, rfl⟩ := e4 τ w hw
    obtain ⟨A, w0, k, hA, hk, hw0, rfl⟩ := h3 τ w1 hw1
    refine ⟨C.comp A, w0, k, (isTransformAt_comp (mv := true) (fun _ => hsq) hr.wf ha hcs hp' hp'' hA hC).1, hk, hw0, ?_⟩
    exact (rot_mul _ _ (isTransformAt_ne hr.wf (mv := true) (fun _ => hsq) hp'' hC) (isTransformAt_ne hr.wf (mv := true) (fun _ => hsq) hp' hA) w0).symm

end

/-! ### The labels of lookup_transform -/

section

variable {sq : SquadFn} {x : XrOps} {s : State} {h : List Event} {a b : ℕ} {outof into : FrameRef}

/-- Since the dataset of `lookup_transform` is labelled with the source frame although the translation is expressed in the target frame,
transforming the translation into the target frame applies the transformation once more. -/
theorem C66_transform_twice (hsq : SquadLaw sq) (hr : Reachable s h) (h1 : s.resolve outof = .ok a) (h2 : s.resolve into = .ok b)
    (ha : a < s.size) (hb : b < s.size) (hp : PathAll s a b (FrameOk true s)) {n : String} (hn : s.name a = some n) (hreg : s.resolve (.byName n) = .ok a)
    {A : Pose} (hA : s.lookupTransform sq a (.byObj b) = .ok (.one A.t, .one A.r, none)) :
    ∃ ds tr out, topLookupTransform sq s outof into true false = .ok (.ds ds) ∧ ds.var "translation" = some tr ∧
      topPoints sq x s (.da tr) into {} = .ok (.da out) ∧ vec3 tr.data 0 [0] = A.t ∧ vec3 out.data 0 [0] = A.act A.t := by
  obtain ⟨ds, tr, ro, ts, e1, e2, e3, e4, e5, _, e7, _, _, _, e8, e9⟩ := C66_transform_partial hsq hr h1 h2 ha hb hp false
  have hts : ts = none ∧ tr.data = ND.ofVecs (.one A.t) := by
    obtain ⟨ds', lin, ang, d1, d2, d3, d4, d5, d6, _⟩ := makeDataset_spec (t := ND.ofVecs (.one A.t)) (r := ND.ofQuats (.one A.r)) (ts := none) (s.name a) false rfl rfl
    have : topLookupTransform sq s outof into true false = .ok (.ds ds') := by
      simp only [topLookupTransform, h1, h2, hA, d1, bind, Except.bind, Pure.pure, Except.pure, if_true]
    rw [e1] at this
    cases this
    simp only [Bool.false_eq_true, if_false] at d2 d6
    rw [e2] at d2
    cases d2
    refine ⟨?_, d4⟩
    cases ts with
    | none => rfl
    | some l =>
      have := e4.dims.symm.trans d6.dims
      simp at this
  obtain ⟨rfl, htr⟩ := hts
  have hv : vec3 tr.data 0 [0] = A.t := by rw [htr]; exact ofVecs_one _
  obtain ⟨out, t, r, ts, o1, o2, o3, o4, o5⟩ := C70_point_partial (x := x) hsq hr e4.ok e4.dims (by decide) e4.shape (outof := none)
    (.inr ⟨rfl, n, by rw [← hn]; exact e7.2, hreg⟩) h2 ha hb hp
  rw [hA] at o2
  cases o2
  obtain ⟨A', hA', e⟩ := o5 0 _ rfl
  have hAt := isTransformAt_unique hr.wf (mv := true) (fun _ => hsq) hp hA'
    (C15_lookup_agrees sq (mv := true) (fun _ => hsq) hr ha hb hp (.inl hA)).1
  exact ⟨ds, tr, out, e1, e2, o1, hv, by rw [e, hv, hAt]⟩

end

end RBM.Props
