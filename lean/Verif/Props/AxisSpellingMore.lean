import Verif.Props.AxisSpelling
import Verif.Props.VelocityTop
import Verif.Props.ExamplesVelocity

/-!
C88, continued: where the two ways of writing an axis differ; DataArrays of velocities end to end (C57).
-/

namespace RBM.Props

open RBM.Spec

/-- A single vector or point without timestamps through moving frames: it is repeated for every timestamp of the lookup, along a new first axis, so that
`axis=0` no longer denotes the axis of the coordinates. The call fails unless there are three timestamps; with `axis=-1` it succeeds (`C30_single_vector_partial`). -/
theorem C88_single_front (sq : SquadFn) (hsq : SquadLaw sq) {s : State} {h : List Event} (hr : Reachable s h)
    {a b : ℕ} (ha : a < s.size) (hb : b < s.size) (hp : PathAll s a b (FrameOk true s)) {l : List ℕ}
    (hl : Route s a b l) (hm : Moving s l) (w : ND ℝ) (hw : w.shape = [3]) (rt : Bool) :
    ∃ tl rl ts, s.lookupTransform sq a (.byObj b) = .ok (.many tl, .many rl, some ts) ∧
      (ts.length ≠ 3 → s.transformVectors sq a w (.byObj b) { axis := 0, returnTimestamps := rt } = .error .valueError ∧
        s.transformPoints sq a w (.byObj b) { axis := 0, returnTimestamps := rt } = .error .valueError) := by
  obtain ⟨m, ts, T, e1, hT, e2, e3, tl, rl, e4⟩ := core_moving sq hsq hr.wf ha hb hp hl hm w
  refine ⟨tl, rl, ts, e4, fun hn => ?_⟩
  have hts : (w.tileN1 ts.length).shape = [ts.length, 3] := by simp [ND.tileN1, hw]
  have hnd : (w.tileN1 ts.length).ndim = 2 := by simp [ND.ndim, hts]
  obtain ⟨Q, q1, q2, _⟩ := expand_quats (ts.map fun τ => (T τ).r) (d := 2) (le_refl 2)
  have hrot : rotateVectorsF (expandSingletonAxes (ND.ofQuats (.many (ts.map fun τ => (T τ).r))) (w.tileN1 ts.length).ndim)
      (w.tileN1 ts.length) 0 = .error .valueError := by
    rw [hnd]
    simp only [rotateVectorsF]
    cases hsw : (expandSingletonAxes (ND.ofQuats (.many (ts.map fun τ => (T τ).r))) 2).swapaxesZ (-1) (-1) with
    | error e => rw [hsw] at q1; simp [bind, Except.bind] at q1
    | ok X =>
      rw [hsw] at q1
      simp only [bind, Except.bind] at q1 ⊢
      simp only [q1]
      have hqn : Q.ndim = 1 := by simp [ND.ndim, q2]
      simp only [rotateVectorsQ, hqn, hnd]
      simp [show normAxis 0 2 = some 0 by simp [normAxis], hts, hn]
  have hax : AxisIs 0 w.ndim 0 := ⟨by simp [ND.ndim, hw], .inl rfl⟩
  constructor
  · simp only [State.transformVectors, State.transformVectorsCore, validateInput_static hax (show w.shape.getD 0 0 = 3 by simp [hw]),
      bind, Except.bind, e1, e2, e3, hrot]
  · simp only [State.transformPoints, State.transformPointsCore, validateInput_static hax (show w.shape.getD 0 0 = 3 by simp [hw]),
      bind, Except.bind, e1, e2, e3, hrot]

/-- Hence `C88_vectors` needs its hypothesis on timestamps. -/
theorem C88_untimed_is_false : ¬ ∀ (sq : SquadFn), SquadLaw sq → ∀ (s : State) (h : List Event), Reachable s h → ∀ (a b : ℕ), a < s.size → b < s.size →
    PathAll s a b (FrameOk true s) → ∀ (w : ND ℝ) (i j : ℤ), w.shape = [3] → SameAxis w.ndim i j →
      s.transformVectors sq a w (.byObj b) { axis := i } = s.transformVectors sq a w (.byObj b) { axis := j } := by
  intro hall
  have h2 : 2 < Ex.m3.size := exM_lt (by norm_num)
  have h0 : 0 < Ex.m3.size := exM_lt (by norm_num)
  have hm : Moving Ex.m3 [2] := ⟨2, by simp, true, [1, 2], by rw [Ex.m3_eq]; simp [stampsOf, Ex.dataD]⟩
  have e := hall _ Ex.holdSquad_law _ _ Ex.reachM 2 0 h2 h0 ex_pathAll_d (Ex.arr1 [1, 2, 3]) (-1) 0 rfl
    ⟨0, ⟨by simp [ND.ndim, Ex.arr1], .inr (by simp [ND.ndim, Ex.arr1])⟩, ⟨by simp [ND.ndim, Ex.arr1], .inl rfl⟩⟩
  obtain ⟨out, ts, tl, rl, e1, e2, -⟩ := C30_single_vector_partial _ Ex.holdSquad_law Ex.reachM h2 h0 ex_pathAll_d ex_route_d hm (Ex.arr1 [1, 2, 3]) rfl false
  obtain ⟨tl', rl', ts', e3, e4⟩ := C88_single_front _ Ex.holdSquad_law Ex.reachM h2 h0 ex_pathAll_d ex_route_d hm (Ex.arr1 [1, 2, 3]) rfl false
  obtain ⟨g1, g2⟩ := C27_discrete_events Ex.holdSquad Ex.holdSquad_law Ex.reachM h2 h0 ex_pathAll_d ex_route_d e3 (by simp [exM_stamps])
  have hmem : ∀ x, x ∈ ts' ↔ x = 1 ∨ x = 2 := fun x => (g2 x).trans (by
    have : stampsOf Ex.m3 true 2 = some [1, 2] := by rw [Ex.m3_eq]; simp [stampsOf, Ex.dataD]
    simp [this])
  have hlen : ts'.length ≠ 3 := by
    intro hlen
    obtain ⟨x, y, z, rfl⟩ := List.length_eq_three.mp hlen
    have hx := (hmem x).mp (by simp)
    have hy := (hmem y).mp (by simp)
    have hz := (hmem z).mp (by simp)
    simp only [StrictlyIncreasing, List.pairwise_cons, List.mem_cons, List.not_mem_nil, or_false, forall_eq_or_imp, forall_eq] at g1
    rcases hx with rfl | rfl <;> rcases hy with rfl | rfl <;> rcases hz with rfl | rfl <;> norm_num at g1
  rw [(e4 hlen).1, e1] at e
  cases e

section
variable {ext : Ext} {x : XrOps} {s : State}

/-- `transform_angular_velocity` and `transform_linear_velocity` of a DataArray whose first dimension is time: the method with its default axes, with labels. -/
theorem C88_labelled (hx : XrLaw x) {d : DArr} {dim td : String} {ats : List ℝ} (hd : TimedDA d dim td 1 0 ats) (hne : dim ≠ td) {n : ℕ} (hsh : d.data.shape = [n, 3])
    {into : FrameRef} {outof movingFrame referenceFrame : Option FrameRef} {what : String} {a b : ℕ} (ha : SourceFrame s d outof what a) (hb : s.resolve into = .ok b)
    {outlier cutoff : Option ℝ} {arr : ND ℝ} {ts : List ℝ} (hs : arr.shape = [ts.length, 3]) :
    (s.transformAngularVelocity ext a d.data (.byObj b) what { timestamps := some (ofList ats), returnTimestamps := true } cutoff = .ok (.withTs arr (some ts)) →
      ∃ out, topAngularVelocity ext x s (.da d) into what { outof := outof, dim := some dim, timestamps := .name td } cutoff = .ok (.da out) ∧
        out.data = arr ∧ Labelled d out td ts what (s.name b)) ∧
    (s.transformLinearVelocity ext a d.data (.byObj b) what movingFrame referenceFrame { timestamps := some (ofList ats), returnTimestamps := true } outlier cutoff =
        .ok (.withTs arr (some ts)) →
      ∃ out, topLinearVelocity ext x s (.da d) into what movingFrame referenceFrame { outof := outof, dim := some dim, timestamps := .name td }
          outlier cutoff = .ok (.da out) ∧ out.data = arr ∧ Labelled d out td ts what (s.name b)) := by
  have hn : d.data.ndim = 2 := by simp [ND.ndim, hsh]
  have hax : SameAxis d.data.ndim (-1) ((1 : ℕ) : ℤ) := by rw [hn]; exact ⟨1, ⟨by norm_num, .inr rfl⟩, ⟨by norm_num, .inl rfl⟩⟩
  have hta : SameAxisOpt d.data.ndim (some 0) (some ((0 : ℕ) : ℤ)) :=
    .inr ⟨0, 0, rfl, rfl, by rw [hn]; exact ⟨0, ⟨by norm_num, .inl rfl⟩, ⟨by norm_num, .inl rfl⟩⟩⟩
  have hset : arr.shape = d.data.shape.set 0 ts.length := by rw [hs, hsh]; rfl
  obtain ⟨k1, k2⟩ := C88_velocities (ext := ext) (s := s) (a := a) (dst := .byObj b) (o := { timestamps := some (ofList ats), returnTimestamps := true }) hn
    (by simp) hax hta what movingFrame referenceFrame outlier cutoff
  exact ⟨fun h => C57_angular_velocity hx hd hne ha hb (k1.trans h) hset, fun h => C57_linear_velocity hx hd hne ha hb (k2.trans h) hset⟩

/-- Angular velocities add up along the tree, for DataArrays (`C37_chain`): the result is labelled, and it holds the angular velocity in the new frame. -/
theorem C57_angular_chain {h : List Event} {a b : ℕ} {l : List ℕ} (hx : XrLaw x) (hsq : SquadLaw ext.squad) (hr : Reachable s h) (ha : a < s.size) (hb : b < s.size)
    (hp : PathAll s a b (FrameOk true s)) (hl : Route s a b l) {d : DArr} {dim td : String} {ats : List ℝ} (hd : TimedDA d dim td 1 0 ats) (hne : dim ≠ td)
    (hs : IsSeries d.data (some ats)) {into : FrameRef} {outof : Option FrameRef} (hsrc : SourceFrame s d outof "reference_frame" a) (hinto : s.resolve into = .ok b)
    {tl : List Vec} {rl : List Quat} {ts : List ℝ} (he : s.lookupTransform ext.squad a (.byObj b) = .ok (.many tl, .many rl, some ts))
    (hacc : ext.derivErr ts = none) (h2ts : 2 ≤ ts.length) (h2 : 2 ≤ (outStamps s l ats).length)
    {q m : ℝ → Quat} (hu : ∀ t, IsUnitQ (q t)) (hm : ∀ t, m t ≠ 0)
    (hq : ∀ τ ∈ ts, ∀ A, IsTransformAt ext.squad s a b τ A → A.r = q τ)
    (hdq : ∀ (k : ℕ) τ, ts[k]? = some τ → HasDerivAt q (quatDeriv ext rl ts k) τ)
    (harr : ∀ τ w, SampleAt d.data (some ats) τ w → IsSpaceRate m τ w) :
    ∃ out ots, topAngularVelocity ext x s (.da d) into "reference_frame" { outof := outof, dim := some dim, timestamps := .name td } none = .ok (.da out) ∧
      sharedStamps [some (outStamps s l ats), some ts] = some ots ∧ Labelled d out td ots "reference_frame" (s.name b) ∧
      ∀ τ w, τ ∈ ts → SampleAt out.data (some ots) τ w → IsSpaceRate (fun t => q t * m t) τ w := by
  obtain ⟨v, ots, o1, o2, o3, o4⟩ := C37_chain hsq x hr ha hb hp hl hs he hacc h2ts (by intro y hy; cases hy; exact h2) true hu hm hq hdq harr
  rw [show sharedStamps [arrayStamps s l (some ts) (some ats), some ts] = some _ from rfl] at o2
  subst o2
  obtain ⟨out, t1, t2, t3⟩ := (C88_labelled (ext := ext) (movingFrame := none) (referenceFrame := none) (outlier := none) hx hd hne hs.1 hsrc hinto o3).1 o1
  exact ⟨out, _, t1, rfl, t3, by rw [t2]; exact o4⟩

/-- The linear velocity of a moving frame in another reference frame, for DataArrays (`C38_exact_uniform`). -/
theorem C57_linear_exact {h : List Event} {a b m : ℕ} {l : List ℕ} (hx : XrLaw x) (hsq : SquadLaw ext.squad) (hf : FiltLaw ext) (hr : Reachable s h)
    (ha : a < s.size) (hb : b < s.size) (hm : m < s.size) (hp : PathAll s a b (FrameOk true s)) (hpm : PathAll s m a (FrameOk true s)) (hl : Route s a b l)
    {d : DArr} {dim td : String} {ats : List ℝ} (hd : TimedDA d dim td 1 0 ats) (hne : dim ≠ td) (hs : IsSeries d.data (some ats))
    {into : FrameRef} {outof : Option FrameRef} (hsrc : SourceFrame s d outof "reference_frame" a) (hinto : s.resolve into = .ok b)
    {tl : List Vec} {rl : List Quat} {ts : List ℝ} (he : s.lookupTransform ext.squad a (.byObj b) = .ok (.many tl, .many rl, some ts))
    {tr : Arr Vec} {ro : Arr Quat} {trTs : Option (List ℝ)} (hem : s.lookupTransform ext.squad m (.byObj a) = .ok (tr, ro, trTs))
    (h2 : ∀ y, some (outStamps s l ats) = some y ∨ arrayStamps s l (some ts) trTs = some y ∨ trTs = some y → 2 ≤ y.length)
    (hacc : ext.derivErr ts = none) (h2ts : 2 ≤ ts.length) {q : ℝ → Quat} (hu : ∀ t, IsUnitQ (q t)) {c V : Vec}
    (hmove : ∀ τ ∈ ts, ∀ A, IsTransformAt ext.squad s a b τ A → A.t = c + τ • V ∧ A.r = q τ)
    (hdq : ∀ (k : ℕ) τ, ts[k]? = some τ → HasDerivAt q (quatDeriv ext rl ts k) τ)
    {mref : FrameRef} (hmref : s.resolve mref = .ok m) (rf : Option FrameRef) :
    ∃ out ots, topLinearVelocity ext x s (.da d) into "reference_frame" (some mref) rf { outof := outof, dim := some dim, timestamps := .name td } none none =
        .ok (.da out) ∧
      sharedStamps [some (outStamps s l ats), some ts, some ts, arrayStamps s l (some ts) trTs] = some ots ∧ Labelled d out td ots "reference_frame" (s.name b) ∧
      ∀ τ w, τ ∈ ts → (∀ y, arrayStamps s l (some ts) trTs = some y → τ ∈ y) → SampleAt out.data (some ots) τ w →
        ∀ p : ℝ → Vec, (∀ C, IsTransformAt ext.squad s m a τ C → C.t = p τ) → (∀ w, SampleAt d.data (some ats) τ w → HasDerivAt p w τ) →
          HasDerivAt (fun t => rot (q t) (p t) + (c + t • V)) w τ := by
  obtain ⟨v, ots, o1, o2, o3, o4⟩ := C38_exact_uniform hsq hf x hr ha hb hm hp hpm hl hs he hem h2 hacc h2ts hu hmove hdq hmref rf true
  rw [show sharedStamps [arrayStamps s l (some ts) (some ats), some ts, some ts, arrayStamps s l (some ts) trTs] = some _ from rfl] at o2
  subst o2
  obtain ⟨out, t1, t2, t3⟩ := (C88_labelled (ext := ext) hx hd hne hs.1 hsrc hinto o3).2 o1
  exact ⟨out, _, t1, rfl, t3, by rw [t2]; exact o4⟩

end

/-! ### Concrete cases -/

/-- A series in the frame "v", at the timestamps of the frame. -/
noncomputable def exSpin (w : List ℝ) : DArr :=
  ⟨Ex.arr2 3 [w, w, w], ⟨[("time", ⟨["time"], .num (ofList [0, 1, 3])⟩), ("cartesian_axis", labelCoord "cartesian_axis" ["x", "y", "z"])],
    ["time", "cartesian_axis"], some "velocity", [("reference_frame", some "v")]⟩⟩

theorem exSpin_ok (w : List ℝ) : TimedDA (exSpin w) "cartesian_axis" "time" 1 0 [0, 1, 3] := by
  refine ⟨⟨rfl, by simp [exSpin], ?_, ?_, by simp [exSpin], ?_⟩, rfl, rfl, rfl,
    ⟨by simp [exSpin, ND.ndim, Ex.arr2], rfl, by simp, by simp [StrictlyIncreasing]⟩⟩
  · intro c hc
    simp only [exSpin, List.mem_cons, List.not_mem_nil, or_false] at hc
    rcases hc with rfl | rfl <;> simp [labelCoord, exSpin]
  · intro c hc
    simp only [exSpin, List.mem_cons, List.not_mem_nil, or_false] at hc
    rcases hc with rfl | rfl <;> simp [labelCoord, exSpin, CVals.shape, ofList, Ex.arr2, List.idxOf, List.findIdx, List.findIdx.go]
  · intro k c hc hk
    simp only [exSpin, List.mem_cons, List.not_mem_nil, or_false] at hk
    rcases hk with rfl | rfl
    · simp [exSpin, dictGet, List.lookup] at hc; subst hc; rfl
    · simp [exSpin, dictGet, List.lookup] at hc; subst hc; rfl

theorem exSpin_series (w : List ℝ) : IsSeries (exSpin w).data (some [0, 1, 3]) := ⟨rfl, by simp, by simp [StrictlyIncreasing]⟩

theorem exSpin_sample {x y z : ℝ} {τ : ℝ} {w : Vec} (h : SampleAt (exSpin [x, y, z]).data (some [0, 1, 3]) τ w) : w = ![x, y, z] := by
  obtain ⟨k, hk, rfl⟩ := h
  refine three_stamps (P := fun k _ => vec3 (exSpin [x, y, z]).data 1 [k, 0] = ![x, y, z]) ?_ ?_ ?_ k τ hk <;>
  · funext i; fin_cases i <;> rfl

theorem exSpin_source (w : List ℝ) : SourceFrame Ex.v3 (exSpin w) none "reference_frame" 1 :=
  .inr ⟨rfl, "v", rfl, by rw [Ex.v3_eq]; simp [State.resolve, dictGet, List.lookup]⟩

theorem exSpin_into : Ex.v3.resolve (.byName "world") = .ok 0 := by rw [Ex.v3_eq]; simp [State.resolve, dictGet, List.lookup]

theorem exSpin_shared {y : List ℝ} (hy : some y ∈ [some [0, 1, 3], (none : Option (List ℝ))]) {r : List (Option (List ℝ))} (hr : ∀ z ∈ r, z = some [0, 1, 3]) :
    sharedStamps (some y :: r) = some [0, 1, 3] := by
  have : y = [0, 1, 3] := by simpa using hy
  subst this
  refine sharedStamps_all (by simp [StrictlyIncreasing]) ?_ (by simp)
  intro z hz
  rcases List.mem_cons.mp hz with rfl | hz
  · exact .inr rfl
  · exact .inr (hr z hz)

/-- `C57_angular_chain`, `C57_angular_velocity`, `C88_labelled`, `C88_velocities`: unit angular velocity about z in the turning frame "v", in world. -/
example : ∃ out, topAngularVelocity Ex.extR exXr Ex.v3 (.da (exSpin [0, 0, 1])) (.byName "world") "reference_frame" { dim := some "cartesian_axis", timestamps := .name "time" } none =
      .ok (.da out) ∧ Labelled (exSpin [0, 0, 1]) out "time" [0, 1, 3] "reference_frame" (some "world") ∧
    ∀ τ w, SampleAt out.data (some [0, 1, 3]) τ w → IsSpaceRate (fun t => Ex.rz t * Ex.rz t) τ w := by
  obtain ⟨h, hr⟩ := Ex.reachV
  obtain ⟨out, ots, o1, o2, o3, o4⟩ := C57_angular_chain (ext := Ex.extR) (x := exXr) exXr_law Ex.extR_squad hr exV_lt.2.1 exV_lt.1 exV_path.1 exV_path.2
    (exSpin_ok [0, 0, 1]) (by decide) (exSpin_series _) (exSpin_source _) exSpin_into exV_lookup exV_acc (by simp) (by rw [exV_stamps [1] (by simp)]; simp)
    (q := Ex.rz) (m := Ex.rz) Ex.rz_unit (fun τ => (Ex.rz_unit τ).ne_zero) (fun τ hτ A hA => (exV_poses τ hτ A hA).2) Ex.rz_deriv
    (by intro τ w hw; rw [exSpin_sample hw]; exact (Ex.rz_rate τ).1)
  rw [exV_stamps [1] (by simp), exSpin_shared (by simp) (by simp)] at o2
  cases o2
  refine ⟨out, o1, by simpa [Ex.v3_eq] using o3, fun τ w hw => o4 τ w ?_ hw⟩
  obtain ⟨k, hk, _⟩ := hw
  exact List.mem_of_getElem? hk

/-- `C57_linear_exact`, `C57_linear_velocity`: the velocity (0, 1, 0) of "p" in "v", in world. -/
example : ∃ out, topLinearVelocity Ex.extR exXr Ex.v3 (.da (exSpin [0, 1, 0])) (.byName "world") "reference_frame" (some (.byName "p")) none
      { dim := some "cartesian_axis", timestamps := .name "time" } none none = .ok (.da out) ∧
    Labelled (exSpin [0, 1, 0]) out "time" [0, 1, 3] "reference_frame" (some "world") ∧
    ∀ τ w, SampleAt out.data (some [0, 1, 3]) τ w → HasDerivAt (fun t => rot (Ex.rz t) (![1, 0, 0] + t • ![0, 1, 0]) + (0 + t • ![2, 0, 0])) w τ := by
  obtain ⟨h, hr⟩ := Ex.reachV
  have hst : arrayStamps Ex.v3 [1] (some [0, 1, 3]) (some [0, 1, 3]) = some [0, 1, 3] := by
    simp only [arrayStamps]; rw [exV_stamps [1] (by simp)]
  obtain ⟨out, ots, o1, o2, o3, o4⟩ := C57_linear_exact (ext := Ex.extR) (x := exXr) exXr_law Ex.extR_squad Ex.extR_filt hr exV_lt.2.1 exV_lt.1 exV_lt.2.2 exV_path.1 exP_path.1
    exV_path.2 (exSpin_ok [0, 1, 0]) (by decide) (exSpin_series _) (exSpin_source _) exSpin_into exV_lookup exP_lookup
    (by
      rw [hst, exV_stamps [1] (by simp)]
      rintro y (hy | hy | hy) <;> cases hy <;> simp) exV_acc (by simp) Ex.rz_unit exV_poses Ex.rz_deriv (mref := .byName "p")
    (by rw [Ex.v3_eq]; simp [State.resolve, dictGet, List.lookup]) none
  rw [exV_stamps [1] (by simp), hst, exSpin_shared (by simp) (by simp)] at o2
  cases o2
  refine ⟨out, o1, by simpa [Ex.v3_eq] using o3, fun τ w hw => ?_⟩
  have hτ : τ ∈ ([0, 1, 3] : List ℝ) := by
    obtain ⟨k, hk, _⟩ := hw
    exact List.mem_of_getElem? hk
  refine o4 τ w hτ (by rw [hst]; intro y hy; cases hy; exact hτ) hw (fun t => ![1, 0, 0] + t • ![0, 1, 0]) (fun C hC => (exP_poses τ hτ C hC).1) ?_
  intro w hw
  rw [exSpin_sample hw]
  have := ((hasDerivAt_id τ).smul_const (![0, 1, 0] : Vec)).const_add ![1, 0, 0]
  simpa using this

theorem same_last : SameAxis 2 (-1) 1 := ⟨1, ⟨by norm_num, .inr rfl⟩, ⟨by norm_num, .inl rfl⟩⟩
theorem same_first : SameAxis 2 0 (-2) := ⟨0, ⟨by norm_num, .inl rfl⟩, ⟨by norm_num, .inr rfl⟩⟩

/-- `C88_points`, `C88_vectors`: three timed points along the moving path; the same array with `axis=1, time_axis=-2`. -/
example : ∃ out ts, Ex.m3.transformPoints Ex.holdSquad 1 (Ex.arr2 3 [[1, 2, 3], [4, 5, 6], [7, 8, 9]]) (.byObj 2)
      { timestamps := some (ofList [-1, 0, 1]), returnTimestamps := true } = .ok (.withTs out ts) ∧
    Ex.m3.transformPoints Ex.holdSquad 1 (Ex.arr2 3 [[1, 2, 3], [4, 5, 6], [7, 8, 9]]) (.byObj 2)
      { axis := 1, timeAxis := some (-2), timestamps := some (ofList [-1, 0, 1]) } = .ok (.single out) ∧
    ∃ out', Ex.m3.transformVectors Ex.holdSquad 1 (Ex.arr2 3 [[1, 2, 3], [4, 5, 6], [7, 8, 9]]) (.byObj 2)
      { axis := 1, timeAxis := some (-2), timestamps := some (ofList [-1, 0, 1]) } = .ok (.single out') := by
  have h1 := exM_lt (k := 1) (by norm_num)
  have h2 := exM_lt (k := 2) (by norm_num)
  have hax : AxisIs (-1) (Ex.arr2 3 [[1, 2, 3], [4, 5, 6], [7, 8, 9]]).ndim 1 := ⟨by simp [ND.ndim, Ex.arr2], .inr (by simp [ND.ndim, Ex.arr2])⟩
  have hta : AxisIs 0 (Ex.arr2 3 [[1, 2, 3], [4, 5, 6], [7, 8, 9]]).ndim 0 := ⟨by simp [ND.ndim, Ex.arr2], .inl rfl⟩
  have htm : TimedArray (Ex.arr2 3 [[1, 2, 3], [4, 5, 6], [7, 8, 9]]) 0 [-1, 0, 1] := ⟨by simp [ND.ndim, Ex.arr2], rfl, by simp, by simp [StrictlyIncreasing]⟩
  obtain ⟨out, e1, -⟩ := C15_points_timed Ex.holdSquad Ex.holdSquad_law Ex.reachM h1 h2 ex_pathAll_moving ex_route_moving
    (Ex.arr2 3 [[1, 2, 3], [4, 5, 6], [7, 8, 9]]) { timestamps := some (ofList [-1, 0, 1]), returnTimestamps := true } hax rfl rfl hta rfl htm (by norm_num) (by norm_num) rfl
  obtain ⟨out', e1', -⟩ := C15_vectors_timed Ex.holdSquad Ex.holdSquad_law Ex.reachM h1 h2 ex_pathAll_moving ex_route_moving
    (Ex.arr2 3 [[1, 2, 3], [4, 5, 6], [7, 8, 9]]) { timestamps := some (ofList [-1, 0, 1]), returnTimestamps := true } hax rfl rfl hta rfl htm (by norm_num) (by norm_num) (.inl rfl)
  refine ⟨out, _, e1, ?_, out', ?_⟩
  · exact C88_points (arr := Ex.arr2 3 [[1, 2, 3], [4, 5, 6], [7, 8, 9]]) (i := 1) (o := { timestamps := some (ofList [-1, 0, 1]) }) (le_refl 2) same_last (.inr ⟨0, -2, rfl, rfl, same_first⟩)
      ⟨by simp, fun _ => ⟨le_refl 2, .inl rfl⟩⟩ e1 false
  · exact C88_vectors (arr := Ex.arr2 3 [[1, 2, 3], [4, 5, 6], [7, 8, 9]]) (i := 1) (o := { timestamps := some (ofList [-1, 0, 1]) }) same_last (.inr ⟨0, -2, rfl, rfl, same_first⟩)
      ⟨by simp, fun _ => ⟨le_refl 2, .inl rfl⟩⟩ e1' false

/-- `C88_velocities_any`: two velocities without timestamps between static frames, `axis=1` for `axis=-1`. -/
example (what : String) (mf rf : Option FrameRef) :
    Ex.s4.transformLinearVelocity Ex.ext 2 (Ex.arr2 3 [[1, 2, 3], [4, 5, 6]]) (.byObj 3) what mf rf { axis := 1, timeAxis := some (-2) } none none =
      Ex.s4.transformLinearVelocity Ex.ext 2 (Ex.arr2 3 [[1, 2, 3], [4, 5, 6]]) (.byObj 3) what mf rf {} none none := by
  have h2 : 2 < Ex.s4.size := by rw [Ex.s4_eq]; norm_num
  have h3 : 3 < Ex.s4.size := by rw [Ex.s4_eq]; norm_num
  obtain ⟨out, back, e1, -⟩ := C17_vectors_static Ex.ext.squad Ex.reach4 h2 h3 ex_pathAll_static (Ex.arr2 3 [[1, 2, 3], [4, 5, 6]]) { returnTimestamps := true } (p := 1)
    ⟨by simp [ND.ndim, Ex.arr2], .inr (by simp [ND.ndim, Ex.arr2])⟩ rfl rfl (by intro t ht; cases ht; exact ⟨by simp [ND.ndim, Ex.arr2], .inl rfl⟩)
  exact (C88_velocities_any (ext := Ex.ext) (arr := Ex.arr2 3 [[1, 2, 3], [4, 5, 6]]) (i := 1) (o := {}) same_last (.inr ⟨0, -2, rfl, rfl, same_first⟩)
    ⟨fun _ => rfl, by simp⟩ e1 what mf rf none none).2

/-- `C88_orientations`: two orientations in the static tree. -/
example : ∃ out ts, Ex.s4.transformQuaternions Ex.holdSquad 2 (Ex.arr2 4 [[1, 0, 0, 0], [0, 1, 0, 0]]) (.byObj 3) { returnTimestamps := true } = .ok (.withTs out ts) ∧
    Ex.s4.transformQuaternions Ex.holdSquad 2 (Ex.arr2 4 [[1, 0, 0, 0], [0, 1, 0, 0]]) (.byObj 3) { axis := 1, timeAxis := some (-2) } = .ok (.single out) := by
  have h2 : 2 < Ex.s4.size := by rw [Ex.s4_eq]; norm_num
  have h3 : 3 < Ex.s4.size := by rw [Ex.s4_eq]; norm_num
  obtain ⟨out, back, e1, -⟩ := C17_quaternions_static Ex.holdSquad Ex.reach4 h2 h3 ex_pathAll_static (Ex.arr2 4 [[1, 0, 0, 0], [0, 1, 0, 0]]) { returnTimestamps := true } (p := 1)
    ⟨by simp [ND.ndim, Ex.arr2], .inr (by simp [ND.ndim, Ex.arr2])⟩ rfl rfl (by intro t ht; cases ht; exact ⟨by simp [ND.ndim, Ex.arr2], .inl rfl⟩)
  exact ⟨out, _, e1, C88_orientations (arr := Ex.arr2 4 [[1, 0, 0, 0], [0, 1, 0, 0]]) (i := 1) (o := {}) (le_refl 2) same_last (.inr ⟨0, -2, rfl, rfl, same_first⟩) ⟨fun _ => rfl, by simp⟩ e1 false⟩

/-- `C88_rotate_vectors`, `C88_qinv`, `C88_qmul`, `C88_coordinates`, `C88_estimates`, `C88_fits`, `C88_shortest_arc` for arrays with two axes. -/
example (q v : ND ℝ) (hq : q.ndim = 2) (hv : v.ndim = 2) (ext : Ext) (x : XrOps) (ts : ND ℝ) (fext : FitExt) (nn : List Vec → Vec → ℕ) :
    rotateVectorsF q v (-1) 0 true = rotateVectorsF q v 1 (-2) true ∧ qinv (.float q) (-1) = qinv (.float q) 1 ∧
    qmul [.float q, .float v] (-1) = qmul [.float q, .float v] 1 ∧ cartesianToPolar v (-1) = cartesianToPolar v 1 ∧
    estimateLinearVelocity ext x (.nd v) none (some (-1)) (.arr ts) (some 0) none none = estimateLinearVelocity ext x (.nd v) none (some 1) (.arr ts) (some (-2)) none none ∧
    bestFitRotation fext (.nd q) (.nd v) none (some (-1)) = bestFitRotation fext (.nd q) (.nd v) none (some 1) ∧
    shortestArcRotation x (.nd q) v none (some (-1)) = shortestArcRotation x (.nd q) v none (some 1) :=
  have lv : SameAxis v.ndim (-1) 1 := hv ▸ same_last
  have lq : SameAxis q.ndim (-1) 1 := hq ▸ same_last
  ⟨(C88_rotate_vectors lv true).2 q 0 (-2) (hq ▸ same_first), C88_qinv lq,
    C88_qmul (qs := [q, v]) same_last (by simp [hq, hv]), (C88_coordinates lv).1,
    (C88_estimates ext x lv (by norm_num) (by norm_num) (hv ▸ same_first) ts "quaternion" none none).1,
    (C88_fits fext nn (hq.trans hv.symm) lq (by norm_num) (by norm_num) none 0 0).1,
    C88_shortest_arc x (hq.trans hv.symm) lq (by norm_num) (by norm_num)⟩

end RBM.Props
