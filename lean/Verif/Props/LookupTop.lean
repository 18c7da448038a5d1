import Verif.Spec.Lookups
import Verif.Lemmas.Compose
import Verif.Props.Series
import Verif.Props.TopLevel
import Verif.Props.VelocityLookup

/-!
C66: the top level lookup functions.
-/

namespace RBM.Props

open RBM.Spec

/-! ### The datasets -/

theorem recorded_of {axis : String} (haxis : axis ≠ "time") {labels : List String} {coords : List (String × Coord)} {ts : Option (List ℝ)} {arr : ND ℝ}
    {name : String} {attrs : List (String × Option String)}
    (hc : coords = stampCoords ts ++ [(axis, labelCoord axis labels)])
    (hs : arr.shape = sampleShape labels.length ts) :
    ∃ d, mkDArr arr ⟨coords, if ts.isSome then ["time", axis] else [axis], some name, attrs⟩ = .ok d ∧ d.data = arr ∧ d.info.attrs = attrs ∧
      Recorded d name axis labels ts := by
  refine ⟨⟨arr, ⟨coords, if ts.isSome then ["time", axis] else [axis], some name, attrs⟩⟩, ?_⟩
  have hne : ("time" == axis) = false := by simpa using fun h : "time" = axis => haxis h.symm
  have hne' : (axis == "time") = false := by simpa using haxis
  subst hc
  cases ts with
  | none =>
    simp only [sampleShape] at hs
    refine ⟨?_, rfl, rfl, ⟨?_, rfl, rfl, hs, by simp [stampCoords], by simp [stampCoords, dictGet, List.lookup, stampCoords]⟩⟩
    · rw [mkDArr, if_neg (by simp [ND.ndim, hs]), if_pos]
      simp [labelCoord, CVals.shape, hs, stampCoords]
    · refine ⟨by simp [ND.ndim, hs], by simp, ?_, ?_, by simp [stampCoords], ?_⟩
      · simp [labelCoord, stampCoords]
      · simp [labelCoord, CVals.shape, hs, stampCoords]
      · intro n c h1 h2
        simp [dictGet, List.lookup, stampCoords] at h1 h2
        subst h2
        simp at h1
        subst h1
        rfl
  | some l =>
    simp only [sampleShape] at hs
    have hi : List.idxOf axis ["time", axis] = 1 := by
      rw [List.idxOf_cons, hne]; simp
    refine ⟨?_, rfl, rfl, ⟨?_, rfl, rfl, hs, ?_, ?_⟩⟩
    · rw [mkDArr, if_neg (by simp [ND.ndim, hs]), if_pos]
      simp [labelCoord, CVals.shape, hs, stampCoords, timeCoord, ND.vec1, hi]
    · refine ⟨by simp [ND.ndim, hs], by simp [haxis.symm], ?_, ?_, by simp [stampCoords, timeCoord, haxis.symm], ?_⟩
      · simp [labelCoord, stampCoords, timeCoord]
      · simp [labelCoord, CVals.shape, hs, stampCoords, timeCoord, ND.vec1, hi]
      · intro n c h1 h2
        simp at h2
        rcases h2 with rfl | rfl
        · simp [dictGet, List.lookup, stampCoords, timeCoord] at h1
          subst h1
          rfl
        · simp [dictGet, List.lookup, stampCoords, timeCoord, hne'] at h1
          subst h1
          rfl
    · intro l' h; cases h; simp [dictGet, List.lookup, stampCoords, timeCoord]; rfl
    · simp [dictGet, List.lookup, stampCoords, timeCoord, hne']

/-- The two variables of a pose or transform dataset. -/
theorem makeDataset_spec {t r : ND ℝ} {ts : Option (List ℝ)} (f : Option String) (pose : Bool)
    (ht : t.shape = sampleShape 3 ts) (hr : r.shape = sampleShape 4 ts) :
    ∃ ds lin ang, makeTransformOrPoseDataset t r f ts pose = .ok ds ∧
      ds.var (if pose then "position" else "translation") = some lin ∧ ds.var (if pose then "orientation" else "rotation") = some ang ∧
      lin.data = t ∧ ang.data = r ∧
      Recorded lin (if pose then "position" else "translation") "cartesian_axis" ["x", "y", "z"] ts ∧
      Recorded ang (if pose then "orientation" else "rotation") "quaternion_axis" ["w", "x", "y", "z"] ts ∧
      LabelledWith lin f ∧ LabelledWith ang f ∧ Attr lin "motion_type" (some (if pose then "position" else "translation")) ∧
      Attr ang "motion_type" (some (if pose then "orientation" else "rotation")) ∧ Attr lin "units" (some "m") := by
  have e1 := fun name attrs => recorded_of (axis := "cartesian_axis") (by decide) (labels := ["x", "y", "z"]) (ts := ts) (arr := t) (name := name)
    (attrs := attrs) rfl ht
  have e2 := fun name attrs => recorded_of (axis := "quaternion_axis") (by decide) (labels := ["w", "x", "y", "z"]) (ts := ts) (arr := r) (name := name)
    (attrs := attrs) rfl hr
  have c1 : (stampCoords ts ++ [cartesianCoord, quaternionCoord]).filter (fun c => decide (∀ x ∈ c.2.dims, x ∈ (if ts.isSome then ["time", "cartesian_axis"] else ["cartesian_axis"]))) =
      stampCoords ts ++ [("cartesian_axis", labelCoord "cartesian_axis" ["x", "y", "z"])] := by
    cases ts <;> simp [stampCoords, stampCoords, timeCoord, cartesianCoord, quaternionCoord, labelCoord, List.filter_cons]
  have c2 : (stampCoords ts ++ [cartesianCoord, quaternionCoord]).filter (fun c => decide (∀ x ∈ c.2.dims, x ∈ (if ts.isSome then ["time", "quaternion_axis"] else ["quaternion_axis"]))) =
      stampCoords ts ++ [("quaternion_axis", labelCoord "quaternion_axis" ["w", "x", "y", "z"])] := by
    cases ts <;> simp [stampCoords, stampCoords, timeCoord, cartesianCoord, quaternionCoord, labelCoord, List.filter_cons]
  obtain ⟨d1, h1, k1, a1, R1⟩ := e1 (if pose then "position" else "translation") [("representation_frame", f), ("reference_frame", f),
    ("motion_type", some (if pose then "position" else "translation")), ("long_name", some (if pose then "Position" else "Translation")), ("units", some "m")]
  obtain ⟨d2, h2, k2, a2, R2⟩ := e2 (if pose then "orientation" else "rotation") [("representation_frame", f), ("reference_frame", f),
    ("motion_type", some (if pose then "orientation" else "rotation")), ("long_name", some (if pose then "Orientation" else "Rotation"))]
  have e : makeTransformOrPoseDataset t r f ts pose = .ok ⟨[(if pose then "position" else "translation", d1), (if pose then "orientation" else "rotation", d2)]⟩ := by
    simp only [makeTransformOrPoseDataset, dsVar, c1, c2, h1, h2, bind, Except.bind, Pure.pure, Except.pure]
  refine ⟨_, d1, d2, e, by cases pose <;> simp [DSet.var, dictGet, List.lookup], by cases pose <;> simp [DSet.var, dictGet, List.lookup], k1, k2, R1, R2, ?_⟩
  simp only [LabelledWith, Attr, a1, a2]
  cases pose <;> simp [dictGet, List.lookup]

/-! ### Transforms and poses -/

theorem ofVecs_row (l : List Vec) (k : ℕ) : vec3 (ND.ofVecs (.many l)) 1 [k, 0] = l.getD k 0 := by
  ext i; fin_cases i <;> rfl

theorem ofQuats_row (l : List Quat) (k : ℕ) : quat4 (ND.ofQuats (.many l)) 1 [k, 0] = l.getD k 0 := rfl

theorem ofVecs_one (v : Vec) : vec3 (ND.ofVecs (.one v)) 0 [0] = v := by
  ext i; fin_cases i <;> rfl

theorem ofQuats_one (q : Quat) : quat4 (ND.ofQuats (.one q)) 0 [0] = q := rfl

section

variable {sq : SquadFn} {s : State} {h : List Event} {a b : ℕ}

/-- The arrays of a lookup. -/
theorem lookup_arrays (hsq : SquadLaw sq) (hr : Reachable s h) (ha : a < s.size) (hb : b < s.size) (hp : PathAll s a b (FrameOk true s)) :
    ∃ t r ts, s.lookupTransform sq a (.byObj b) = .ok (t, r, ts) ∧ (ND.ofVecs t).shape = sampleShape 3 ts ∧ (ND.ofQuats r).shape = sampleShape 4 ts ∧
      (∀ l, ts = some l → StrictlyIncreasing l) ∧ ∀ τ P, PoseSampleAt (ND.ofVecs t) (ND.ofQuats r) ts τ P → IsTransformAt sq s a b τ P := by
  obtain ⟨c0, la0, lb0, hc0, hla0, hlb0, _⟩ := id hp
  rcases lookup_facts sq hsq hr ha hb hp (l := la0 ++ lb0.reverse) ⟨c0, la0, lb0, hc0, hla0, hlb0, rfl⟩ with ⟨A, e, hA, _⟩ | ⟨_, ts, T, e, hinc, hT, _⟩
  · refine ⟨_, _, _, e, rfl, rfl, by simp, fun τ P hP => ?_⟩
    rw [show P = A by rw [show P = _ from hP, ofVecs_one, ofQuats_one]]
    exact hA τ
  · refine ⟨_, _, _, e, by simp [ND.ofVecs, sampleShape], by simp [ND.ofQuats, sampleShape], by rintro l ⟨⟩; exact hinc, ?_⟩
    rintro τ P ⟨k, hk, rfl⟩
    have e1 : (ts.map fun τ => (T τ).t).getD k 0 = (T τ).t := by rw [List.getD_eq_getElem?_getD, List.getElem?_map, hk]; rfl
    have e2 : (ts.map fun τ => (T τ).r).getD k 0 = (T τ).r := by rw [List.getD_eq_getElem?_getD, List.getElem?_map, hk]; rfl
    rw [ofVecs_row, ofQuats_row, e1, e2]
    exact hT τ (List.mem_of_getElem? hk)

/-- `lookup_pose`: the dataset holds the pose of the frame in the reference frame at every timestamp, labelled with the reference frame; the
tuple has the same arrays. -/
theorem C66_pose (hsq : SquadLaw sq) (hr : Reachable s h) {frame reference : FrameRef} (h1 : s.resolve frame = .ok a) (h2 : s.resolve reference = .ok b)
    (ha : a < s.size) (hb : b < s.size) (hp : PathAll s a b (FrameOk true s)) (rt : Bool) :
    ∃ ds pos ori ts, topLookupPose sq s frame reference true rt = .ok (.ds ds) ∧ ds.var "position" = some pos ∧ ds.var "orientation" = some ori ∧
      Recorded pos "position" "cartesian_axis" ["x", "y", "z"] ts ∧ Recorded ori "orientation" "quaternion_axis" ["w", "x", "y", "z"] ts ∧
      (∀ l, ts = some l → StrictlyIncreasing l) ∧ LabelledWith pos (s.name b) ∧ LabelledWith ori (s.name b) ∧
      Attr pos "motion_type" (some "position") ∧ Attr ori "motion_type" (some "orientation") ∧
      (∀ τ P, PoseSampleAt pos.data ori.data ts τ P → IsTransformAt sq s a b τ P) ∧
      topLookupPose sq s frame reference false rt = .ok (if rt then .triple pos.data ori.data ts else .pair pos.data ori.data) := by
  obtain ⟨t, r, ts, e, st, sr, hinc, hP⟩ := lookup_arrays hsq hr ha hb hp
  obtain ⟨ds, lin, ang, d1, d2, d3, d4, d5, d6, d7, d8, d9, d10, d11, _⟩ := makeDataset_spec (s.name b) true st sr
  refine ⟨ds, lin, ang, ts, ?_, d2, d3, d6, d7, hinc, d8, d9, d10, d11, by rw [d4, d5]; exact hP, ?_⟩
  · simp only [topLookupPose, h1, h2, e, d1, bind, Except.bind, Pure.pure, Except.pure, if_true]
  · rw [d4, d5]
    cases rt <;> simp [topLookupPose, h1, h2, e, bind, Except.bind, Pure.pure, Except.pure]

/-- `lookup_transform`: the dataset holds the transformation at every timestamp; the tuple has the same arrays. Both variables are labelled with the
source frame. -/
theorem C66_transform_partial (hsq : SquadLaw sq) (hr : Reachable s h) {outof into : FrameRef} (h1 : s.resolve outof = .ok a) (h2 : s.resolve into = .ok b)
    (ha : a < s.size) (hb : b < s.size) (hp : PathAll s a b (FrameOk true s)) (rt : Bool) :
    ∃ ds tr ro ts, topLookupTransform sq s outof into true rt = .ok (.ds ds) ∧ ds.var "translation" = some tr ∧ ds.var "rotation" = some ro ∧
      Recorded tr "translation" "cartesian_axis" ["x", "y", "z"] ts ∧ Recorded ro "rotation" "quaternion_axis" ["w", "x", "y", "z"] ts ∧
      (∀ l, ts = some l → StrictlyIncreasing l) ∧ LabelledWith tr (s.name a) ∧ LabelledWith ro (s.name a) ∧
      Attr tr "motion_type" (some "translation") ∧ Attr ro "motion_type" (some "rotation") ∧
      (∀ τ P, PoseSampleAt tr.data ro.data ts τ P → IsTransformAt sq s a b τ P) ∧
      topLookupTransform sq s outof into false rt = .ok (if rt then .triple tr.data ro.data ts else .pair tr.data ro.data) := by
  obtain ⟨t, r, ts, e, st, sr, hinc, hP⟩ := lookup_arrays hsq hr ha hb hp
  obtain ⟨ds, lin, ang, d1, d2, d3, d4, d5, d6, d7, d8, d9, d10, d11, _⟩ := makeDataset_spec (s.name a) false st sr
  refine ⟨ds, lin, ang, ts, ?_, d2, d3, d6, d7, hinc, d8, d9, d10, d11, by rw [d4, d5]; exact hP, ?_⟩
  · simp only [topLookupTransform, h1, h2, e, d1, bind, Except.bind, Pure.pure, Except.pure, if_true]
  · rw [d4, d5]
    cases rt <;> simp [topLookupTransform, h1, h2, e, bind, Except.bind, Pure.pure, Except.pure]

theorem timedDA_of {d : DArr} {name axis : String} {labels : List String} {l : List ℝ} (hd : Recorded d name axis labels (some l)) (hi : StrictlyIncreasing l)
    (h2 : 2 ≤ l.length) : TimedDA d axis "time" 1 0 l :=
  ⟨hd.ok, by rw [DimAt, hd.dims]; rfl, by rw [DimAt, hd.dims]; rfl, hd.stamps l rfl,
    ⟨by simp [ND.ndim, hd.shape, sampleShape], by rw [hd.shape]; rfl, h2, hi⟩⟩

/-- A looked-up pose that is transformed into another frame is the pose in that frame: `transform_points` of the position and
`transform_quaternions` of the orientation need no further arguments, since the dataset is labelled with the reference frame. -/
theorem C66_pose_into (hsq : SquadLaw sq) (x : XrOps) (hx : XrLaw x) (hr : Reachable s h) {frame reference into : FrameRef} {c : ℕ}
    (h1 : s.resolve frame = .ok a) (h2 : s.resolve reference = .ok b) (h3 : s.resolve into = .ok c)
    (ha : a < s.size) (hb : b < s.size) (hc : c < s.size) (hp : PathAll s a b (FrameOk true s)) (hp' : PathAll s b c (FrameOk true s))
    {l : List ℕ} (hl : Route s b c l) {n : String} (hn : s.name b = some n) (hreg : s.resolve (.byName n) = .ok b)
    {ds : DSet} {pos ori : DArr} {ts : List ℝ} (hds : topLookupPose sq s frame reference true false = .ok (.ds ds))
    (hpos : ds.var "position" = some pos) (hori : ds.var "orientation" = some ori)
    (htime : dictGet pos.info.coords "time" = some ⟨["time"], .num (ofList ts)⟩) (h2t : 2 ≤ ts.length) :
    ∃ pos' ori', topPoints sq x s (.da pos) into { dim := some "cartesian_axis", timestamps := .name "time" } = .ok (.da pos') ∧
      topQuaternions sq x s (.da ori) into { dim := some "quaternion_axis", timestamps := .name "time" } = .ok (.da ori') ∧
      LabelledWith pos' (s.name c) ∧ LabelledWith ori' (s.name c) ∧
      HasStamps pos' "time" (outStamps s l ts) ∧ HasStamps ori' "time" (outStamps s l ts) ∧
      ∀ τ P, PoseSampleAt pos'.data ori'.data (some (outStamps s l ts)) τ P →
        IsTransformAt sq s a c τ P := by
  obtain ⟨ds', pos', ori', ts', e1, e2, e3, e4, e5, e6, e7, e8, _, _, e9, _⟩ := C66_pose hsq hr h1 h2 ha hb hp false
  rw [hds] at e1
  cases e1
  rw [hpos] at e2
  cases e2
  rw [hori] at e3
  cases e3
  have hts : ts' = some ts := by
    cases ts' with
    | none =>
      exfalso
      have h1 := e4.ok.coordDims ("time", ⟨["time"], .num (ofList ts)⟩) (mem_of_dictGet htime) "time" (by simp)
      rw [e4.dims] at h1
      simp at h1
    | some l' =>
      have := (e4.stamps l' rfl).symm.trans htime
      simp only [Option.some.injEq, Coord.mk.injEq, CVals.num.injEq, true_and] at this
      have e := congrArg ND.entries this
      have k1 : (ofList l').entries = l' := vec1_entries l'
      have k2 : (ofList ts).entries = ts := vec1_entries ts
      rw [k1, k2] at e
      rw [e]
  subst hts
  have tp := timedDA_of e4 (e6 ts rfl) h2t
  have tdo := timedDA_of e5 (e6 ts rfl) h2t
  have hsp : pos.data.shape = [ts.length, 3] := e4.shape
  have hso : ori.data.shape = [ts.length, 4] := e5.shape
  have key : ∀ k τ, ts[k]? = some τ → IsTransformAt sq s a b τ ⟨vec3 pos.data 1 [k, 0], quat4 ori.data 1 [k, 0]⟩ := fun k τ hk => e9 τ _ ⟨k, hk, rfl⟩
  obtain ⟨out, o1, o2, o3, o4⟩ := C57_points sq hsq x hx hr tp (by decide) (by rw [hsp]; rfl) (by decide) (by rw [ND.ndim, hsp]; rfl)
    (into := into) (outof := none) (a := b) (b := c) (.inr ⟨rfl, n, by rw [← hn]; exact e7.2, hreg⟩) h3 hb hc hp' hl
  obtain ⟨out', q1, q2, q3, q4⟩ := C57_quaternions sq hsq x hx hr tdo (by decide) (by rw [ND.ndim, hso]; rfl) (by rw [hso]; rfl)
    (fun i hi => isTransformAt_unit hr.wf hsq hp (key i _ (List.getElem?_eq_getElem hi)))
    (into := into) (outof := none) (a := b) (b := c) (.inr ⟨rfl, n, by rw [← hn]; exact e8.2, hreg⟩) h3 hb hc hp' hl
  refine ⟨out, out', o1, q1, ⟨o2.repr, o2.frame⟩, ⟨q2.repr, q2.frame⟩, o2.stamps, q2.stamps, ?_⟩
  rintro τ P ⟨i, hi, rfl⟩
  obtain ⟨hm, _⟩ := mem_outStamps.mp (List.mem_of_getElem? hi)
  obtain ⟨k, hk⟩ := List.mem_iff_getElem?.mp hm
  have hkl : k < ts.length := (List.getElem?_eq_some_iff.mp hk).1
  obtain ⟨B, hB, f1⟩ := o4 i k τ hi hk
  obtain ⟨B', hB', f2⟩ := q4 i k τ hi hk
  have := isTransformAt_unique hr.wf (mv := true) (fun _ => hsq) hp' hB hB'
  subst this
  have g1 := f1 [k, 0] (by rw [hsp]; exact ⟨hkl, by omega, trivial⟩)
  have g2 := f2 [k, 0] (by rw [hso]; exact ⟨hkl, by omega, trivial⟩)
  simp only [List.set_cons_zero] at g1 g2
  rw [g1, g2]
  exact (isTransformAt_comp (mv := true) (fun _ => hsq) hr.wf ha hc hp hp' (key k τ hk) hB).1

end

end RBM.Props
