import Verif.Props.LinearTransform
import Verif.Props.Relabel
import Verif.Lemmas.Example3

/-!
The velocity functions on the top level: labels and missing timestamps (C36, C37), `transform_angular_velocity` and
`transform_linear_velocity` for DataArrays and plain arrays (C57).
-/

namespace RBM.Props

open RBM RBM.Spec

/-- Without timestamps a plain array has no velocity: both estimators fail with an AttributeError. -/
theorem C36_no_timestamps (ext : Ext) (x : XrOps) (arr : ND ℝ) (axis ta : Option ℤ) (mode : String) (outlier cutoff : Option ℝ) :
    estimateLinearVelocity ext x (.nd arr) none axis .none ta outlier cutoff = .error .attributeError ∧
    estimateAngularVelocity ext x (.nd arr) none axis .none ta mode outlier cutoff = .error .attributeError := by
  constructor <;> rfl

/-- The same for DataArrays that are passed with `timestamps=False`. -/
theorem C36_timestamps_false (ext : Ext) (x : XrOps) {d : DArr} (h : DArr.Ok d) {dim : String} {p : ℕ} (hp : DimAt d dim p)
    (ta : Option ℤ) (mode : String) (outlier cutoff : Option ℝ) :
    estimateLinearVelocity ext x (.da d) (some dim) none .no ta outlier cutoff = .error .attributeError ∧
    estimateAngularVelocity ext x (.da d) (some dim) none .no ta mode outlier cutoff = .error .attributeError := by
  have hu := C56_untimed h hp ta (.inl rfl)
  constructor
  · simp only [estimateLinearVelocity, hu, bind, Except.bind]; rfl
  · simp only [estimateAngularVelocity, hu, bind, Except.bind]; rfl

/-- A DataArray of orientations: the angular velocity has the dimension `cartesian_axis` with the labels x, y, z in the place of the
quaternion dimension; other dimensions, their coordinates, name and attributes are kept; the values are those of the plain array. -/
theorem C37_labels {ext : Ext} (x : XrOps) {d : DArr} {dim td : String} {p q : ℕ} {ts : List ℝ} (hd : TimedDA d dim td p q ts) (hne : dim ≠ td)
    (hfree : "cartesian_axis" ∉ d.info.dims ∨ "cartesian_axis" = dim)
    {mode : String} {outlier cutoff : Option ℝ} {v : ND (Option ℝ)}
    (hv : estimateAngularVelocity ext x (.nd d.data) none (some ((p : ℤ) - d.data.ndim)) (.arr (ofList ts)) (some (q : ℤ)) mode outlier cutoff = .ok (.nd v))
    (hshape : v.shape = d.data.shape.set p 3) :
    ∃ m, estimateAngularVelocity ext x (.da d) (some dim) none (.name td) none mode outlier cutoff = .ok (.da v m) ∧
      Relabelled d ⟨v.map fun o => o.getD 0, m⟩ p dim "cartesian_axis" ["x", "y", "z"] := by
  have hdc : d.dimCoord td = .ok (ofList ts) := by simp only [DArr.dimCoord, hd.coord]
  have hu := C56_dims hd.ok hd.space hd.time hne hdc none
  have hq := (idxOf_of_dimAt hd.ok hd.time).2.2
  have hp := (idxOf_of_dimAt hd.ok hd.space).2.2
  have hpq : p ≠ q := by
    rintro rfl
    have := hd.space.symm.trans hd.time
    exact hne (Option.some.inj this)
  have hpa : AxisIs (p : ℤ) d.data.ndim p := axisIs_nat hp
  have hqa : AxisIs (q : ℤ) d.data.ndim q := axisIs_nat hq
  have ho1 : orDefault (some ((p : ℤ) - d.data.ndim)) (-1) = (p : ℤ) - d.data.ndim := by
    simp only [orDefault]; rw [if_neg (by omega)]
  have ho2 : orDefault (some (q : ℤ)) 0 = q := by
    simp only [orDefault]; split_ifs with h <;> simp_all
  rw [estimateAngular_plain ext x d.data ts (pa := p) (p := q) (by rw [ho1]; exact ⟨hp, .inr rfl⟩) (by rw [ho2]; exact hqa) hpq, ho1, ho2] at hv
  have hmod : estimateAngular ext d.data ts ((p : ℤ) - d.data.ndim) q mode outlier cutoff = estimateAngular ext d.data ts p q mode outlier cutoff := by
    have e : ((p : ℤ) - d.data.ndim) % d.data.ndim = (p : ℤ) % d.data.ndim := Int.sub_emod_right _ _
    simp only [estimateAngular, angularAxes, e]
  rw [hmod] at hv
  have hest : estimateAngular ext d.data ts p q mode outlier cutoff = .ok v := by
    cases h : estimateAngular ext d.data ts p q mode outlier cutoff with
    | error e => rw [h] at hv; cases hv
    | ok w => rw [h] at hv; cases hv; rfl
  obtain ⟨m, m1, m2, m3⟩ := relabel_ok x hd.ok (old := dim) (ndim := "cartesian_axis") (into := "cartesian") (n := 3) (labels := ["x", "y", "z"])
    hd.space hpa rfl hfree (out := v.map fun o => o.getD 0) hshape
  have hnc : td ≠ "cartesian_axis" := by
    rcases hfree with h | h
    · rintro rfl
      exact h (List.mem_of_getElem? hd.time)
    · rw [h]; exact hne.symm
  have hco : dictGet m.coords td = some ⟨[td], .num (ofList ts)⟩ := by
    have := m3.others td hnc
    rw [hd.coord] at this
    rw [this, Option.filter_some, if_pos]
    simpa using hne
  refine ⟨m, ?_, m3⟩
  simp only [makeDataArray] at m2
  have hent : (ofList ts).entries = ts := ofList_range ts
  simp only [estimateAngularVelocity, hu, bind, Except.bind, stampList_ofList, Option.getD_some, hest, m1, mkEst, makeDataArray, hco, hent, if_true, m2]
  rfl

section

variable {ext : Ext} {x : XrOps} {s : State}

/-- `transform_angular_velocity` of a DataArray with named dimensions gives what the method of the source frame gives for the
data with these axes and timestamps and the same keyword arguments, with the labels kept. -/
theorem C57_angular_velocity (hx : XrLaw x) {d : DArr} {dim td : String} {p q : ℕ} {ats : List ℝ} (hd : TimedDA d dim td p q ats) (hne : dim ≠ td)
    {into : FrameRef} {outof : Option FrameRef} {what : String} {a b : ℕ} (ha : SourceFrame s d outof what a) (hb : s.resolve into = .ok b)
    {cutoff : Option ℝ} {arr : ND ℝ} {ts : List ℝ}
    (hm : s.transformAngularVelocity ext a d.data (.byObj b) what
      { axis := p, timeAxis := some (q : ℤ), timestamps := some (ofList ats), returnTimestamps := true } cutoff = .ok (.withTs arr (some ts)))
    (hs : arr.shape = d.data.shape.set q ts.length) :
    ∃ out, topAngularVelocity ext x s (.da d) into what { outof := outof, dim := some dim, timestamps := .name td } cutoff = .ok (.da out) ∧
      out.data = arr ∧ Labelled d out td ts what (s.name b) :=
  top_timed x hx hd hne (o := { outof := outof, dim := some dim, timestamps := .name td }) rfl rfl rfl ha hb
    (method := fun w a v dst t => s.transformAngularVelocity ext a v dst w t cutoff) hm hs

/-- `transform_linear_velocity` of a DataArray with named dimensions. -/
theorem C57_linear_velocity (hx : XrLaw x) {d : DArr} {dim td : String} {p q : ℕ} {ats : List ℝ} (hd : TimedDA d dim td p q ats) (hne : dim ≠ td)
    {into : FrameRef} {outof movingFrame referenceFrame : Option FrameRef} {what : String} {a b : ℕ} (ha : SourceFrame s d outof what a)
    (hb : s.resolve into = .ok b) {outlier cutoff : Option ℝ} {arr : ND ℝ} {ts : List ℝ}
    (hm : s.transformLinearVelocity ext a d.data (.byObj b) what movingFrame referenceFrame
      { axis := p, timeAxis := some (q : ℤ), timestamps := some (ofList ats), returnTimestamps := true } outlier cutoff = .ok (.withTs arr (some ts)))
    (hs : arr.shape = d.data.shape.set q ts.length) :
    ∃ out, topLinearVelocity ext x s (.da d) into what movingFrame referenceFrame { outof := outof, dim := some dim, timestamps := .name td }
        outlier cutoff = .ok (.da out) ∧
      out.data = arr ∧ Labelled d out td ts what (s.name b) :=
  top_timed x hx hd hne (o := { outof := outof, dim := some dim, timestamps := .name td }) rfl rfl rfl ha hb
    (method := fun w a v dst t => s.transformLinearVelocity ext a v dst w movingFrame referenceFrame t outlier cutoff) hm hs

/-- A plain array without DataArray labels and with the default axes: the top level functions give what the methods give, failures included. -/
theorem C57_plain_velocity (arr : ND ℝ) (h2 : 2 ≤ arr.ndim) {into outof : FrameRef} {movingFrame referenceFrame : Option FrameRef} (what : String) {a b : ℕ}
    (ha : s.resolve outof = .ok a) (hb : s.resolve into = .ok b) (outlier cutoff : Option ℝ) (ts : ND ℝ) :
    (∀ v ots, s.transformAngularVelocity ext a arr (.byObj b) what { timestamps := some ts, returnTimestamps := true } cutoff = .ok (.withTs v ots) →
      topAngularVelocity ext x s (.nd arr) into what { outof := some outof, timestamps := .arr ts } cutoff = .ok (.single v) ∧
      topAngularVelocity ext x s (.nd arr) into what { outof := some outof, timestamps := .arr ts, returnTimestamps := some true } cutoff = .ok (.withTs v ots)) ∧
    (∀ e, s.transformAngularVelocity ext a arr (.byObj b) what { timestamps := some ts, returnTimestamps := true } cutoff = .error e →
      topAngularVelocity ext x s (.nd arr) into what { outof := some outof, timestamps := .arr ts } cutoff = .error e) ∧
    (∀ v ots, s.transformLinearVelocity ext a arr (.byObj b) what movingFrame referenceFrame { timestamps := some ts, returnTimestamps := true }
        outlier cutoff = .ok (.withTs v ots) →
      topLinearVelocity ext x s (.nd arr) into what movingFrame referenceFrame { outof := some outof, timestamps := .arr ts } outlier cutoff = .ok (.single v) ∧
      topLinearVelocity ext x s (.nd arr) into what movingFrame referenceFrame { outof := some outof, timestamps := .arr ts, returnTimestamps := some true }
        outlier cutoff = .ok (.withTs v ots)) ∧
    (∀ e, s.transformLinearVelocity ext a arr (.byObj b) what movingFrame referenceFrame { timestamps := some ts, returnTimestamps := true }
        outlier cutoff = .error e →
      topLinearVelocity ext x s (.nd arr) into what movingFrame referenceFrame { outof := some outof, timestamps := .arr ts } outlier cutoff = .error e) := by
  have hu := (C56_plain_timed arr none none ts (p := arr.ndim - 1) (q := 0) ⟨by omega, .inr (by simp [orDefault]; omega)⟩
    ⟨by omega, .inl (by simp [orDefault])⟩).1 (by omega)
  have e1 : orDefault none (-1) = -1 := rfl
  have e2 : orDefault none 0 = 0 := rfl
  rw [e1, e2] at hu
  refine ⟨fun v ots h => ⟨?_, ?_⟩, fun e h => ?_, fun v ots h => ⟨?_, ?_⟩, fun e h => ?_⟩
  all_goals
    simp only [topAngularVelocity, topLinearVelocity, transformTop, hu, bind, Except.bind, resolveOutof, ha, hb, TsArg.toND, h, packResult,
      Option.map_none]
    try simp

end

/-- Five orientations around the z axis: the estimate of the DataArray has the labels x, y, z. -/
example : ∃ v m, estimateAngularVelocity Ex.ext exXr (.da ⟨Ex.arr2 4 [[1, 0, 0, 0], [1, 0, 0, 0], [1, 0, 0, 0], [1, 0, 0, 0], [1, 0, 0, 0]],
      ⟨[("time", ⟨["time"], .num (ofList [0, 1, 2, 3, 4])⟩)], ["time", "quaternion_axis"], some "orientation", []⟩⟩)
      (some "quaternion_axis") none (.name "time") none "rotation_vector" none none = .ok (.da v m) ∧ m.dims = ["time", "cartesian_axis"] := by
  have hd : TimedDA ⟨Ex.arr2 4 [[1, 0, 0, 0], [1, 0, 0, 0], [1, 0, 0, 0], [1, 0, 0, 0], [1, 0, 0, 0]],
      ⟨[("time", ⟨["time"], .num (ofList [0, 1, 2, 3, 4])⟩)], ["time", "quaternion_axis"], some "orientation", []⟩⟩ "quaternion_axis" "time" 1 0 [0, 1, 2, 3, 4] := by
    refine ⟨⟨rfl, by simp, ?_, ?_, by simp, ?_⟩, rfl, rfl, rfl, ⟨by simp [ND.ndim, Ex.arr2], rfl, by simp, by simp [StrictlyIncreasing]; norm_num⟩⟩
    · intro c hc; simp only [List.mem_cons, List.not_mem_nil, or_false] at hc; subst hc; simp
    · intro c hc; simp only [List.mem_cons, List.not_mem_nil, or_false] at hc; subst hc; rfl
    · intro k c hk hkd
      by_cases h : k = "time"
      · subst h; simp [dictGet] at hk; subst hk; rfl
      · simp [dictGet, List.lookup, beq_eq_false_iff_ne.mpr h] at hk
  obtain ⟨v, h1, h2, -⟩ := C37_constant_is_zero (ext := Ex.ext) (arr := Ex.arr2 4 [[1, 0, 0, 0], [1, 0, 0, 0], [1, 0, 0, 0], [1, 0, 0, 0], [1, 0, 0, 0]])
    (ts := [0, 1, 2, 3, 4]) (axis := some (-1)) (ta := some 0) (pa := 1) (p := 0) (n0 := 2) Ex.ext_filt Ex.ext_deriv exXr
    ⟨by simp [ND.ndim, Ex.arr2], .inr rfl⟩ ⟨by simp [ND.ndim, Ex.arr2], .inl rfl⟩ (by decide) rfl hd.timed (.inr rfl) none (by simp)
  obtain ⟨m, m1, m2⟩ := C37_labels (ext := Ex.ext) exXr hd (by decide) (.inl (by decide)) h1 h2
  exact ⟨v, m, m1, m2.dims⟩

end RBM.Props
