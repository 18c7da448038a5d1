import Verif.Lemmas.Velocity
import Verif.Props.TopLevel

/-!
C36, C37 (first part), C39: velocity estimators.
-/

namespace RBM.Props

open RBM.Spec

theorem stampList_ofList (ts : List ℝ) : stampList (some (ofList ts)) = .ok ts := by
  have : stampList (some (ofList ts)) = .ok ((List.range ts.length).map fun i => (ofList ts).get [i]) := rfl
  rw [this, ofList_range]

/-- The array handling of `estimate_linear_velocity` for plain arrays. -/
theorem estimateLinear_plain (ext : Ext) (x : XrOps) (arr : ND ℝ) {axis ta : Option ℤ} {pa p : ℕ} (ts : List ℝ)
    (hax : AxisIs (orDefault axis (-1)) arr.ndim pa) (hp : AxisIs (orDefault ta 0) arr.ndim p) (hne : pa ≠ p) (outlier cutoff : Option ℝ) :
    estimateLinearVelocity ext x (.nd arr) none axis (.arr (ofList ts)) ta outlier cutoff =
      (estimateLinear ext arr ts (orDefault ta 0) outlier cutoff).map .nd := by
  rw [estimateLinearVelocity, (C56_plain_timed arr axis ta (ofList ts) hax hp).1 hne]
  simp only [bind, Except.bind, stampList_ofList, Option.getD_some]
  cases estimateLinear ext arr ts (orDefault ta 0) outlier cutoff <;> rfl

/-! ### C36 -/

/-- For any strictly increasing timestamps (at least two), any array shape, any time axis: where the
positions follow a straight motion `c + m t`, the estimate is `m` at every sample, also after low-pass
filtering; where they follow `c + m t + e t²`, the unfiltered estimate is `m + 2 e t` at every interior
sample. -/
theorem C36_exact {ext : Ext} (hf : FiltLaw ext) (x : XrOps) (arr : ND ℝ) {axis ta : Option ℤ} {pa p : ℕ} {ts : List ℝ}
    (hax : AxisIs (orDefault axis (-1)) arr.ndim pa) (hp : AxisIs (orDefault ta 0) arr.ndim p) (hne : pa ≠ p)
    (htd : TimedArray arr p ts) (cutoff : Option ℝ) (hc : ∀ c, cutoff = some c → 0 < c ∧ c < 1 ∧ 24 < ts.length) :
    ∃ v, estimateLinearVelocity ext x (.nd arr) none axis (.arr (ofList ts)) ta none cutoff = .ok (.nd v) ∧
      v.shape = arr.shape ∧ ∀ idx, Valid arr.shape idx →
        (∀ c m, Follows arr p ts idx (fun τ => c + m * τ) → v.get idx = some m) ∧
        (∀ c m e, cutoff = none → Follows arr p ts idx (fun τ => c + m * τ + e * τ ^ 2) → 0 < idx.getD p 0 →
          idx.getD p 0 + 1 < ts.length → v.get idx = some (m + 2 * e * ts.getD (idx.getD p 0) 0)) := by
  rw [estimateLinear_plain ext x arr ts hax hp hne]
  set g : ND ℝ := ⟨arr.shape, fun idx => gradAt ts (arr.lane p idx) (idx.getD p 0)⟩ with hg
  have hgs : (g.map some).shape = arr.shape := rfl
  obtain ⟨w, w1, w2, w3, w4⟩ := maybeFilter_const hf (g.map some) (p := p) hp.1 (cutoff := cutoff)
    (fun c hcc => by rw [hgs, htd.length]; exact hc c hcc)
  have hest : estimateLinear ext arr ts (orDefault ta 0) none cutoff = .ok w := by
    simp only [estimateLinear, npGradient_timed hp htd, bind, Except.bind, axisIs_norm hp, maybeOutliers]
    exact w1
  refine ⟨w, by rw [hest]; rfl, w2, fun idx hv => ⟨fun c m hF => ?_, fun c m e hcut hF h0 h1 => ?_⟩⟩
  · refine w4 idx m hv fun k hk => ?_
    have hv' : Valid arr.shape (idx.set p k) := valid_set hv hk
    have : (g.map some).get (idx.set p k) = some (gradAt ts (arr.lane p (idx.set p k)) ((idx.set p k).getD p 0)) := rfl
    rw [this, gradLane_quadratic htd hv' (c := c) (m := m) (e := 0) (fun j τ hj => by
      rw [List.set_set, hF j τ hj]; ring) (.inl rfl)]
    simp
  · rw [w3 hcut]
    exact congrArg some (gradLane_quadratic htd hv hF (.inr ⟨h0, h1⟩))

/-- The estimate needs two samples: with one or none the call fails. -/
theorem C36_too_few (ext : Ext) (x : XrOps) (arr : ND ℝ) {axis ta : Option ℤ} {pa p : ℕ} {ts : List ℝ}
    (hax : AxisIs (orDefault axis (-1)) arr.ndim pa) (hp : AxisIs (orDefault ta 0) arr.ndim p) (hne : pa ≠ p)
    (hl : arr.shape.getD p 0 = ts.length) (h2 : ts.length < 2) (outlier cutoff : Option ℝ) :
    estimateLinearVelocity ext x (.nd arr) none axis (.arr (ofList ts)) ta outlier cutoff = .error .indexError := by
  rw [estimateLinear_plain ext x arr ts hax hp hne]
  have : npGradient arr ts (orDefault ta 0) = .error .indexError := by
    rw [npGradient, axisIs_norm hp]
    simp only
    rw [if_neg (by rw [hl]; simp), if_pos h2]
  simp only [estimateLinear, this, bind, Except.bind]
  rfl

/-- A wrong number of timestamps is rejected. -/
theorem C36_length (ext : Ext) (x : XrOps) (arr : ND ℝ) {axis ta : Option ℤ} {pa p : ℕ} {ts : List ℝ}
    (hax : AxisIs (orDefault axis (-1)) arr.ndim pa) (hp : AxisIs (orDefault ta 0) arr.ndim p) (hne : pa ≠ p)
    (hl : arr.shape.getD p 0 ≠ ts.length) (outlier cutoff : Option ℝ) :
    estimateLinearVelocity ext x (.nd arr) none axis (.arr (ofList ts)) ta outlier cutoff = .error .valueError := by
  rw [estimateLinear_plain ext x arr ts hax hp hne]
  have : npGradient arr ts (orDefault ta 0) = .error .valueError := by
    rw [npGradient, axisIs_norm hp]
    simp only
    rw [if_pos (Ne.symm hl)]
  simp only [estimateLinear, this, bind, Except.bind]
  rfl

/-- A DataArray of positions: the estimate carries the same dimensions, coordinates, name and
attributes. -/
theorem C36_labels {ext : Ext} (hf : FiltLaw ext) (x : XrOps) {d : DArr} {dim td : String} {p q : ℕ} {ts : List ℝ}
    (hd : TimedDA d dim td p q ts) (hne : dim ≠ td) (cutoff : Option ℝ) (hc : ∀ c, cutoff = some c → 0 < c ∧ c < 1 ∧ 24 < ts.length) :
    ∃ v, estimateLinearVelocity ext x (.da d) (some dim) none (.name td) none none cutoff = .ok (.da v d.info) ∧
      v.shape = d.data.shape ∧ ∀ idx, Valid d.data.shape idx →
        ∀ c m, Follows d.data q ts idx (fun τ => c + m * τ) → v.get idx = some m := by
  have hdc : d.dimCoord td = .ok (ofList ts) := by simp only [DArr.dimCoord, hd.coord]
  have hu := C56_dims hd.ok hd.space hd.time hne hdc none
  have hq := (idxOf_of_dimAt hd.ok hd.time).2.2
  have hp := (idxOf_of_dimAt hd.ok hd.space).2.2
  have hpq : p ≠ q := by
    rintro rfl
    have := hd.space.symm.trans hd.time
    exact hne (Option.some.inj this)
  have hqa : AxisIs (q : ℤ) d.data.ndim q := axisIs_nat hq
  set g : ND ℝ := ⟨d.data.shape, fun idx => gradAt ts (d.data.lane q idx) (idx.getD q 0)⟩ with hg
  have hgs : (g.map some).shape = d.data.shape := rfl
  obtain ⟨w, w1, w2, w3, w4⟩ := maybeFilter_const hf (g.map some) (p := q) hq (cutoff := cutoff)
    (fun c hcc => by rw [hgs, hd.timed.length]; exact hc c hcc)
  have hest : estimateLinear ext d.data ts (q : ℤ) none cutoff = .ok w := by
    simp only [estimateLinear, npGradient_timed hqa hd.timed, bind, Except.bind, axisIs_norm hqa, maybeOutliers]
    exact w1
  have hent : (ofList ts).entries = ts := ofList_range ts
  have hmk : mkDArr (w.map fun o => o.getD 0) d.info = .ok ⟨w.map fun o => o.getD 0, d.info⟩ := by
    rw [mkDArr, if_neg (by have := hd.ok.ndim; simp only [ND.ndim, ND.map, w2, hgs] at *; simpa using this), if_pos ?_]
    rw [List.all_eq_true]
    intro c hcm
    simp only [decide_eq_true_eq, ND.map, w2, hgs]
    exact ⟨hd.ok.coordDims c hcm, hd.ok.coordShape c hcm⟩
  refine ⟨w, ?_, w2, fun idx hv c m hF => ?_⟩
  · simp only [estimateLinearVelocity, hu, bind, Except.bind, stampList_ofList, Option.getD_some, hest, mkEst, makeDataArray,
      hd.coord, hent, if_true, hmk]
    rfl
  · refine w4 idx m hv fun k hk => ?_
    have hv' : Valid d.data.shape (idx.set q k) := valid_set hv hk
    have : (g.map some).get (idx.set q k) = some (gradAt ts (d.data.lane q (idx.set q k)) ((idx.set q k).getD q 0)) := rfl
    rw [this, gradLane_quadratic hd.timed hv' (c := c) (m := m) (e := 0) (fun j τ hj => by
      rw [List.set_set, hF j τ hj]; ring) (.inl rfl)]
    simp

end RBM.Props
