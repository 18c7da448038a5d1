import Verif.Lemmas.DifferenceQuotient
import Verif.Props.VelocityLookup
import Verif.Props.ExamplesVelocity

/-!
C99: estimated linear velocities are difference quotients of the neighbouring samples.
-/

namespace RBM.Props

open RBM.Spec

/-- The estimate at every sample is the difference quotient of the samples beside it, for any array shape, time axis and strictly increasing timestamps. -/
theorem C99_estimate (ext : Ext) (x : XrOps) (arr : ND ℝ) {axis ta : Option ℤ} {pa p : ℕ} {ts : List ℝ}
    (hax : AxisIs (orDefault axis (-1)) arr.ndim pa) (hp : AxisIs (orDefault ta 0) arr.ndim p) (hne : pa ≠ p) (htd : TimedArray arr p ts) :
    ∃ v, estimateLinearVelocity ext x (.nd arr) none axis (.arr (ofList ts)) ta none none = .ok (.nd v) ∧ v.shape = arr.shape ∧
      ∀ idx, Valid arr.shape idx → ∃ w, v.get idx = some w ∧ IsEstimate ts (fun k => arr.get (idx.set p k)) (idx.getD p 0) w := by
  rw [estimateLinear_plain ext x arr ts hax hp hne]
  set g : ND ℝ := ⟨arr.shape, fun idx => gradAt ts (arr.lane p idx) (idx.getD p 0)⟩ with hg
  have hest : estimateLinear ext arr ts (orDefault ta 0) none none = .ok (g.map some) := by
    simp only [estimateLinear, npGradient_timed hp htd, bind, Except.bind, axisIs_norm hp, maybeOutliers]
    rfl
  refine ⟨g.map some, by rw [hest]; rfl, rfl, fun idx hv => ⟨_, rfl, ?_⟩⟩
  have hi : idx.getD p 0 < ts.length := by rw [← htd.length]; exact (valid_iff.mp hv).2 p htd.axis
  refine isEstimate_congr hi htd.two (fun j hj _ _ => ?_) (gradAt_estimate htd.sorted htd.two hi)
  exact lane_getD _ _ _ (by rw [htd.length]; exact hj)

/-- The same for a DataArray of positions; the estimate carries the dimensions, coordinates, name and attributes of the positions. -/
theorem C99_labels (ext : Ext) (x : XrOps) {d : DArr} {dim td : String} {p q : ℕ} {ts : List ℝ} (hd : TimedDA d dim td p q ts) (hne : dim ≠ td) :
    ∃ v, estimateLinearVelocity ext x (.da d) (some dim) none (.name td) none none none = .ok (.da v d.info) ∧ v.shape = d.data.shape ∧
      ∀ idx, Valid d.data.shape idx → ∃ w, v.get idx = some w ∧ IsEstimate ts (fun k => d.data.get (idx.set q k)) (idx.getD q 0) w := by
  have hdc : d.dimCoord td = .ok (ofList ts) := by simp only [DArr.dimCoord, hd.coord]
  have hu := C56_dims hd.ok hd.space hd.time hne hdc none
  have hq := (idxOf_of_dimAt hd.ok hd.time).2.2
  have hqa : AxisIs (q : ℤ) d.data.ndim q := axisIs_nat hq
  set g : ND ℝ := ⟨d.data.shape, fun idx => gradAt ts (d.data.lane q idx) (idx.getD q 0)⟩ with hg
  have hest : estimateLinear ext d.data ts (q : ℤ) none none = .ok (g.map some) := by
    simp only [estimateLinear, npGradient_timed hqa hd.timed, bind, Except.bind, axisIs_norm hqa, maybeOutliers]
    rfl
  have hent : (ofList ts).entries = ts := ofList_range ts
  have hmk : mkDArr ((g.map some).map fun o => o.getD 0) d.info = .ok ⟨(g.map some).map fun o => o.getD 0, d.info⟩ := by
    rw [mkDArr, if_neg (by have := hd.ok.ndim; simp only [ND.ndim, ND.map, hg] at *; simpa using this), if_pos ?_]
    rw [List.all_eq_true]
    intro c hcm
    simp only [decide_eq_true_eq, ND.map, hg]
    exact ⟨hd.ok.coordDims c hcm, hd.ok.coordShape c hcm⟩
  refine ⟨g.map some, ?_, rfl, fun idx hv => ⟨_, rfl, ?_⟩⟩
  · simp only [estimateLinearVelocity, hu, bind, Except.bind, stampList_ofList, Option.getD_some, hest, mkEst, makeDataArray,
      hd.coord, hent, if_true, hmk]
    rfl
  · have hi : idx.getD q 0 < ts.length := by rw [← hd.timed.length]; exact (valid_iff.mp hv).2 q hd.timed.axis
    refine isEstimate_congr hi hd.timed.two (fun j hj _ _ => ?_) (gradAt_estimate hd.timed.sorted hd.timed.two hi)
    exact lane_getD _ _ _ (by rw [hd.timed.length]; exact hj)

/-- No estimate exceeds the mean velocities of the intervals beside the sample, in either direction. -/
theorem C99_bounds (ext : Ext) (x : XrOps) (arr : ND ℝ) {axis ta : Option ℤ} {pa p : ℕ} {ts : List ℝ}
    (hax : AxisIs (orDefault axis (-1)) arr.ndim pa) (hp : AxisIs (orDefault ta 0) arr.ndim p) (hne : pa ≠ p) (htd : TimedArray arr p ts) {v : ND (Option ℝ)}
    (hv : estimateLinearVelocity ext x (.nd arr) none axis (.arr (ofList ts)) ta none none = .ok (.nd v)) {idx : List ℕ} (hvalid : Valid arr.shape idx) {lo hi : ℝ}
    (h : ∀ j, j + 1 < ts.length → j ≤ idx.getD p 0 → idx.getD p 0 ≤ j + 1 →
      lo * (ts.getD (j + 1) 0 - ts.getD j 0) ≤ arr.get (idx.set p (j + 1)) - arr.get (idx.set p j) ∧
      arr.get (idx.set p (j + 1)) - arr.get (idx.set p j) ≤ hi * (ts.getD (j + 1) 0 - ts.getD j 0)) :
    ∃ w, v.get idx = some w ∧ lo ≤ w ∧ w ≤ hi := by
  obtain ⟨v', e, _, hE⟩ := C99_estimate ext x arr hax hp hne htd
  obtain rfl : v' = v := by rw [hv] at e; cases e; rfl
  obtain ⟨w, hw, hest⟩ := hE idx hvalid
  have hlt : idx.getD p 0 < ts.length := by rw [← htd.length]; exact (valid_iff.mp hvalid).2 p htd.axis
  obtain ⟨i, j, i1, j1, i2, i3, j2, j3, l, l0, l1, rfl⟩ := isEstimate_convex htd.sorted htd.two hlt hest
  have hb : ∀ j, j + 1 < ts.length → j ≤ idx.getD p 0 → idx.getD p 0 ≤ j + 1 →
      lo ≤ meanVelocity ts (fun k => arr.get (idx.set p k)) j ∧ meanVelocity ts (fun k => arr.get (idx.set p k)) j ≤ hi := by
    intro j a b c
    obtain ⟨q1, q2⟩ := h j a b c
    have hpos : 0 < ts.getD (j + 1) 0 - ts.getD j 0 := by
      have := strictlyIncreasing_getD htd.sorted (Nat.lt_succ_self j) a; linarith
    rw [meanVelocity, smul_eq_mul, one_div, inv_mul_eq_div]
    exact ⟨(le_div_iff₀ hpos).mpr q1, (div_le_iff₀ hpos).mpr q2⟩
  refine ⟨_, hw, ?_, ?_⟩ <;> simp only [smul_eq_mul] <;> nlinarith [hb i i1 i2 i3, hb j j1 j2 j3]

/-- The estimate at a sample depends only on this sample and its two neighbours: recordings that agree there have the same estimate. -/
theorem C99_local (ext : Ext) (x : XrOps) (arr arr' : ND ℝ) {axis ta : Option ℤ} {pa p : ℕ} {ts : List ℝ} (hsh : arr'.shape = arr.shape)
    (hax : AxisIs (orDefault axis (-1)) arr.ndim pa) (hp : AxisIs (orDefault ta 0) arr.ndim p) (hne : pa ≠ p) (htd : TimedArray arr p ts) {v v' : ND (Option ℝ)}
    (hv : estimateLinearVelocity ext x (.nd arr) none axis (.arr (ofList ts)) ta none none = .ok (.nd v))
    (hv' : estimateLinearVelocity ext x (.nd arr') none axis (.arr (ofList ts)) ta none none = .ok (.nd v')) {idx : List ℕ} (hi : Valid arr.shape idx)
    (h : ∀ j, j < ts.length → idx.getD p 0 ≤ j + 1 → j ≤ idx.getD p 0 + 1 → arr.get (idx.set p j) = arr'.get (idx.set p j)) :
    v.get idx = v'.get idx := by
  have hnd : arr'.ndim = arr.ndim := by simp only [ND.ndim, hsh]
  have htd' : TimedArray arr' p ts := ⟨by rw [hnd]; exact htd.axis, by rw [hsh]; exact htd.length, htd.two, htd.sorted⟩
  obtain ⟨u, e, _, hE⟩ := C99_estimate ext x arr hax hp hne htd
  obtain rfl : u = v := by rw [hv] at e; cases e; rfl
  obtain ⟨u', e', _, hE'⟩ := C99_estimate ext x arr' (by rw [hnd]; exact hax) (by rw [hnd]; exact hp) hne htd'
  obtain rfl : u' = v' := by rw [hv'] at e'; cases e'; rfl
  have hlt : idx.getD p 0 < ts.length := by rw [← htd.length]; exact (valid_iff.mp hi).2 p htd.axis
  obtain ⟨w, hw, h1⟩ := hE idx hi
  obtain ⟨w', hw', h2⟩ := hE' idx (by rw [hsh]; exact hi)
  rw [hw, hw', isEstimate_unique hlt (isEstimate_congr hlt htd.two h h1) h2]

/-- Velocities of combined motions are the combined velocities. -/
theorem C99_superposition (ext : Ext) (x : XrOps) (arr brr : ND ℝ) (c d : ℝ) {axis ta : Option ℤ} {pa p : ℕ} {ts : List ℝ} (hsh : brr.shape = arr.shape)
    (hax : AxisIs (orDefault axis (-1)) arr.ndim pa) (hp : AxisIs (orDefault ta 0) arr.ndim p) (hne : pa ≠ p) (htd : TimedArray arr p ts) :
    ∃ v w z, estimateLinearVelocity ext x (.nd arr) none axis (.arr (ofList ts)) ta none none = .ok (.nd v) ∧
      estimateLinearVelocity ext x (.nd brr) none axis (.arr (ofList ts)) ta none none = .ok (.nd w) ∧
      estimateLinearVelocity ext x (.nd ⟨arr.shape, fun idx => c * arr.get idx + d * brr.get idx⟩) none axis (.arr (ofList ts)) ta none none = .ok (.nd z) ∧
      ∀ idx, Valid arr.shape idx → ∃ a b, v.get idx = some a ∧ w.get idx = some b ∧ z.get idx = some (c * a + d * b) := by
  have hnd : brr.ndim = arr.ndim := by simp only [ND.ndim, hsh]
  have htb : TimedArray brr p ts := ⟨by rw [hnd]; exact htd.axis, by rw [hsh]; exact htd.length, htd.two, htd.sorted⟩
  obtain ⟨v, v1, _, v3⟩ := C99_estimate ext x arr hax hp hne htd
  obtain ⟨w, w1, _, w3⟩ := C99_estimate ext x brr (by rw [hnd]; exact hax) (by rw [hnd]; exact hp) hne htb
  obtain ⟨z, z1, _, z3⟩ := C99_estimate ext x ⟨arr.shape, fun idx => c * arr.get idx + d * brr.get idx⟩ hax hp hne ⟨htd.axis, htd.length, htd.two, htd.sorted⟩
  refine ⟨v, w, z, v1, w1, z1, fun idx hi => ?_⟩
  have hlt : idx.getD p 0 < ts.length := by rw [← htd.length]; exact (valid_iff.mp hi).2 p htd.axis
  obtain ⟨a, ha, h1⟩ := v3 idx hi
  obtain ⟨b, hb, h2⟩ := w3 idx (by rw [hsh]; exact hi)
  obtain ⟨r, hr, h3⟩ := z3 idx hi
  refine ⟨a, b, ha, hb, ?_⟩
  rw [hr, isEstimate_unique hlt h3 (isEstimate_comb c d h1 h2)]
  rfl

section

variable {ext : Ext} {s : State} {h : List Event} {a ref rep : ℕ} {reference representIn : Option FrameRef}

theorem isEstimate_vec {ts : List ℝ} {y : ℕ → Vec} {k : ℕ} {w : Vec} (h : ∀ j, IsEstimate ts (fun k => y k j) k (w j)) : IsEstimate ts y k w := by
  refine ⟨fun h0 => ?_, fun h1 => ?_, fun h0 h1 d0 d1 e0 e1 => ?_⟩ <;> funext j
  · exact (h j).first h0
  · exact (h j).last h1
  · exact (h j).inner h0 h1 d0 d1 e0 e1

/-- Every sample of `lookup_linear_velocity` is the difference quotient of the looked-up positions beside it, rotated to the representation frame. -/
theorem C99_lookup (hsq : SquadLaw ext.squad) (x : XrOps) (hr : Reachable s h) (ha : a < s.size) (hb : ref < s.size) (hc : rep < s.size)
    (h1 : s.resolveOr a reference = .ok ref) (h2 : s.resolveOr a representIn = .ok rep)
    (hp : PathAll s a ref (FrameOk true s)) (hp' : PathAll s ref rep (FrameOk true s)) {l : List ℕ} (hl : Route s ref rep l)
    {tl : List Vec} {rl : List Quat} {ts : List ℝ} (he : s.lookupTransform ext.squad a (.byObj ref) = .ok (.many tl, .many rl, some ts))
    (o : VelArgs) (ho : o.outlier = none) (hcut : o.cutoff = none) (hn : 2 ≤ (outStamps s l ts).length) :
    ∃ out, s.lookupLinearVelocity ext a reference representIn o = .ok (returned o.returnTimestamps out (some (outStamps s l ts))) ∧
      IsSeries out (some (outStamps s l ts)) ∧
      ∀ τ w, SampleAt out (some (outStamps s l ts)) τ w → ∃ B w0 k, IsTransformAt ext.squad s ref rep τ B ∧ ts[k]? = some τ ∧
        IsEstimate ts (fun i => tl.getD i 0) k w0 ∧ w = rot B.r w0 := by
  obtain ⟨hinc, htl, _, hrow⟩ := lookup_rows hsq hr ha hb hp he
  have hXs : (ND.ofVecs (.many tl)).shape = [ts.length, 3] := by rw [← htl]; rfl
  have h2ts : 2 ≤ ts.length := hn.trans (List.length_filter_le _ _)
  obtain ⟨a1, a0⟩ := axes2 hXs
  obtain ⟨v, v1, v2, v3⟩ := C99_estimate ext x (ND.ofVecs (.many tl)) a1 a0 (by omega) (timed_of hXs rfl h2ts hinc)
  have hval : ∀ k (j : Fin 3), k < ts.length → ∃ w, v.get [k, j] = some w ∧ IsEstimate ts (fun i => tl.getD i 0 j) k w := by
    intro k j hk
    obtain ⟨w, e, hw⟩ := v3 [k, j] (by rw [hXs]; exact ⟨hk, j.2, trivial⟩)
    refine ⟨w, e, isEstimate_congr hk h2ts (fun i _ _ _ => ?_) hw⟩
    show tl.getD i 0 (Fin.ofNat 3 (j : ℕ)) = tl.getD i 0 j
    fin_cases j <;> rfl
  have hfin : AllFinite v := by
    intro idx hv
    rw [v2, hXs] at hv
    match idx, hv with
    | [k, j], ⟨hk, hj, _⟩ =>
      obtain ⟨w, e, _⟩ := hval k ⟨j, hj⟩ hk
      rw [e]; simp
  obtain ⟨out, o1, o2, o3⟩ := C36_lookup hsq x hr ha hb hc h1 h2 hp hp' hl he o (v := v) (by rw [ho, hcut]; exact v1) hfin hn
  refine ⟨out, o1, o2, fun τ w hw => ?_⟩
  obtain ⟨B, w0, k, hB, hk, hw0, e⟩ := o3 τ w hw
  refine ⟨B, w0, k, hB, hk, isEstimate_vec fun j => ?_, e⟩
  obtain ⟨u, e1, e2⟩ := hval k j (List.getElem?_eq_some_iff.mp hk).1
  have : w0 j = u := Option.some.inj ((hw0 j).symm.trans e1)
  rw [this]
  exact e2

theorem dot_convex {u v : Vec} {l V : ℝ} (l0 : 0 ≤ l) (l1 : l ≤ 1) (hu : dot u u ≤ V) (hv : dot v v ≤ V) :
    dot ((1 - l) • u + l • v) ((1 - l) • u + l • v) ≤ V := by
  simp only [dot, Pi.add_apply, Pi.smul_apply, smul_eq_mul] at *
  have hl : 0 ≤ l * (1 - l) := mul_nonneg l0 (by linarith)
  nlinarith [mul_nonneg hl (sq_nonneg (u 0 - v 0)), mul_nonneg hl (sq_nonneg (u 1 - v 1)), mul_nonneg hl (sq_nonneg (u 2 - v 2)),
    mul_le_mul_of_nonneg_left hu (show 0 ≤ 1 - l by linarith), mul_le_mul_of_nonneg_left hv l0]

/-- If the frame never moves by more than `V` times the elapsed time between two successive looked-up positions, no sample of
`lookup_linear_velocity` is faster than `V`, in any representation frame. -/
theorem C99_speed (hsq : SquadLaw ext.squad) (x : XrOps) (hr : Reachable s h) (ha : a < s.size) (hb : ref < s.size) (hc : rep < s.size)
    (h1 : s.resolveOr a reference = .ok ref) (h2 : s.resolveOr a representIn = .ok rep)
    (hp : PathAll s a ref (FrameOk true s)) (hp' : PathAll s ref rep (FrameOk true s)) {l : List ℕ} (hl : Route s ref rep l)
    {tl : List Vec} {rl : List Quat} {ts : List ℝ} (he : s.lookupTransform ext.squad a (.byObj ref) = .ok (.many tl, .many rl, some ts))
    (o : VelArgs) (ho : o.outlier = none) (hcut : o.cutoff = none) (hn : 2 ≤ (outStamps s l ts).length) {V : ℝ}
    (hV : ∀ (k : ℕ) (τ τ' : ℝ) (A A' : Pose), ts[k]? = some τ → ts[k + 1]? = some τ' → IsTransformAt ext.squad s a ref τ A →
      IsTransformAt ext.squad s a ref τ' A' → Spec.dist A'.t A.t ≤ V * (τ' - τ)) :
    ∃ out, s.lookupLinearVelocity ext a reference representIn o = .ok (returned o.returnTimestamps out (some (outStamps s l ts))) ∧
      ∀ τ w, SampleAt out (some (outStamps s l ts)) τ w → Spec.dist w 0 ≤ V := by
  obtain ⟨out, o1, _, o3⟩ := C99_lookup hsq x hr ha hb hc h1 h2 hp hp' hl he o ho hcut hn
  obtain ⟨hinc, htl, _, hrow⟩ := lookup_rows hsq hr ha hb hp he
  have h2ts : 2 ≤ ts.length := hn.trans (List.length_filter_le _ _)
  have hm : ∀ j, j + 1 < ts.length → 0 ≤ V ∧ dot (meanVelocity ts (fun i => tl.getD i 0) j) (meanVelocity ts (fun i => tl.getD i 0) j) ≤ V ^ 2 := by
    intro j hj
    have g0 := List.getElem?_eq_getElem (show j < ts.length by omega)
    have g1 := List.getElem?_eq_getElem hj
    obtain ⟨A, hA, e, _⟩ := hrow j _ g0
    obtain ⟨A', hA', e', _⟩ := hrow (j + 1) _ g1
    have hd := hV j _ _ A A' g0 g1 hA hA'
    have hpos := strictlyIncreasing_getD hinc (Nat.lt_succ_self j) hj
    have t0 : tl.getD j 0 = A.t := by rw [List.getD_eq_getElem?_getD, e]; rfl
    have t1 : tl.getD (j + 1) 0 = A'.t := by rw [List.getD_eq_getElem?_getD, e']; rfl
    rw [← getD_eq (show j < ts.length by omega) 0, ← getD_eq hj 0] at hd
    simp only [meanVelocity, t0, t1]
    have hδ : 0 < ts.getD (j + 1) 0 - ts.getD j 0 := sub_pos.mpr hpos
    generalize ts.getD (j + 1) 0 - ts.getD j 0 = δ at *
    have hn0 : 0 ≤ Spec.dist A'.t A.t := Real.sqrt_nonneg _
    have hV0 : 0 ≤ V := by
      by_contra hneg
      have := mul_neg_of_neg_of_pos (not_le.mp hneg) hδ
      linarith
    refine ⟨hV0, ?_⟩
    have hsqd : dot (A'.t - A.t) (A'.t - A.t) ≤ (V * δ) ^ 2 := by
      have hdn : 0 ≤ dot (A'.t - A.t) (A'.t - A.t) := by simp only [dot]; nlinarith [mul_self_nonneg ((A'.t - A.t) 0), mul_self_nonneg ((A'.t - A.t) 1), mul_self_nonneg ((A'.t - A.t) 2)]
      rw [← Real.sq_sqrt hdn]
      exact pow_le_pow_left₀ hn0 hd 2
    have : dot ((1 / δ) • (A'.t - A.t)) ((1 / δ) • (A'.t - A.t)) = dot (A'.t - A.t) (A'.t - A.t) / δ ^ 2 := by
      simp only [dot, Pi.smul_apply, smul_eq_mul]
      field_simp
    rw [this, div_le_iff₀ (by positivity), ← mul_pow]
    exact hsqd
  refine ⟨out, o1, fun τ w hw => ?_⟩
  obtain ⟨B, w0, k, hB, hk, hest, rfl⟩ := o3 τ w hw
  obtain ⟨i, j, i1, j1, _, _, _, _, q, q0, q1, rfl⟩ := isEstimate_convex hinc h2ts (List.getElem?_eq_some_iff.mp hk).1 hest
  have hB0 : B.r ≠ 0 := isTransformAt_ne hr.wf (fun _ => hsq) hp' hB
  rw [Spec.dist, sub_zero, dot_rot _ hB0]
  exact Real.sqrt_le_iff.mpr ⟨(hm i i1).1, dot_convex q0 q1 (hm i i1).2 (hm j j1).2⟩

end

/-- Positions 0, 1, 5 at 0, 1, 3 s: the velocities are 1, 4/3 and 2 (`C99_estimate`, `C99_bounds`). -/
example : ∃ v, estimateLinearVelocity Ex.extR exXr (.nd (Ex.arr2 1 [[0], [1], [5]])) none none (.arr (ofList [0, 1, 3])) none none none = .ok (.nd v) ∧
    v.get [0, 0] = some 1 ∧ v.get [1, 0] = some (4 / 3) ∧ v.get [2, 0] = some 2 ∧ ∃ w, v.get [1, 0] = some w ∧ 1 ≤ w ∧ w ≤ 2 := by
  have hsh : (Ex.arr2 1 [[0], [1], [5]]).shape = [3, 1] := rfl
  have a1 : AxisIs (orDefault none (-1)) (Ex.arr2 1 [[0], [1], [5]]).ndim 1 := by simp [AxisIs, orDefault, ND.ndim, hsh]
  have a0 : AxisIs (orDefault none 0) (Ex.arr2 1 [[0], [1], [5]]).ndim 0 := by simp [AxisIs, orDefault, ND.ndim, hsh]
  have htd : TimedArray (Ex.arr2 1 [[0], [1], [5]]) 0 [0, 1, 3] := ⟨by simp [ND.ndim, hsh], by simp [hsh], by simp, by simp [StrictlyIncreasing]⟩
  obtain ⟨v, v1, v2, v3⟩ := C99_estimate Ex.extR exXr _ a1 a0 (by omega) htd
  obtain ⟨w0, e0, h0⟩ := v3 [0, 0] (by simp [Valid, hsh])
  obtain ⟨w1, e1, h1⟩ := v3 [1, 0] (by simp [Valid, hsh])
  obtain ⟨w2, e2, h2⟩ := v3 [2, 0] (by simp [Valid, hsh])
  have q0 := h0.first rfl
  have q1 := h1.inner (by simp) (by simp) 1 2 (by simp) (by simp; norm_num)
  have q2 := h2.last (by simp)
  have g0 : (Ex.arr2 1 [[0], [1], [5]]).get [0, 0] = 0 := by simp [Ex.arr2]
  have g1 : (Ex.arr2 1 [[0], [1], [5]]).get [1, 0] = 1 := by simp [Ex.arr2]
  have g2 : (Ex.arr2 1 [[0], [1], [5]]).get [2, 0] = 5 := by simp [Ex.arr2]
  refine ⟨v, v1, by rw [e0, q0]; simp [meanVelocity, g0, g1], by rw [e1, q1]; simp [meanVelocity, g0, g1, g2]; norm_num,
    by rw [e2, q2]; simp [meanVelocity, g1, g2]; norm_num, ?_⟩
  refine C99_bounds Ex.extR exXr _ a1 a0 (by omega) htd v1 (idx := [1, 0]) (by simp [Valid, hsh]) fun j hj hj1 hj2 => ?_
  match j with
  | 0 => simp [g0, g1]
  | 1 => simp [g1, g2]; norm_num
  | n + 2 => exact absurd hj (by simp)

/-- The moving frame of `Ex.v3` is never faster than 2 (`C99_speed`). -/
example : ∃ out, Ex.v3.lookupLinearVelocity Ex.extR 1 none none { returnTimestamps := true, allowStatic := false } = .ok (returned true out (some [0, 1, 3])) ∧
    ∀ τ w, SampleAt out (some [0, 1, 3]) τ w → Spec.dist w 0 ≤ 2 := by
  obtain ⟨h, hr⟩ := Ex.reachV
  have hres : Ex.v3.resolveOr 1 none = .ok 0 := by simp [State.resolveOr, exV_facts.1]
  have hself : PathAll Ex.v3 0 0 (FrameOk true Ex.v3) ∧ Route Ex.v3 0 0 [] := by
    have hc : NearestCommon Ex.v3 0 0 0 := ⟨.refl, .refl, fun d _ hd2 => hd2⟩
    exact ⟨⟨0, [], [], hc, .here, .here, by simp⟩, ⟨0, [], [], hc, .here, .here, rfl⟩⟩
  have hst := exV_stamps [] (by simp)
  obtain ⟨out, o1, o2⟩ := C99_speed Ex.extR_squad exXr hr exV_lt.2.1 exV_lt.1 exV_lt.1 hres hres exV_path.1 hself.1 hself.2 exV_lookup
    { returnTimestamps := true, allowStatic := false } rfl rfl (by rw [hst]; simp) (V := 2) (by
      intro k τ τ' A A' h1 h2 hA hA'
      have hlt : τ < τ' := by
        have hi : StrictlyIncreasing ([0, 1, 3] : List ℝ) := by simp [StrictlyIncreasing]
        obtain ⟨l1, e1⟩ := List.getElem?_eq_some_iff.mp h1
        obtain ⟨l2, e2⟩ := List.getElem?_eq_some_iff.mp h2
        rw [← e1, ← e2]
        exact List.pairwise_iff_getElem.mp hi k (k + 1) l1 l2 (by omega)
      rw [(exV_poses τ (List.mem_of_getElem? h1) A hA).1, (exV_poses τ' (List.mem_of_getElem? h2) A' hA').1]
      refine Real.sqrt_le_iff.mpr ⟨by linarith, ?_⟩
      simp [dot]
      nlinarith)
  rw [hst] at o1 o2
  exact ⟨out, o1, o2⟩

/-- A labelled recording (`C99_labels`). -/
example : ∃ v, estimateLinearVelocity Ex.ext exXr (.da exTimed) (some "cartesian_axis") none (.name "time") none none none = .ok (.da v exTimed.info) :=
  let ⟨v, h, _⟩ := C99_labels Ex.ext exXr exTimed_ok (by decide)
  ⟨v, h⟩

/-- Four samples: the last one does not affect the estimate of the second one; adding 3 t to the positions adds 3 to every estimate
(`C99_local`, `C99_superposition`). -/
example : (∃ v v', estimateLinearVelocity Ex.ext exXr (.nd (Ex.arr2 1 [[0], [1], [5], [6]])) none none (.arr (ofList [0, 1, 3, 4])) none none none = .ok (.nd v) ∧
      estimateLinearVelocity Ex.ext exXr (.nd (Ex.arr2 1 [[0], [1], [5], [70]])) none none (.arr (ofList [0, 1, 3, 4])) none none none = .ok (.nd v') ∧
      v.get [1, 0] = v'.get [1, 0]) ∧
    ∃ v w z, estimateLinearVelocity Ex.ext exXr (.nd (Ex.arr2 1 [[0], [1], [5], [6]])) none none (.arr (ofList [0, 1, 3, 4])) none none none = .ok (.nd v) ∧
      estimateLinearVelocity Ex.ext exXr (.nd (Ex.arr2 1 [[0], [1], [3], [4]])) none none (.arr (ofList [0, 1, 3, 4])) none none none = .ok (.nd w) ∧
      estimateLinearVelocity Ex.ext exXr (.nd ⟨[4, 1], fun idx => 1 * (Ex.arr2 1 [[0], [1], [5], [6]]).get idx + 3 * (Ex.arr2 1 [[0], [1], [3], [4]]).get idx⟩)
        none none (.arr (ofList [0, 1, 3, 4])) none none none = .ok (.nd z) ∧
      ∀ idx, Valid [4, 1] idx → ∃ a b, v.get idx = some a ∧ w.get idx = some b ∧ z.get idx = some (1 * a + 3 * b) := by
  have key : ∀ l : List (List ℝ), l.length = 4 → (Ex.arr2 1 l).shape = [4, 1] ∧ AxisIs (orDefault none (-1)) (Ex.arr2 1 l).ndim 1 ∧
      AxisIs (orDefault none 0) (Ex.arr2 1 l).ndim 0 ∧ TimedArray (Ex.arr2 1 l) 0 [0, 1, 3, 4] := by
    intro l hl
    have hsh : (Ex.arr2 1 l).shape = [4, 1] := by simp [Ex.arr2, hl]
    refine ⟨hsh, by simp [AxisIs, orDefault, ND.ndim, hsh], by simp [AxisIs, orDefault, ND.ndim, hsh], by simp [ND.ndim, hsh], by simp [hsh], by simp, ?_⟩
    simp [StrictlyIncreasing]
    norm_num
  obtain ⟨s1, a1, b1, t1⟩ := key [[0], [1], [5], [6]] rfl
  obtain ⟨s2, a2, b2, t2⟩ := key [[0], [1], [5], [70]] rfl
  obtain ⟨s3, _⟩ := key [[0], [1], [3], [4]] rfl
  refine ⟨?_, C99_superposition Ex.ext exXr _ _ 1 3 (s3.trans s1.symm) a1 b1 (by omega) t1⟩
  obtain ⟨v, v1, _⟩ := C99_estimate Ex.ext exXr _ a1 b1 (by omega) t1
  obtain ⟨v', v1', _⟩ := C99_estimate Ex.ext exXr _ a2 b2 (by omega) t2
  refine ⟨v, v', v1, v1', C99_local Ex.ext exXr _ _ (s2.trans s1.symm) a1 b1 (by omega) t1 v1 v1' (by rw [s1]; simp [Valid]) fun j _ _ hj => ?_⟩
  match j with
  | 0 => simp [Ex.arr2]
  | 1 => simp [Ex.arr2]
  | 2 => simp [Ex.arr2]
  | n + 3 => exact absurd hj (by simp)

end RBM.Props
