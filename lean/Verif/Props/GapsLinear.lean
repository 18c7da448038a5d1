import Verif.Props.Gaps

/-!
C78: linear velocities (and angular ones in rotation vector mode) of a series with missing (NaN) entries.
-/

namespace RBM.Props

open RBM.Spec

theorem uniform_iff (xs : List ℝ) : Uniform xs ↔ ∀ k, k + 1 < xs.length → xs.getD (k + 1) 0 - xs.getD k 0 = xs.getD 1 0 - xs.getD 0 0 := by
  have e : ∀ k, k < xs.length → xs[k]? = some (xs.getD k 0) := fun k hk => by rw [getD_eq hk, List.getElem?_eq_getElem hk]
  constructor
  · intro h k hk
    exact h k _ _ _ _ (e k (by omega)) (e (k + 1) hk) (e 0 (by omega)) (e 1 (by omega))
  · intro h k a b c d ha hb hc hd
    have hl := (List.getElem?_eq_some_iff.mp hb).1
    have := h k hl
    rw [e _ (by omega)] at ha hb hc hd
    cases ha; cases hb; cases hc; cases hd
    exact this

theorem mem_gradNeeds {xs : List ℝ} {i k : ℕ} (h2 : 2 ≤ xs.length) (hi : i < xs.length) : k ∈ gradNeeds xs i ↔
    (k < xs.length ∧ (k + 1 = i ∨ k = i + 1)) ∨ (k = i ∧ (i = 0 ∨ i + 1 = xs.length ∨ ¬ Uniform xs)) := by
  simp only [gradNeeds]
  by_cases h0 : i = 0
  · rw [if_pos h0]; simp [h0]; omega
  rw [if_neg h0]
  by_cases hl : i + 1 = xs.length
  · rw [if_pos hl]; simp [hl]; omega
  rw [if_neg hl]
  by_cases hu : Uniform xs
  · rw [if_pos ((uniform_iff xs).mp hu)]; simp [h0, hl, hu]; omega
  · rw [if_neg (fun h => hu ((uniform_iff xs).mpr h))]; simp [h0, hl, hu]; omega

theorem gradAt_congr {xs ys zs : List ℝ} {i : ℕ} (h : ∀ k ∈ gradNeeds xs i, ys.getD k 0 = zs.getD k 0) : gradAt xs ys i = gradAt xs zs i := by
  simp only [gradNeeds] at h
  simp only [gradAt]
  split_ifs with h0 hl hu
  · rw [if_pos h0] at h
    rw [h 0 (by simp), h 1 (by simp)]
  · rw [if_neg h0, if_pos hl] at h
    rw [h (xs.length - 1) (by simp), h (xs.length - 2) (by simp)]
  · rw [if_neg h0, if_neg hl, if_pos hu] at h
    rw [h (i - 1) (by simp), h (i + 1) (by simp)]
  · rw [if_neg h0, if_neg hl, if_neg hu] at h
    rw [h (i - 1) (by simp), h i (by simp), h (i + 1) (by simp)]

/-- Differences with missing samples. -/
theorem gradAtGaps_lost {xs : List ℝ} {ys : List (Option ℝ)} {i : ℕ} (h2 : 2 ≤ xs.length) (hi : i < xs.length) :
    (gradAtGaps xs ys i = none ↔ Lost xs (fun k => ys.getD k none = none) i) ∧
      ∀ zs : List ℝ, (∀ (k : ℕ) y, ys.getD k none = some y → zs.getD k 0 = y) → gradAtGaps xs ys i ≠ none → gradAtGaps xs ys i = some (gradAt xs zs i) := by
  constructor
  · rw [gradAtGaps]
    constructor
    · intro h
      by_cases hc : ∃ k ∈ gradNeeds xs i, ys.getD k none = none
      · obtain ⟨k, hk, e⟩ := hc
        rcases (mem_gradNeeds h2 hi).mp hk with ⟨h1, h3⟩ | ⟨rfl, h3⟩
        · exact .inl ⟨k, h1, h3, e⟩
        · exact .inr ⟨e, h3⟩
      · rw [if_neg hc] at h; cases h
    · intro h
      rw [if_pos]
      rcases h with ⟨k, h1, h3, e⟩ | ⟨e, h3⟩
      · exact ⟨k, (mem_gradNeeds h2 hi).mpr (.inl ⟨h1, h3⟩), e⟩
      · exact ⟨i, (mem_gradNeeds h2 hi).mpr (.inr ⟨rfl, h3⟩), e⟩
  · intro zs hz hne
    have hc : ∀ k ∈ gradNeeds xs i, ys.getD k none ≠ none := by
      intro k hk e
      exact hne (by rw [gradAtGaps, if_pos ⟨k, hk, e⟩])
    rw [gradAtGaps_present hc]
    congr 1
    refine gradAt_congr fun k hk => ?_
    obtain ⟨y, hy⟩ := Option.ne_none_iff_exists'.mp (hc k hk)
    rw [hz k y hy]
    rw [List.getD_eq_getElem?_getD] at hy
    cases hq : ys[k]? with
    | none => rw [hq] at hy; cases hy
    | some o =>
      rw [hq] at hy
      have : o = some y := hy
      rw [List.getD_eq_getElem?_getD, List.getElem?_map, hq, this]; rfl

section

variable {ext : Ext} {arr : ND (Option ℝ)} {axis ta : Option ℤ} {pa p : ℕ} {ts : List ℝ}

theorem npGradientGaps_timed {ax : ℤ} (hp : AxisIs ax arr.ndim p) (hn : arr.shape.getD p 0 = ts.length) (h2 : 2 ≤ ts.length) (hs : StrictlyIncreasing ts) :
    npGradientGaps arr ts ax = .ok ⟨arr.shape, fun idx => gradAtGaps ts (arr.lane p idx) (idx.getD p 0)⟩ := by
  rw [npGradientGaps, axisIs_norm hp]
  simp only
  rw [if_neg (by rw [hn]; simp), if_neg (by omega), if_neg (grad_not_degenerate hs)]

/-- Every array of positions, pattern of NaN, time axis and increasing timestamps: the velocity of a sample is NaN exactly if a
direct neighbour in the same column is missing, or the sample itself is missing and is at the boundary or the timestamps are
uneven. All other velocities are those of any series that agrees on the entries present. -/
theorem C78_gaps (x : XrOps) (hax : AxisIs (orDefault axis (-1)) arr.ndim pa) (hp : AxisIs (orDefault ta 0) arr.ndim p) (hne : pa ≠ p)
    (hn : arr.shape.getD p 0 = ts.length) (h2 : 2 ≤ ts.length) (hs : StrictlyIncreasing ts) :
    ∃ w, estimateLinearVelocityGaps ext arr none axis (.arr (ofList ts)) ta none none = .ok w ∧ w.shape = arr.shape ∧
      (∀ idx, Valid arr.shape idx → (w.get idx = none ↔ Lost ts (fun k => arr.get (idx.set p k) = none) (idx.getD p 0))) ∧
      ∀ arr', Completes arr' arr → ∃ v, estimateLinearVelocity ext x (.nd arr') none axis (.arr (ofList ts)) ta none none = .ok (.nd v) ∧
        ∀ idx, Valid arr.shape idx → w.get idx ≠ none → w.get idx = v.get idx := by
  have hpp := hp.1
  refine ⟨⟨arr.shape, fun idx => gradAtGaps ts (arr.lane p idx) (idx.getD p 0)⟩, ?_, rfl, ?_, ?_⟩
  · rw [estimateLinearGaps_plain ext arr ts hax hp hne, estimateLinearGaps, npGradientGaps_timed hp hn h2 hs]
    simp only [bind, Except.bind, axisIs_norm hp, maybeOutliersGaps, maybeFilter]
  · intro idx hv
    have hi : idx.getD p 0 < ts.length := by rw [← hn]; exact (valid_iff.mp hv).2 p hpp
    rw [(gradAtGaps_lost h2 hi).1]
    have e : ∀ k, k < ts.length → ((arr.lane p idx).getD k none = none ↔ arr.get (idx.set p k) = none) := by
      intro k hk; rw [lane_get _ _ _ (by rw [hn]; exact hk)]
    refine or_congr ⟨?_, ?_⟩ (and_congr_left fun _ => e _ hi)
    · rintro ⟨k, h1, h3, h4⟩; exact ⟨k, h1, h3, (e k h1).mp h4⟩
    · rintro ⟨k, h1, h3, h4⟩; exact ⟨k, h1, h3, (e k h1).mpr h4⟩
  · intro arr' hc
    have hnd : arr'.ndim = arr.ndim := by rw [ND.ndim, hc.1]; rfl
    have htd : TimedArray arr' p ts := ⟨by omega, by rw [hc.1]; exact hn, h2, hs⟩
    refine ⟨(⟨arr'.shape, fun idx => gradAt ts (arr'.lane p idx) (idx.getD p 0)⟩ : ND ℝ).map some, ?_, fun idx hv hw => ?_⟩
    · rw [estimateLinear_plain ext x arr' ts (by rw [hnd]; exact hax) (by rw [hnd]; exact hp) hne, estimateLinear,
        npGradient_timed (by rw [hnd]; exact hp) htd]
      simp only [bind, Except.bind, axisIs_norm (show AxisIs _ arr'.ndim p by rw [hnd]; exact hp), maybeOutliers, maybeFilter]
      rfl
    · have hi : idx.getD p 0 < ts.length := by rw [← hn]; exact (valid_iff.mp hv).2 p hpp
      refine (gradAtGaps_lost h2 hi).2 (arr'.lane p idx) (fun k y hk => ?_) hw
      have hkl : k < arr.shape.getD p 0 := by
        rw [← lane_length arr p idx]
        by_contra hcon
        rw [List.getD_eq_getElem?_getD, List.getElem?_eq_none (by omega)] at hk
        cases hk
      rw [lane_get _ _ _ hkl] at hk
      rw [lane_get _ _ _ (by rw [hc.1]; exact hkl)]
      exact hc.2 _ _ (valid_set hv hkl) hk

/-- With a low-pass filter, one missing entry of a column makes the whole column NaN. -/
theorem C78_filter_spoils (hax : AxisIs (orDefault axis (-1)) arr.ndim pa) (hp : AxisIs (orDefault ta 0) arr.ndim p) (hne : pa ≠ p)
    (hn : arr.shape.getD p 0 = ts.length) (hs : StrictlyIncreasing ts) {c : ℝ} (h0 : 0 < c) (h1 : c < 1) (hlong : 24 < ts.length) :
    ∃ w, estimateLinearVelocityGaps ext arr none axis (.arr (ofList ts)) ta none (some c) = .ok w ∧ w.shape = arr.shape ∧
      ∀ idx, Valid arr.shape idx → (w.get idx = none ↔ ∃ k < ts.length, arr.get (idx.set p k) = none) := by
  classical
  have hpp := hp.1
  let v : ND (Option ℝ) := ⟨arr.shape, fun idx => gradAtGaps ts (arr.lane p idx) (idx.getD p 0)⟩
  refine ⟨⟨v.shape, fun idx => if none ∈ v.lane p idx then none
      else some (ext.filt c ((v.lane p idx).map fun x => x.getD 0) (idx.getD p 0))⟩, ?_, rfl, ?_⟩
  · rw [estimateLinearGaps_plain ext arr ts hax hp hne, estimateLinearGaps, npGradientGaps_timed hp hn (by omega) hs]
    simp only [bind, Except.bind, axisIs_norm hp, maybeOutliersGaps, maybeFilter]
    rw [if_neg (by push Not; exact ⟨h0, h1⟩), if_neg (by rw [hn]; omega)]
  · intro idx hv
    have hil : p < idx.length := by rw [hv.length]; exact hpp
    have hlane : none ∈ v.lane p idx ↔ ∃ m < ts.length, Lost ts (fun k => arr.get (idx.set p k) = none) m := by
      simp only [ND.lane, List.mem_map, List.mem_range]
      have hvs : v.shape.getD p 0 = ts.length := hn
      rw [hvs]
      refine exists_congr fun m => and_congr_right fun hm => ?_
      have hpos : (idx.set p m).getD p 0 = m := by rw [getD_set hil, if_pos rfl]
      show gradAtGaps ts (arr.lane p (idx.set p m)) ((idx.set p m).getD p 0) = none ↔ _
      rw [hpos, (gradAtGaps_lost (by omega) hm).1]
      have e : ∀ k, k < ts.length → ((arr.lane p (idx.set p m)).getD k none = none ↔ arr.get (idx.set p k) = none) := by
        intro k hk; rw [lane_get _ _ _ (by rw [hn]; exact hk), List.set_set]
      refine or_congr ⟨?_, ?_⟩ (and_congr_left fun _ => e _ hm)
      · rintro ⟨k, h1, h3, h4⟩; exact ⟨k, h1, h3, (e k h1).mp h4⟩
      · rintro ⟨k, h1, h3, h4⟩; exact ⟨k, h1, h3, (e k h1).mpr h4⟩
    have : (∃ m < ts.length, Lost ts (fun k => arr.get (idx.set p k) = none) m) ↔ ∃ k < ts.length, arr.get (idx.set p k) = none := by
      constructor
      · rintro ⟨m, hm, ⟨k, hk, _, e⟩ | ⟨e, _⟩⟩
        · exact ⟨k, hk, e⟩
        · exact ⟨m, hm, e⟩
      · rintro ⟨k, hk, e⟩
        by_cases hk0 : k = 0
        · exact ⟨1, by omega, .inl ⟨k, hk, .inl (by omega), e⟩⟩
        · exact ⟨k - 1, by omega, .inl ⟨k, hk, .inr (by omega), e⟩⟩
    rw [← this, ← hlane]
    show (if none ∈ v.lane p idx then none else some _) = none ↔ _
    by_cases h : none ∈ v.lane p idx
    · rw [if_pos h]; simp [h]
    · rw [if_neg h]; simp [h]

end

end RBM.Props
