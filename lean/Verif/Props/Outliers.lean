import Verif.Props.Velocity

/-!
C39: outlier removal in the velocity estimators.
-/

namespace RBM.Props

open RBM.Spec

/-- Row/column indexing of the two dimensional case. -/
theorem interpolated_of {v : ND ℝ} {n k : ℕ} (hv : v.shape = [n, k]) {ts : List ℝ} (hn : ts.length = n) (hs : StrictlyIncreasing ts)
    {d : ℕ → ℝ} {J : ℕ → ℝ} (hd : ∀ i, jumpStat d n i = J i) (th : ℝ) {a0 b0 : ℕ} (hab : a0 < b0) (hb0 : b0 < n)
    (ha : J a0 ≤ th) (hb : J b0 ≤ th) :
    ∃ w, removeOutliers v ts d th = .ok w ∧ w.shape = v.shape ∧ Interpolated (v.map some) w n k ts (fun i => J i ≤ th) := by
  obtain ⟨w, w1, w2, w3, w4, w5⟩ := removeOutliers_spec hv hn hs d th hab hb0 (by rw [hd]; exact ha) (by rw [hd]; exact hb)
  simp only [hd] at w3 w4 w5
  refine ⟨w, w1, w2, fun i j hi _ hr => w3 i j hi hr, ?_, fun i j hi _ h => w5 i j hi h⟩
  intro i j a b x y hai hib hbn hjk hra hrb hno hx hy
  have hx' : v.get [a, j] = x := Option.some.inj hx
  have hy' : v.get [b, j] = y := Option.some.inj hy
  have l1 := strictlyIncreasing_getD hs (show a < i by omega) (by omega)
  have l2 := strictlyIncreasing_getD hs (show i < b by omega) (by omega)
  refine ⟨(ts.getD i 0 - ts.getD a 0) / (ts.getD b 0 - ts.getD a 0), ?_, ?_, ?_, ?_⟩
  · exact div_nonneg (by linarith) (by linarith)
  · rw [div_le_one (by linarith)]; linarith
  · have : ts.getD b 0 - ts.getD a 0 ≠ 0 := by linarith
    generalize ts.getD b 0 = B at *
    generalize ts.getD a 0 = A at *
    generalize ts.getD i 0 = I at *
    field_simp
    ring
  · rw [w4 i j a b hai hib hbn hra hrb hno, hx', hy']

variable {arr : ND ℝ} {n k : ℕ} {ts : List ℝ}

theorem timed_of (hs : arr.shape = [n, k]) (hn : ts.length = n) (h2 : 2 ≤ n) (hi : StrictlyIncreasing ts) : TimedArray arr 0 ts :=
  ⟨by simp [ND.ndim, hs], by simp [hs, hn], by omega, hi⟩

theorem axes2 (hs : arr.shape = [n, k]) : AxisIs (orDefault none (-1)) arr.ndim 1 ∧ AxisIs (orDefault none 0) arr.ndim 0 := by
  have : arr.ndim = 2 := by simp [ND.ndim, hs]
  rw [this]
  exact ⟨⟨by omega, .inr (by simp [orDefault])⟩, ⟨by omega, .inl (by simp [orDefault])⟩⟩

theorem estimateLinear_outlier (ext : Ext) (x : XrOps) (hs : arr.shape = [n, k]) (hn : ts.length = n) (h2 : 2 ≤ n) (hi : StrictlyIncreasing ts) :
    ∃ v : ND ℝ, v.shape = [n, k] ∧
      estimateLinearVelocity ext x (.nd arr) none none (.arr (ofList ts)) none none none = .ok (.nd (v.map some)) ∧
      ∀ th, estimateLinearVelocity ext x (.nd arr) none none (.arr (ofList ts)) none (some th) none =
        (removeOutliers v ts (secondDiff arr) th).map .nd := by
  obtain ⟨a1, a0⟩ := axes2 hs
  have htd := timed_of hs hn h2 hi
  refine ⟨⟨arr.shape, fun idx => gradAt ts (arr.lane 0 idx) (idx.getD 0 0)⟩, hs, ?_, fun th => ?_⟩
  · rw [estimateLinear_plain ext x arr ts a1 a0 (by omega)]
    simp only [estimateLinear, npGradient_timed a0 htd, bind, Except.bind, axisIs_norm a0, maybeOutliers, maybeFilter]
    rfl
  · rw [estimateLinear_plain ext x arr ts a1 a0 (by omega)]
    simp only [estimateLinear, npGradient_timed a0 htd, bind, Except.bind, axisIs_norm a0, maybeOutliers]
    rw [if_neg (by simp [ND.ndim, hs]), if_neg (by simp)]
    cases removeOutliers _ ts (secondDiff arr) th <;> rfl

/-- For every series of at least two retained samples and every threshold: the estimate with
`outlier_thresh` is the estimate without, where samples whose statistic exceeds the threshold are replaced
by linear interpolation between the neighbouring retained samples, and by NaN before the first and after
the last retained sample. -/
theorem C39_linear (ext : Ext) (x : XrOps) (hs : arr.shape = [n, k]) (hn : ts.length = n) (hi : StrictlyIncreasing ts) (th : ℝ)
    {a b : ℕ} (hab : a < b) (hb : b < n) (ha' : jump arr n k a ≤ th) (hb' : jump arr n k b ≤ th) :
    ∃ v w, estimateLinearVelocity ext x (.nd arr) none none (.arr (ofList ts)) none none none = .ok (.nd v) ∧
      estimateLinearVelocity ext x (.nd arr) none none (.arr (ofList ts)) none (some th) none = .ok (.nd w) ∧
      v.shape = [n, k] ∧ w.shape = [n, k] ∧ (∀ i j, v.get [i, j] ≠ none) ∧
      Interpolated v w n k ts (fun i => jump arr n k i ≤ th) := by
  obtain ⟨v, v1, v2, v3⟩ := estimateLinear_outlier ext x hs hn (by omega) hi
  obtain ⟨w, w1, w2, w3⟩ := interpolated_of v1 hn hi (fun i => jumpStat_eq arr (n := n) (k := k) (by simp [hs]) i) th hab hb ha' hb'
  refine ⟨v.map some, w, v2, by rw [v3, w1]; rfl, v1, w2.trans v1, fun i j => by simp [ND.map], w3⟩

/-- The last sample is retained for every threshold that is not negative, and a negative threshold
retains nothing. -/
theorem C39_last_retained (arr : ND ℝ) (n k : ℕ) {th : ℝ} : (0 ≤ th → jump arr n k (n - 1) ≤ th) ∧ (th < 0 → ∀ i, ¬ jump arr n k i ≤ th) := by
  constructor
  · intro h
    have e1 : bend arr n k (n - 1) = 0 := by rw [bend, if_neg (by omega)]
    have e2 : bend arr n k (n - 1 + 1) = 0 := by rw [bend, if_neg (by omega)]
    rw [jump, e1, e2]; linarith
  · intro h i hi
    have nn : ∀ i, 0 ≤ bend arr n k i := fun i => by unfold bend; split_ifs <;> [exact Real.sqrt_nonneg _; exact le_rfl]
    have := nn i; have := nn (i + 1)
    rw [jump] at hi
    linarith

/-- A series without bends (in particular straight motion sampled uniformly) is left alone by any
threshold that is not negative. -/
theorem C39_nothing_removed (ext : Ext) (x : XrOps) (hs : arr.shape = [n, k]) (hn : ts.length = n) (h2 : 2 ≤ n) (hi : StrictlyIncreasing ts)
    {th : ℝ} (hall : ∀ i < n, jump arr n k i ≤ th) :
    ∃ v w, estimateLinearVelocity ext x (.nd arr) none none (.arr (ofList ts)) none none none = .ok (.nd v) ∧
      estimateLinearVelocity ext x (.nd arr) none none (.arr (ofList ts)) none (some th) none = .ok (.nd w) ∧
      w.shape = v.shape ∧ ∀ i j, i < n → j < k → w.get [i, j] = v.get [i, j] := by
  obtain ⟨v, w, a, b, c, d, _, e⟩ := C39_linear ext x hs hn hi th (a := 0) (b := 1) (by omega) (by omega) (hall 0 (by omega)) (hall 1 (by omega))
  exact ⟨v, w, a, b, d.trans c.symm, fun i j h1 h2 => e.kept i j h1 h2 (hall i h1)⟩

/-- If no sample is retained the call fails. -/
theorem C39_none_retained (ext : Ext) (x : XrOps) (hs : arr.shape = [n, k]) (hn : ts.length = n) (h2 : 2 ≤ n) (hi : StrictlyIncreasing ts)
    {th : ℝ} (hno : ∀ i < n, ¬ jump arr n k i ≤ th) :
    estimateLinearVelocity ext x (.nd arr) none none (.arr (ofList ts)) none (some th) none = .error .valueError := by
  obtain ⟨v, v1, v2, v3⟩ := estimateLinear_outlier ext x hs hn h2 hi
  rw [v3]
  have : removeOutliers v ts (secondDiff arr) th = .error .valueError := by
    classical
    simp only [removeOutliers]
    rw [if_pos]
    refine List.filter_eq_nil_iff.mpr fun i hi' => ?_
    rw [hn, jumpStat_eq arr (k := k) (by simp [hs])]
    simpa using hno i (by rw [← hn]; simpa using hi')
  rw [this]; rfl

/-- If a single sample is retained, nothing is left: every entry is NaN. -/
theorem C39_single_retained (ext : Ext) (x : XrOps) (hs : arr.shape = [n, k]) (hn : ts.length = n) (h2 : 2 ≤ n) (hi : StrictlyIncreasing ts)
    {th : ℝ} {a : ℕ} (han : a < n) (ha : ∀ i < n, (jump arr n k i ≤ th ↔ i = a)) :
    ∃ w, estimateLinearVelocity ext x (.nd arr) none none (.arr (ofList ts)) none (some th) none = .ok (.nd w) ∧
      w.shape = [n, k] ∧ ∀ idx, w.get idx = none := by
  obtain ⟨v, v1, v2, v3⟩ := estimateLinear_outlier ext x hs hn h2 hi
  classical
  have hk : ((List.range ts.length).filter fun i => decide (jumpStat (secondDiff arr) ts.length i ≤ th)) = [a] := by
    have : ((List.range ts.length).filter fun i => decide (jumpStat (secondDiff arr) ts.length i ≤ th)) =
        (List.range ts.length).filter fun i => decide (i = a) := by
      refine List.filter_congr fun i hi' => ?_
      rw [hn, jumpStat_eq arr (k := k) (by simp [hs])]
      have := ha i (by rw [← hn]; simpa using hi')
      simp [this]
    rw [this, hn]
    have hc : (List.range n).filter (fun i => decide (i = a)) = List.replicate ((List.range n).count a) a := by
      rw [← List.filter_beq]; rfl
    rw [hc, List.count_eq_one_of_mem List.nodup_range (by simpa using han)]; rfl
  have : removeOutliers v ts (secondDiff arr) th = .ok ⟨v.shape, fun idx =>
      interpFill ([a].map fun i => ts.getD i 0) ([a].map fun i => v.get (idx.set 0 i)) (ts.getD (idx.getD 0 0) 0)⟩ := by
    simp only [removeOutliers, hk]
    rw [if_neg (by simp)]
  refine ⟨_, by rw [v3, this]; rfl, v1, fun idx => ?_⟩
  have hx : ∀ (z t : ℝ), ∃ e, interpLoc [z] t = .error e := by
    intro z t
    simp only [interpLoc, List.length_singleton]
    rw [if_neg (by omega)]
    by_cases h : t < [z].getD 0 0 ∨ [z].getD (1 - 1) 0 < t
    · exact ⟨_, if_pos h⟩
    · rw [if_neg h, if_pos (by simp)]; exact ⟨_, rfl⟩
  obtain ⟨e, he⟩ := hx (ts.getD a 0) (ts.getD (idx.getD 0 0) 0)
  simp only [List.map_cons, List.map_nil, interpFill, he]

/-- Straight motion with equal steps has no bends: nothing is removed by any threshold that is not
negative. -/
theorem C39_uniform {c m : ℕ → ℝ} (h : ∀ i j, i < n → j < k → arr.get [i, j] = c j + i * m j) {th : ℝ} (hth : 0 ≤ th) :
    ∀ i, jump arr n k i ≤ th := by
  have hb : ∀ i, bend arr n k i = 0 := by
    intro i
    unfold bend
    split_ifs with hi
    · rw [Finset.sum_eq_zero, Real.sqrt_zero]
      intro j hj
      have hj : j < k := Finset.mem_range.mp hj
      obtain ⟨i', rfl⟩ : ∃ i', i = i' + 1 := ⟨i - 1, by omega⟩
      rw [h _ _ (by omega) hj, h _ _ (by omega) hj, h _ _ (by omega) hj]
      simp only [Nat.add_sub_cancel, Nat.cast_add, Nat.cast_one]
      ring
    · rfl
  intro i
  rw [jump, hb, hb]; simpa using hth

/-- A series with an outlier: positions 0, 0, 0, 0, 9 at times 0, 1, 2, 3, 4. -/
def exJump : ND ℝ := ⟨[5, 1], fun idx => if idx.getD 0 0 = 4 then 9 else 0⟩

theorem exJump_jump : jump exJump 5 1 0 = 0 ∧ jump exJump 5 1 1 = 0 ∧ jump exJump 5 1 2 = 9 ∧ jump exJump 5 1 3 = 9 ∧ jump exJump 5 1 4 = 0 := by
  have h9 : Real.sqrt ((9 : ℝ) ^ 2) = 9 := Real.sqrt_sq (by norm_num)
  simp [jump, bend, exJump, h9]

/-- The hypotheses of `C39_linear` hold for this series with threshold 1: samples 2 and 3 are replaced. The
sample that jumps is the last one, which is retained. -/
example (ext : Ext) (x : XrOps) : ∃ v w, estimateLinearVelocity ext x (.nd exJump) none none (.arr (ofList [0, 1, 2, 3, 4])) none none none = .ok (.nd v) ∧
      estimateLinearVelocity ext x (.nd exJump) none none (.arr (ofList [0, 1, 2, 3, 4])) none (some 1) none = .ok (.nd w) ∧
      Interpolated v w 5 1 [0, 1, 2, 3, 4] (fun i => jump exJump 5 1 i ≤ 1) ∧ ¬ jump exJump 5 1 2 ≤ 1 ∧ jump exJump 5 1 4 ≤ 1 := by
  obtain ⟨e0, e1, e2, e3, e4⟩ := exJump_jump
  obtain ⟨v, w, a, b, _, _, _, e⟩ := C39_linear (arr := exJump) (n := 5) (k := 1) (ts := [0, 1, 2, 3, 4]) ext x rfl rfl
    (by simp [StrictlyIncreasing]; norm_num) 1 (a := 0) (b := 1) (by omega) (by omega) (by rw [e0]; norm_num) (by rw [e1]; norm_num)
  exact ⟨v, w, a, b, e, by rw [e2]; norm_num, by rw [e4]; norm_num⟩

/-- Positions 0, 9, 0 at times 0, 1, 2: only the last sample is retained with threshold 1. -/
def exBump : ND ℝ := ⟨[3, 1], fun idx => if idx.getD 0 0 = 1 then 9 else 0⟩

theorem exBump_jump : 1 < jump exBump 3 1 0 ∧ 1 < jump exBump 3 1 1 ∧ jump exBump 3 1 2 = 0 := by
  have h9 : Real.sqrt ((9 : ℝ) ^ 2) = 9 := Real.sqrt_sq (by norm_num)
  simp [jump, bend, exBump, h9]
  norm_num

/-- Nothing removed with a large threshold, everything with a negative one, all but one with threshold 1
(`C39_nothing_removed`, `C39_none_retained`, `C39_single_retained`). -/
example (ext : Ext) (x : XrOps) :
    (∃ v w, estimateLinearVelocity ext x (.nd exJump) none none (.arr (ofList [0, 1, 2, 3, 4])) none none none = .ok (.nd v) ∧
      estimateLinearVelocity ext x (.nd exJump) none none (.arr (ofList [0, 1, 2, 3, 4])) none (some 9) none = .ok (.nd w) ∧
      ∀ i, i < 5 → w.get [i, 0] = v.get [i, 0]) ∧
    estimateLinearVelocity ext x (.nd exJump) none none (.arr (ofList [0, 1, 2, 3, 4])) none (some (-1)) none = .error .valueError ∧
    ∃ w, estimateLinearVelocity ext x (.nd exBump) none none (.arr (ofList [0, 1, 2])) none (some 1) none = .ok (.nd w) ∧ w.get [0, 0] = none := by
  obtain ⟨e0, e1, e2, e3, e4⟩ := exJump_jump
  obtain ⟨f0, f1, f2⟩ := exBump_jump
  have hs : StrictlyIncreasing [0, 1, 2, 3, 4] := by simp [StrictlyIncreasing]; norm_num
  refine ⟨?_, ?_, ?_⟩
  · obtain ⟨v, w, a, b, _, c⟩ := C39_nothing_removed (arr := exJump) (n := 5) (k := 1) (ts := [0, 1, 2, 3, 4]) ext x rfl rfl (by omega) hs (th := 9) (by
      intro i hi
      interval_cases i
      · rw [e0]; norm_num
      · rw [e1]; norm_num
      · rw [e2]
      · rw [e3]
      · rw [e4]; norm_num)
    exact ⟨v, w, a, b, fun i hi => c i 0 hi (by omega)⟩
  · exact C39_none_retained (arr := exJump) (n := 5) (k := 1) (ts := [0, 1, 2, 3, 4]) ext x rfl rfl (by omega) hs
      fun i _ => (C39_last_retained exJump 5 1).2 (by norm_num) i
  · obtain ⟨w, a, _, b⟩ := C39_single_retained (arr := exBump) (n := 3) (k := 1) (ts := [0, 1, 2]) ext x rfl rfl (by omega) (by simp [StrictlyIncreasing]) (th := 1) (a := 2) (by omega) (by
      intro i hi
      interval_cases i
      · simp [f0]
      · simp [f1]
      · simp [f2])
    exact ⟨w, a, b _⟩

end RBM.Props
