import Verif.Props.GapsLinear

/-!
C79: outlier removal when samples are missing.
-/

namespace RBM.Props

open RBM.Spec

variable {arr : ND (Option ℝ)} {n k : ℕ} {ts : List ℝ}

/-- The statistic is known exactly if all rows that enter it are complete, and is that of any completed array. -/
theorem jumpStatGaps_known (hs : arr.shape = [n, k]) (i : ℕ) (th : ℝ) {arr' : ND ℝ} (hc : Completes arr' arr) :
    LeNan (jumpStatGaps (secondDiffGaps arr) n i) th ↔ JumpKnown arr n k i ∧ jump arr' n k i ≤ th := by
  classical
  have hk : arr.shape.getD 1 0 = k := by simp [hs]
  have hd : ∀ m, m + 2 < n → ((secondDiffGaps arr m = none ∧ ¬ ∀ q, m ≤ q → q ≤ m + 2 → RowPresent arr k q) ∨
      (secondDiffGaps arr m = some (secondDiff arr' m) ∧ ∀ q, m ≤ q → q ≤ m + 2 → RowPresent arr k q)) := by
    intro m hm
    by_cases h : ∃ j q, j < arr.shape.getD 1 0 ∧ m ≤ q ∧ q ≤ m + 2 ∧ arr.get [q, j] = none
    · left
      refine ⟨by rw [secondDiffGaps, if_pos h], fun hall => ?_⟩
      obtain ⟨j, q, h1, h2, h3, h4⟩ := h
      exact hall q h2 h3 j (by rw [← hk]; exact h1) h4
    · right
      refine ⟨?_, fun q h1 h2 j hj e => h ⟨j, q, by rw [hk]; exact hj, h1, h2, e⟩⟩
      rw [secondDiffGaps, if_neg h]
      congr 1
      rw [secondDiff, secondDiff]
      have hs' : arr.fill.shape = arr.shape := rfl
      rw [hs', hc.1]
      congr 2
      refine List.map_congr_left fun j hj => ?_
      have hj' : j < k := by rw [← hk]; simpa using hj
      have hf : ∀ q, m ≤ q → q ≤ m + 2 → arr.fill.get [q, j] = arr'.get [q, j] := by
        intro q h1 h2
        have : arr.get [q, j] ≠ none := fun e => h ⟨j, q, by rw [hk]; exact hj', h1, h2, e⟩
        obtain ⟨y, hy⟩ := Option.ne_none_iff_exists'.mp this
        show (arr.get [q, j]).getD 0 = _
        rw [hc.2 [q, j] y (by rw [hs]; exact ⟨by omega, hj', trivial⟩) hy, hy]; rfl
      rw [hf _ (by omega) (by omega), hf _ (by omega) (by omega), hf _ (by omega) (by omega)]
  have hj := jumpStat_eq arr' (n := n) (k := k) (by rw [hc.1, hk]) i
  constructor
  · rintro ⟨y, hy, hle⟩
    have key : (∀ m, i + 2 < n → i ≤ m → m ≤ i + 2 → RowPresent arr k m) ∧ (∀ m, 1 ≤ i → i + 1 < n → i ≤ m + 1 → m ≤ i + 1 → RowPresent arr k m) ∧
        y = jumpStat (secondDiff arr') n i := by
      rw [jumpStatGaps] at hy
      rw [jumpStat]
      by_cases h1 : i + 2 < n <;> by_cases h2 : 1 ≤ i ∧ i + 1 < n
      · rw [if_pos h1, if_pos h2] at hy ⊢
        rcases hd i h1 with ⟨e, _⟩ | ⟨e, r1⟩
        · rw [e] at hy; cases hy
        rcases hd (i - 1) (by omega) with ⟨e', _⟩ | ⟨e', r2⟩
        · rw [e, e'] at hy; cases hy
        rw [e, e'] at hy
        exact ⟨fun m _ a b => r1 m a b, fun m _ _ a b => r2 m (by omega) (by omega), (Option.some.inj hy).symm⟩
      · rw [if_pos h1, if_neg h2] at hy ⊢
        rcases hd i h1 with ⟨e, _⟩ | ⟨e, r1⟩
        · rw [e] at hy; cases hy
        rw [e] at hy
        exact ⟨fun m _ a b => r1 m a b, fun m a b _ _ => absurd ⟨a, b⟩ h2, (Option.some.inj hy).symm⟩
      · rw [if_neg h1, if_pos h2] at hy ⊢
        rcases hd (i - 1) (by omega) with ⟨e', _⟩ | ⟨e', r2⟩
        · rw [e'] at hy; cases hy
        rw [e'] at hy
        exact ⟨fun m a _ _ => absurd a h1, fun m _ _ a b => r2 m (by omega) (by omega), (Option.some.inj hy).symm⟩
      · rw [if_neg h1, if_neg h2] at hy ⊢
        exact ⟨fun m a _ _ => absurd a h1, fun m a b _ _ => absurd ⟨a, b⟩ h2, (Option.some.inj hy).symm⟩
    obtain ⟨r1, r2, e⟩ := key
    refine ⟨?_, by rw [← hj, ← e]; exact hle⟩
    rintro m (⟨a, b, c, d⟩ | ⟨a, b, c⟩)
    · exact r2 m a b c d
    · exact r1 m a b c
  · rintro ⟨hkn, hle⟩
    refine ⟨jumpStat (secondDiff arr') n i, ?_, by rw [hj]; exact hle⟩
    rw [jumpStatGaps, jumpStat]
    have e1 : (if i + 2 < n then secondDiffGaps arr i else some 0) = some (if i + 2 < n then secondDiff arr' i else 0) := by
      split_ifs with h1
      · rcases hd i h1 with ⟨_, r⟩ | ⟨e, _⟩
        · exact absurd (fun q a b => hkn q (.inr ⟨h1, a, b⟩)) r
        · exact e
      · rfl
    have e2 : (if 1 ≤ i ∧ i + 1 < n then secondDiffGaps arr (i - 1) else some 0) = some (if 1 ≤ i ∧ i + 1 < n then secondDiff arr' (i - 1) else 0) := by
      split_ifs with h1
      · rcases hd (i - 1) (by omega) with ⟨_, r⟩ | ⟨e, _⟩
        · exact absurd (fun q a b => hkn q (.inl ⟨h1.1, h1.2, by omega, by omega⟩)) r
        · exact e
      · rfl
    rw [e1, e2]; rfl

/-- Interpolation between retained rows that are all complete. -/
theorem removeOutliersGaps_spec {v : ND (Option ℝ)} (hv : v.shape = [n, k]) (hn : ts.length = n) (hs : StrictlyIncreasing ts) {d : ℕ → Option ℝ} {th : ℝ}
    {K : ℕ → Prop} (hK : ∀ i, i < n → (LeNan (jumpStatGaps d n i) th ↔ K i)) (hfin : ∀ i, i < n → K i → RowPresent v k i)
    {a b : ℕ} (hab : a < b) (hb : b < n) (ha' : K a) (hb' : K b) :
    ∃ w, removeOutliersGaps v ts d th = .ok w ∧ w.shape = v.shape ∧ Interpolated v w n k ts K := by
  classical
  have hkeep : ((List.range ts.length).filter fun i => decide (LeNan (jumpStatGaps d ts.length i) th)) = (List.range n).filter fun i => decide (K i) := by
    rw [hn]
    refine List.filter_congr fun i hi => ?_
    simp only [hK i (by simpa using hi)]
  obtain ⟨u, hne, u1, u2, u3, u4, u5⟩ := keepRows_spec (v := v.fill) (n := n) (k := k) hv hn hs K hab hb ha' hb'
  have hlt : ∀ i ∈ (List.range n).filter (fun i => decide (K i)), i < n ∧ K i := by
    intro i hi; simpa using hi
  refine ⟨⟨v.shape, fun idx => interpFillGaps (((List.range n).filter fun i => decide (K i)).map fun i => ts.getD i 0)
    (((List.range n).filter fun i => decide (K i)).map fun i => v.get (idx.set 0 i)) (ts.getD (idx.getD 0 0) 0)⟩, ?_, rfl, ?_⟩
  · simp only [removeOutliersGaps, hkeep]
    exact if_neg hne
  · have hw : ∀ i j, j < k → interpFillGaps (((List.range n).filter fun i => decide (K i)).map fun i => ts.getD i 0)
        (((List.range n).filter fun i => decide (K i)).map fun m => v.get [m, j]) (ts.getD i 0) = u.get [i, j] := by
      intro i j hj
      rw [← u1, interpFillGaps_present (by simp)]
      · rw [List.map_map]; rfl
      · intro hmem
        obtain ⟨m, hm, e⟩ := List.mem_map.mp hmem
        exact hfin m (hlt m hm).1 (hlt m hm).2 j hj e
    have hx : ∀ i j y, i < n → j < k → v.get [i, j] = some y → v.fill.get [i, j] = y := by
      intro i j y _ _ e
      show (v.get [i, j]).getD 0 = y
      rw [e]; rfl
    refine ⟨?_, ?_, ?_⟩
    · intro i j hi hj hr
      obtain ⟨y, hy⟩ := Option.ne_none_iff_exists'.mp (hfin i hi hr j hj)
      have := u3 i j hi hr
      rw [hx i j y hi hj hy] at this
      rw [hy, ← this]
      exact hw i j hj
    · intro i j a b x y hai hib hbn hjk hra hrb hno hxa hyb
      have l1 := strictlyIncreasing_getD hs (show a < i by omega) (by omega)
      have l2 := strictlyIncreasing_getD hs (show i < b by omega) (by omega)
      refine ⟨(ts.getD i 0 - ts.getD a 0) / (ts.getD b 0 - ts.getD a 0), ?_, ?_, ?_, ?_⟩
      · exact div_nonneg (by linarith) (by linarith)
      · rw [div_le_one (by linarith)]; linarith
      · have : ts.getD b 0 - ts.getD a 0 ≠ 0 := by linarith
        generalize ts.getD b 0 = B at *
        generalize ts.getD a 0 = A at *
        generalize ts.getD i 0 = I at *
        field_simp
        ring
      · have := u4 i j a b hai hib hbn hra hrb hno
        rw [hx a j x (by omega) hjk hxa, hx b j y hbn hjk hyb] at this
        rw [← this]
        exact hw i j hjk
    · intro i j hi hj h
      have := u5 i j hi h
      rw [← this]
      exact hw i j hj

/-- A row whose velocity is known for all columns. -/
theorem linear_outlier_facts (ext : Ext) (hs : arr.shape = [n, k]) (hn : ts.length = n) (h2 : 2 ≤ n) (hi : StrictlyIncreasing ts) :
    let v : ND (Option ℝ) := ⟨arr.shape, fun idx => gradAtGaps ts (arr.lane 0 idx) (idx.getD 0 0)⟩
    estimateLinearVelocityGaps ext arr none none (.arr (ofList ts)) none none none = .ok v ∧
      (∀ th, estimateLinearVelocityGaps ext arr none none (.arr (ofList ts)) none (some th) none = removeOutliersGaps v ts (secondDiffGaps arr) th) ∧
      ∀ i < n, (∀ m, m < n → i ≤ m + 1 → m ≤ i + 1 → RowPresent arr k m) → RowPresent v k i := by
  intro v
  obtain ⟨a1, a0⟩ := axes2 (arr := arr.fill) (n := n) (k := k) hs
  have a1' : AxisIs (orDefault none (-1)) arr.ndim 1 := a1
  have a0' : AxisIs (orDefault none 0) arr.ndim 0 := a0
  have hn0 : arr.shape.getD 0 0 = ts.length := by simp [hs, hn]
  have hg := npGradientGaps_timed (arr := arr) (ts := ts) a0' hn0 (by omega) hi
  refine ⟨?_, fun th => ?_, ?_⟩
  · rw [estimateLinearGaps_plain ext arr ts a1' a0' (by omega), estimateLinearGaps, hg]
    simp only [bind, Except.bind, axisIs_norm a0', maybeOutliersGaps, maybeFilter]
    rfl
  · rw [estimateLinearGaps_plain ext arr ts a1' a0' (by omega), estimateLinearGaps, hg]
    simp only [bind, Except.bind, axisIs_norm a0', maybeOutliersGaps]
    have hnd : v.ndim = 2 := by simp [v, ND.ndim, hs]
    rw [if_neg (by rw [show (ND.mk arr.shape fun idx => gradAtGaps ts (arr.lane 0 idx) (idx.getD 0 0)) = v from rfl, hnd]; simp), if_neg (by simp)]
    cases removeOutliersGaps v ts (secondDiffGaps arr) th <;> rfl
  · intro i hi' hrow j hj e
    have hii : ([i, j] : List ℕ).getD 0 0 = i := rfl
    have := (gradAtGaps_lost (xs := ts) (ys := arr.lane 0 [i, j]) (i := i) (by omega) (by omega)).1.mp e
    have hl : ∀ m, m < n → (arr.lane 0 [i, j]).getD m none = arr.get [m, j] := by
      intro m hm
      rw [lane_get _ _ _ (by rw [hn0]; omega)]; rfl
    rcases this with ⟨m, hm, hmi, em⟩ | ⟨em, _⟩
    · rw [hl m (by omega)] at em
      exact hrow m (by omega) (by omega) (by omega) j hj em
    · rw [hl i hi'] at em
      exact hrow i hi' (by omega) (by omega) j hj em

/-- `outlier_thresh` with missing samples: rows whose statistic involves a missing entry are judged outliers. If the last two
positions are complete, the result is the estimate without `outlier_thresh` at the retained rows, interpolated between them, and NaN
before the first and after the last; in particular gaps between retained rows are filled. -/
theorem C79_linear (ext : Ext) (hs : arr.shape = [n, k]) (hn : ts.length = n) (hi : StrictlyIncreasing ts) (th : ℝ) {arr' : ND ℝ} (hc : Completes arr' arr)
    (hl1 : RowPresent arr k (n - 1)) (hl2 : RowPresent arr k (n - 2)) {a b : ℕ} (hab : a < b) (hb : b < n)
    (ha' : JumpKnown arr n k a ∧ jump arr' n k a ≤ th) (hb' : JumpKnown arr n k b ∧ jump arr' n k b ≤ th) :
    ∃ v w, estimateLinearVelocityGaps ext arr none none (.arr (ofList ts)) none none none = .ok v ∧
      estimateLinearVelocityGaps ext arr none none (.arr (ofList ts)) none (some th) none = .ok w ∧
      v.shape = [n, k] ∧ w.shape = [n, k] ∧ Interpolated v w n k ts (fun i => JumpKnown arr n k i ∧ jump arr' n k i ≤ th) ∧
      ∀ i < n, JumpKnown arr n k i ∧ jump arr' n k i ≤ th → RowPresent v k i := by
  obtain ⟨f1, f2, f3⟩ := linear_outlier_facts ext hs hn (by omega) hi
  have hfin : ∀ i < n, JumpKnown arr n k i ∧ jump arr' n k i ≤ th → RowPresent ⟨arr.shape, fun idx => gradAtGaps ts (arr.lane 0 idx) (idx.getD 0 0)⟩ k i := by
    intro i hi' hr
    refine f3 i hi' fun m hm h1 h2 => ?_
    by_cases hin : 1 ≤ i ∧ i + 1 < n
    · exact hr.1 m (.inl ⟨hin.1, hin.2, h1, h2⟩)
    · by_cases h0 : i + 2 < n
      · exact hr.1 m (.inr ⟨h0, by omega, by omega⟩)
      · have : m = n - 1 ∨ m = n - 2 := by omega
        rcases this with rfl | rfl
        · exact hl1
        · exact hl2
  obtain ⟨w, w1, w2, w3⟩ := removeOutliersGaps_spec (v := ⟨arr.shape, fun idx => gradAtGaps ts (arr.lane 0 idx) (idx.getD 0 0)⟩) (k := k) hs hn hi
    (d := secondDiffGaps arr) (th := th) (fun i _ => jumpStatGaps_known hs i th hc) hfin hab hb ha' hb'
  exact ⟨_, w, f1, by rw [f2, w1], hs, by rw [w2]; exact hs, w3, hfin⟩

/-- The last row is retained even if it is missing. Then all velocities after the last other retained row are NaN, although
samples between may be complete. -/
theorem C79_last_missing (ext : Ext) (hs : arr.shape = [n, k]) (hn : ts.length = n) (hi : StrictlyIncreasing ts) {th : ℝ} (hth : 0 ≤ th) {arr' : ND ℝ}
    (hc : Completes arr' arr) {j : ℕ} (hmiss : arr.get [n - 1, j] = none) {a : ℕ} (han : a + 1 < n)
    (ha : JumpKnown arr n k a ∧ jump arr' n k a ≤ th) (hno : ∀ m, a < m → m + 1 < n → ¬ (JumpKnown arr n k m ∧ jump arr' n k m ≤ th)) :
    ∃ w, estimateLinearVelocityGaps ext arr none none (.arr (ofList ts)) none (some th) none = .ok w ∧ w.shape = [n, k] ∧
      ∀ i, a < i → i < n → w.get [i, j] = none := by
  classical
  obtain ⟨f1, f2, f3⟩ := linear_outlier_facts ext hs hn (by omega) hi
  set v : ND (Option ℝ) := ⟨arr.shape, fun idx => gradAtGaps ts (arr.lane 0 idx) (idx.getD 0 0)⟩ with hv
  have hlast : JumpKnown arr n k (n - 1) ∧ jump arr' n k (n - 1) ≤ th :=
    ⟨by rintro m (⟨_, h, _⟩ | ⟨h, _⟩) <;> omega, (C39_last_retained arr' n k).1 hth⟩
  let K : ℕ → Prop := fun i => JumpKnown arr n k i ∧ jump arr' n k i ≤ th
  have hkeep : ((List.range ts.length).filter fun i => decide (LeNan (jumpStatGaps (secondDiffGaps arr) ts.length i) th)) = (List.range n).filter fun i => decide (K i) := by
    rw [hn]
    refine List.filter_congr fun i _ => ?_
    simp only [K, jumpStatGaps_known hs i th hc]
  obtain ⟨k1, k2, k3, k4⟩ := keep_facts (K := K) hn hi
  generalize hG : (List.range n).filter (fun i => decide (K i)) = keep at *
  obtain ⟨qa, hqa⟩ := k2 a (by omega) ha
  obtain ⟨qb, hqb⟩ := k2 (n - 1) (by omega) hlast
  have hqq := (k3 qa qb a (n - 1) hqa hqb).mpr (by omega)
  have hqbl := (List.getElem?_eq_some_iff.mp hqb).1
  have hlen : qb = keep.length - 1 := by
    by_contra hcon
    have hm : keep[keep.length - 1]? = some keep[keep.length - 1] := List.getElem?_eq_getElem (by omega)
    have h1 := (k3 qb _ _ _ hqb hm).mp (by omega)
    have h2 := (k1 _ _ hm).1
    omega
  have hadj : qb = qa + 1 := by
    by_contra hcon
    have hm : keep[qa + 1]? = some keep[qa + 1] := List.getElem?_eq_getElem (by omega)
    have h1 := (k3 qa _ _ _ hqa hm).mp (by omega)
    have h2 := (k3 _ qb _ _ hm hqb).mp (by omega)
    exact hno _ h1 (by omega) (k1 _ _ hm).2
  have hne : keep ≠ [] := by intro h; rw [h] at hqbl; simp at hqbl
  have hvlast : v.get [n - 1, j] = none := by
    refine (gradAtGaps_lost (xs := ts) (ys := arr.lane 0 [n - 1, j]) (i := n - 1) (by omega) (by omega)).1.mpr (.inr ⟨?_, .inr (.inl (by omega))⟩)
    have hn0 : arr.shape.getD 0 0 = ts.length := by simp [hs, hn]
    show (arr.lane 0 [n - 1, j]).getD (n - 1) none = none
    rw [lane_get _ _ _ (by rw [hn0]; omega)]; exact hmiss
  refine ⟨⟨v.shape, fun idx => interpFillGaps (keep.map fun i => ts.getD i 0) (keep.map fun i => v.get (idx.set 0 i)) (ts.getD (idx.getD 0 0) 0)⟩, ?_, hs, ?_⟩
  · rw [f2]
    simp only [removeOutliersGaps, hkeep]
    exact if_neg hne
  · intro i hai hin
    show interpFillGaps (keep.map fun i => ts.getD i 0) (keep.map fun m => v.get [m, j]) (ts.getD i 0) = none
    have hxl : (keep.map fun i => ts.getD i 0).length = keep.length := by simp
    have hx : ∀ q m : ℕ, keep[q]? = some m → (keep.map fun i => ts.getD i 0).getD q 0 = ts.getD m 0 := by
      intro q m h
      rw [List.getD_eq_getElem?_getD, List.getElem?_map, h]; rfl
    have hxa := hx qa a hqa
    have hxb := hx qb _ hqb
    have lo0 : (keep.map fun i => ts.getD i 0).getD 0 0 ≤ ts.getD i 0 := by
      have h0 : keep[0]? = some keep[0] := List.getElem?_eq_getElem (by omega)
      rw [hx 0 _ h0]
      have : keep[0] ≤ a := by
        by_contra hcon
        have := (k3 qa 0 a _ hqa h0).mpr (by omega)
        omega
      exact nonDecreasing_getD hi.nonDecreasing (by omega) (by omega)
    have hi1 : ts.getD i 0 ≤ (keep.map fun i => ts.getD i 0).getD ((keep.map fun i => ts.getD i 0).length - 1) 0 := by
      rw [hxl, ← hlen, hxb]
      exact nonDecreasing_getD hi.nonDecreasing (by omega) (by omega)
    obtain ⟨lo, e, h1, h2, h3, h4⟩ := interpLoc_spec k4 (by rw [hxl]; omega) lo0 hi1
    rw [interpFillGaps, e]
    have hlo : lo + 1 = qb := by
      by_contra hcon
      rw [hxl] at h1
      have hle : lo + 1 ≤ qa := by omega
      have := nonDecreasing_getD k4.nonDecreasing hle (by rw [hxl]; omega)
      rw [hxa] at this
      have := strictlyIncreasing_getD hi hai (by omega)
      linarith
    simp only
    refine if_pos (.inr ?_)
    rw [hlo, List.getD_eq_getElem?_getD, List.getElem?_map, hqb]
    exact hvlast

open Classical in
/-- The rotation vectors of an array of quaternions with missing entries. -/
theorem rotVecsGaps_get (arr : ND (Option ℝ)) (i j : ℕ) : (rotVecsGaps arr).get [i, j] =
    if RowPresent arr 4 i then some (rotVec (quat4 arr.fill 1 [i, 0]) (Fin.ofNat 3 j)) else none := by
  have e : (∃ c ∈ [0, 1, 2, 3], arr.get (([i, j] : List ℕ).dropLast ++ [c]) = none) ↔ ¬ RowPresent arr 4 i := by
    constructor
    · rintro ⟨c, hc, e⟩ h
      exact h c (by simp at hc; omega) e
    · intro h
      simp only [RowPresent, not_forall] at h
      obtain ⟨c, hc, e⟩ := h
      exact ⟨c, by simp; omega, not_not.mp e⟩
  show (if _ then none else some _) = _
  by_cases h : RowPresent arr 4 i
  · rw [if_neg (by rw [e]; exact not_not.mpr h), if_pos h]; rfl
  · rw [if_pos (e.mpr h), if_neg h]

theorem swapaxes_self {α} (a : ND α) (p : ℕ) : a.swapaxes p p = a := by
  have h : ∀ l : List ℕ, swapL p p l = l := fun l => by
    rw [swapL, set_getD_self]
    exact set_getD_self
  simp only [ND.swapaxes, h]

/-- The estimate with and without `outlier_thresh` for an `(n, 4)` array. -/
theorem angular_outlier_facts (ext : Ext) (hs : arr.shape = [n, 4]) (hn : ts.length = n) (mode : String) {v : ND (Option ℝ)}
    (h : rawAngularGaps ext arr ts 0 mode = .ok v) (hv : v.shape = [n, 3]) :
    estimateAngularVelocityGaps ext arr none none (.arr (ofList ts)) none mode none none = .ok v ∧
      ∀ th, estimateAngularVelocityGaps ext arr none none (.arr (ofList ts)) none mode (some th) none =
        removeOutliersGaps v ts (secondDiffGaps (rotVecsGaps arr)) th := by
  obtain ⟨a1, a0⟩ := axes2 (arr := arr.fill) (n := n) (k := 4) hs
  have a1' : AxisIs (orDefault none (-1)) arr.ndim 1 := a1
  have a0' : AxisIs (orDefault none 0) arr.ndim 0 := a0
  have hnd : arr.ndim = 2 := by simp [ND.ndim, hs]
  have hvn : v.ndim = 2 := by simp [ND.ndim, hv]
  have hax : angularAxes arr.ndim (orDefault none (-1)) (orDefault none 0) = (1, 0) := by
    rw [angularAxes_eq a1' a0', if_neg (by omega)]
  have hsw : arr.swapaxes 1 (arr.ndim - 1) = arr := by rw [hnd]; exact swapaxes_self arr 1
  have hsv : v.swapaxes 1 (v.ndim - 1) = v := by rw [hvn]; exact swapaxes_self v 1
  refine ⟨?_, fun th => ?_⟩
  · rw [estimateAngularGaps_plain ext arr ts a1' a0' (by omega), estimateAngularGaps, if_neg (by omega), hax]
    simp only [hsw, h, bind, Except.bind, maybeOutliersGaps, maybeFilter]
    show Except.ok (v.swapaxes 1 (v.ndim - 1)) = _
    rw [hsv]
  · rw [estimateAngularGaps_plain ext arr ts a1' a0' (by omega), estimateAngularGaps, if_neg (by omega), hax]
    simp only [hsw, h, bind, Except.bind, maybeOutliersGaps]
    rw [if_neg (by rw [hvn]; simp), if_neg (by simp)]
    cases hr : removeOutliersGaps v ts (secondDiffGaps (rotVecsGaps arr)) th with
    | error e => rfl
    | ok w =>
      have hw : w.ndim = 2 := by
        simp only [removeOutliersGaps] at hr
        split_ifs at hr
        cases hr
        simp [ND.ndim, hv]
      simp only [maybeFilter]
      show Except.ok (w.swapaxes 1 (w.ndim - 1)) = _
      rw [hw, swapaxes_self]

/-- Angular velocities of an `(n, 4)` array in either mode: the statistic is that of the rotation vectors, rows whose statistic
involves an incomplete quaternion are judged outliers; the rest is as for positions. -/
theorem C79_angular (ext : Ext) (hs : arr.shape = [n, 4]) (hn : ts.length = n) (hi : StrictlyIncreasing ts) (th : ℝ) {rv : ND ℝ}
    (hrs : rv.shape = [n, 3]) (hrv : ∀ i < n, RowPresent arr 4 i → ∀ q : Quat, arr.get [i, 0] = some q.re → arr.get [i, 1] = some q.imI →
      arr.get [i, 2] = some q.imJ → arr.get [i, 3] = some q.imK → ∀ j : Fin 3, rv.get [i, (j : ℕ)] = rotVec q j)
    {mode : String} (hm : (mode = "quaternion" ∧ 3 ≤ n ∧ ∀ ks, Present arr 0 ks → ext.derivErr (ks.map fun i => ts.getD i 0) = none) ∨
      (mode = "rotation_vector" ∧ RowPresent arr 4 (n - 2)))
    (hl1 : RowPresent arr 4 (n - 1)) {a b : ℕ} (hab : a < b) (hb : b < n)
    (ha' : JumpKnown arr n 4 a ∧ jump rv n 3 a ≤ th) (hb' : JumpKnown arr n 4 b ∧ jump rv n 3 b ≤ th) :
    ∃ v w, estimateAngularVelocityGaps ext arr none none (.arr (ofList ts)) none mode none none = .ok v ∧
      estimateAngularVelocityGaps ext arr none none (.arr (ofList ts)) none mode (some th) none = .ok w ∧
      v.shape = [n, 3] ∧ w.shape = [n, 3] ∧ Interpolated v w n 3 ts (fun i => JumpKnown arr n 4 i ∧ jump rv n 3 i ≤ th) ∧
      ∀ i < n, JumpKnown arr n 4 i ∧ jump rv n 3 i ≤ th → RowPresent v 3 i := by
  have hR : (rotVecsGaps arr).shape = [n, 3] := by simp [rotVecsGaps, hs]
  have hrow : ∀ i, RowPresent (rotVecsGaps arr) 3 i ↔ RowPresent arr 4 i := by
    intro i
    constructor
    · intro h
      by_contra hc
      exact h 0 (by omega) (by rw [rotVecsGaps_get, if_neg hc])
    · intro h j _
      rw [rotVecsGaps_get, if_pos h]; simp
  have hjk : ∀ i, JumpKnown (rotVecsGaps arr) n 3 i ↔ JumpKnown arr n 4 i := fun i => forall_congr' fun m => imp_congr_right fun _ => hrow m
  have hcomp : Completes rv (rotVecsGaps arr) := by
    refine ⟨by rw [hrs, hR], fun idx y hv hy => ?_⟩
    rw [hR] at hv
    match idx, hv with
    | [i, j], hv =>
      have hj : j < 3 := hv.2.1
      rw [rotVecsGaps_get] at hy
      by_cases h : RowPresent arr 4 i
      · rw [if_pos h] at hy
        have hg : ∀ c, c < 4 → arr.get [i, c] = some (arr.fill.get [i, c]) := by
          intro c hc
          obtain ⟨z, hz⟩ := Option.ne_none_iff_exists'.mp (h c hc)
          show _ = some ((arr.get [i, c]).getD 0)
          rw [hz]; rfl
        have e := hrv i hv.1 h (quat4 arr.fill 1 [i, 0]) (hg 0 (by omega)) (hg 1 (by omega)) (hg 2 (by omega)) (hg 3 (by omega)) ⟨j, hj⟩
        have hfj : (Fin.ofNat 3 j : Fin 3) = ⟨j, hj⟩ := Fin.ext (by simp [Fin.ofNat, Nat.mod_eq_of_lt hj])
        rw [hfj] at hy
        exact e.trans (Option.some.inj hy)
      · rw [if_neg h] at hy; cases hy
  have key : ∃ v, rawAngularGaps ext arr ts 0 mode = .ok v ∧ v.shape = [n, 3] ∧
      ∀ i < n, JumpKnown arr n 4 i → RowPresent v 3 i := by
    rcases hm with ⟨rfl, h3, hacc⟩ | ⟨rfl, hl2⟩
    · have hpr := present_validRows arr 0
      have := rawGaps_quat ext (arr := arr) (pa := 1) (p := 0) (ts := ts) hpr (hacc _ hpr) (by simp [ND.ndim, hs]) (by simp [ND.ndim, hs]) (by omega)
        (by simp [hs]) (by simp [hs, hn])
      have hnd : arr.ndim = 2 := by simp [ND.ndim, hs]
      rw [hnd, swapaxes_self] at this
      obtain ⟨v, v1, v2, v3, v4⟩ := this
      refine ⟨v, v1, by rw [v2]; simp [hs, swapL], fun i hi' hk j hj e => ?_⟩
      have hpres : RowPresent arr 4 i := by
        by_cases h1 : i + 2 < n
        · exact hk i (.inr ⟨h1, by omega, by omega⟩)
        · by_cases h2 : i + 1 < n
          · exact hk i (.inl ⟨by omega, h2, by omega, by omega⟩)
          · rw [show i = n - 1 by omega]; exact hl1
      have hmem : i ∈ validRows arr 0 := by
        rw [hpr.mem]
        refine ⟨by simpa [hs] using hi', fun idx hv hidx => ?_⟩
        rw [hs] at hv
        match idx, hv with
        | [i', c], hv =>
          have : i' = i := hidx
          rw [this]
          exact hpres c hv.2.1
      obtain ⟨q, hq, eq⟩ := List.mem_iff_getElem.mp hmem
      have := v4 [i, j] (by simp) q i (by rw [List.getElem?_eq_getElem hq, eq]) j
      have e2 : swapL 1 (2 - 1) ((([i, j] : List ℕ).set 0 i).set 1 j) = [i, j] := by simp [swapL]
      rw [e2, e] at this
      cases this
    · have hg := npGradientGaps_timed (arr := rotVecsGaps arr) (ts := ts) (ax := (0 : ℕ)) (p := 0)
        ⟨by rw [ND.ndim, hR]; simp, .inl rfl⟩ (by rw [hR, hn]; rfl) (by omega) hi
      refine ⟨⟨(rotVecsGaps arr).shape, fun idx => gradAtGaps ts ((rotVecsGaps arr).lane 0 idx) (idx.getD 0 0)⟩, ?_, ?_, ?_⟩
      · rw [rawAngularGaps, if_neg (by decide), if_pos rfl, if_neg (by rw [hs]; simp)]
        exact hg
      · exact hR
      · intro i hi' hk j hj e
        have := (gradAtGaps_lost (xs := ts) (ys := (rotVecsGaps arr).lane 0 [i, j]) (i := i) (by omega) (by omega)).1.mp e
        have hl : ∀ m, m < n → ((rotVecsGaps arr).lane 0 [i, j]).getD m none = (rotVecsGaps arr).get [m, j] := by
          intro m hm
          rw [lane_get _ _ _ (by rw [hR]; exact hm)]; rfl
        have hall : ∀ m, m < n → i ≤ m + 1 → m ≤ i + 1 → RowPresent arr 4 m := by
          intro m hm h1 h2
          by_cases hin : 1 ≤ i ∧ i + 1 < n
          · exact hk m (.inl ⟨hin.1, hin.2, h1, h2⟩)
          · by_cases h0 : i + 2 < n
            · exact hk m (.inr ⟨h0, by omega, by omega⟩)
            · have : m = n - 1 ∨ m = n - 2 := by omega
              rcases this with rfl | rfl
              · exact hl1
              · exact hl2
        rcases this with ⟨m, hm, hmi, em⟩ | ⟨em, _⟩
        · rw [hl m (by omega)] at em
          exact (hrow m).mpr (hall m (by omega) (by omega) (by omega)) j hj em
        · rw [hl i hi'] at em
          exact (hrow i).mpr (hall i hi' (by omega) (by omega)) j hj em
  obtain ⟨v, v1, v2, v3⟩ := key
  obtain ⟨f1, f2⟩ := angular_outlier_facts ext hs hn mode v1 v2
  obtain ⟨w, w1, w2, w3⟩ := removeOutliersGaps_spec (v := v) (k := 3) v2 hn hi (d := secondDiffGaps (rotVecsGaps arr)) (th := th)
    (K := fun i => JumpKnown arr n 4 i ∧ jump rv n 3 i ≤ th) (fun i _ => by rw [jumpStatGaps_known hR i th hcomp, hjk]) (fun i hi' hr => v3 i hi' hr.1) hab hb ha' hb'
  exact ⟨v, w, f1, by rw [f2, w1], v2, by rw [w2]; exact v2, w3, fun i hi' hr => v3 i hi' hr.1⟩

end RBM.Props
