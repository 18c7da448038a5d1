import Verif.Spec.Velocity
import Verif.Lemmas.TransformCore
import Mathlib.Tactic.FieldSimp

namespace RBM

open Spec

theorem lane_length {α} (a : ND α) (p : ℕ) (idx : List ℕ) : (a.lane p idx).length = a.shape.getD p 0 := by
  simp [ND.lane]

theorem lane_getD (a : ND ℝ) (p : ℕ) (idx : List ℕ) {k : ℕ} (hk : k < a.shape.getD p 0) :
    (a.lane p idx).getD k 0 = a.get (idx.set p k) := by
  rw [List.getD_eq_getElem?_getD, ND.lane, List.getElem?_map, List.getElem?_range hk]; rfl

theorem grad_not_degenerate {ts : List ℝ} (h : StrictlyIncreasing ts) : ¬ gradDegenerate ts := by
  rintro (⟨k, hk, e⟩ | ⟨k, hk, e⟩)
  · have := strictlyIncreasing_getD h (i := k) (j := k + 1) (by omega) hk; linarith
  · have := strictlyIncreasing_getD h (i := k) (j := k + 2) (by omega) hk; linarith

/-- `np.gradient` on a quadratic signal. -/
theorem gradAt_quadratic {ts ys : List ℝ} (h : StrictlyIncreasing ts) (h2 : 2 ≤ ts.length) {c m e : ℝ}
    (hy : ∀ k < ts.length, ys.getD k 0 = c + m * ts.getD k 0 + e * ts.getD k 0 ^ 2) {i : ℕ} (hi : i < ts.length)
    (hint : e = 0 ∨ (0 < i ∧ i + 1 < ts.length)) : gradAt ts ys i = m + 2 * e * ts.getD i 0 := by
  have hlt : ∀ {a b : ℕ}, a < b → b < ts.length → ts.getD a 0 < ts.getD b 0 := fun hab hb => strictlyIncreasing_getD h hab hb
  simp only [gradAt]
  split
  · rename_i h0
    have he : e = 0 := by rcases hint with h | h; exact h; omega
    have := hlt (a := 0) (b := 1) (by omega) (by omega)
    rw [hy 1 (by omega), hy 0 (by omega), he]
    rw [div_eq_iff (by linarith)]
    ring
  · split
    · rename_i h1
      have he : e = 0 := by rcases hint with h | h; exact h; omega
      have := hlt (a := ts.length - 2) (b := ts.length - 1) (by omega) (by omega)
      rw [hy _ (by omega), hy (ts.length - 2) (by omega), he]
      rw [div_eq_iff (by linarith)]
      ring
    · rename_i h0 h1
      have q1 := hlt (a := i - 1) (b := i) (by omega) (by omega)
      have q2 := hlt (a := i) (b := i + 1) (by omega) (by omega)
      have y1 := hy (i - 1) (by omega)
      have y2 := hy i (by omega)
      have y3 := hy (i + 1) (by omega)
      split
      · rename_i hu
        have u1 := hu (i - 1) (by omega)
        have u2 := hu i (by omega)
        have q0 := hlt (a := 0) (b := 1) (by omega) (by omega)
        rw [show i - 1 + 1 = i by omega] at u1
        rw [y1, y3]
        generalize ts.getD (i - 1) 0 = a at *
        generalize ts.getD i 0 = b at *
        generalize ts.getD (i + 1) 0 = d at *
        generalize ts.getD 1 0 - ts.getD 0 0 = D at *
        obtain rfl : a = b - D := by linarith
        obtain rfl : d = b + D := by linarith
        have : D ≠ 0 := by intro h; subst h; simp at q1
        field_simp
        ring
      · rw [y1, y2, y3]
        generalize ts.getD (i - 1) 0 = a at *
        generalize ts.getD i 0 = b at *
        generalize ts.getD (i + 1) 0 = d at *
        have n1 : b - a ≠ 0 := by linarith
        have n2 : d - b ≠ 0 := by linarith
        have n3 : d - a ≠ 0 := by linarith
        have e3 : b - a + (d - b) = d - a := by ring
        rw [e3]
        field_simp
        ring

/-- `np.gradient` along an axis of a timed array. -/
theorem npGradient_timed {arr : ND ℝ} {p : ℕ} {ts : List ℝ} {axis : ℤ} (hp : AxisIs axis arr.ndim p) (htd : TimedArray arr p ts) :
    npGradient arr ts axis = .ok ⟨arr.shape, fun idx => gradAt ts (arr.lane p idx) (idx.getD p 0)⟩ := by
  have h2 := htd.two
  rw [npGradient, axisIs_norm hp]
  simp only
  rw [if_neg (by rw [htd.length]; simp), if_neg (by omega), if_neg (grad_not_degenerate htd.sorted)]

theorem gradLane_quadratic {arr : ND ℝ} {p : ℕ} {ts : List ℝ} (htd : TimedArray arr p ts) {idx : List ℕ} (hv : Valid arr.shape idx)
    {c m e : ℝ} (hf : Follows arr p ts idx fun τ => c + m * τ + e * τ ^ 2)
    (hint : e = 0 ∨ (0 < idx.getD p 0 ∧ idx.getD p 0 + 1 < ts.length)) :
    gradAt ts (arr.lane p idx) (idx.getD p 0) = m + 2 * e * ts.getD (idx.getD p 0) 0 := by
  have hi : idx.getD p 0 < ts.length := by rw [← htd.length]; exact (valid_iff.mp hv).2 p htd.axis
  refine gradAt_quadratic htd.sorted htd.two (c := c) (fun k hk => ?_) hi hint
  rw [lane_getD _ _ _ (by rw [htd.length]; exact hk)]
  have := hf k (ts.getD k 0) (by rw [getD_eq hk]; exact List.getElem?_eq_getElem hk)
  exact this

theorem interpFill_spec {xs ys : List ℝ} (hs : StrictlyIncreasing xs) (hl : 2 ≤ xs.length) (hly : ys.length = xs.length) {τ : ℝ}
    (h0 : xs.getD 0 0 ≤ τ) (h1 : τ ≤ xs.getD (xs.length - 1) 0) : ∃ v, interpFill xs ys τ = some v ∧ IsLinInterp xs ys τ v := by
  obtain ⟨lo, e, hlo, a, b, c⟩ := interpLoc_spec hs hl h0 h1
  obtain ⟨v, hv, hi⟩ := interpAt_spec hs hl hly h0 h1
  rw [interpAt, if_neg (by simp [hly]), e] at hv
  refine ⟨v, ?_, hi⟩
  rw [interpFill, e]
  simpa using hv

theorem interpFill_outside {xs ys : List ℝ} {τ : ℝ} (h : xs = [] ∨ τ < xs.getD 0 0 ∨ xs.getD (xs.length - 1) 0 < τ) :
    interpFill xs ys τ = none := by
  have : ∃ e, interpLoc xs τ = .error e := by
    by_cases h0 : xs.length = 0
    · exact ⟨.valueError, by simp only [interpLoc]; rw [if_pos h0]⟩
    · rcases h with h | h
      · rw [h] at h0; simp at h0
      · exact ⟨.valueError, by simp only [interpLoc]; rw [if_neg h0, if_pos h]⟩
  obtain ⟨e, he⟩ := this
  rw [interpFill, he]

/-- The retained samples. -/
theorem keep_facts {n : ℕ} {K : ℕ → Prop} [DecidablePred K] {ts : List ℝ} (hn : ts.length = n) (hs : StrictlyIncreasing ts) :
    let keep := (List.range n).filter fun i => decide (K i)
    (∀ (q i : ℕ), keep[q]? = some i → i < n ∧ K i) ∧ (∀ i, i < n → K i → ∃ q : ℕ, keep[q]? = some i) ∧
      (∀ (q r i j : ℕ), keep[q]? = some i → keep[r]? = some j → (q < r ↔ i < j)) ∧
      StrictlyIncreasing (keep.map fun i => ts.getD i 0) := by
  intro keep
  have hpw : keep.Pairwise (· < ·) := List.Pairwise.filter _ List.pairwise_lt_range
  have h1 : ∀ (q i : ℕ), keep[q]? = some i → i < n ∧ K i := by
    intro q i h
    have := List.mem_of_getElem? h
    simpa [keep] using this
  have hlt : ∀ (q r i j : ℕ), keep[q]? = some i → keep[r]? = some j → q < r → i < j := by
    intro q r i j hi hj hqr
    obtain ⟨a, ea⟩ := List.getElem?_eq_some_iff.mp hi
    obtain ⟨b, eb⟩ := List.getElem?_eq_some_iff.mp hj
    have := List.pairwise_iff_getElem.mp hpw q r a b hqr
    rwa [ea, eb] at this
  refine ⟨h1, ?_, ?_, ?_⟩
  · intro i hi hk
    have : i ∈ keep := by simp [keep, hi, hk]
    obtain ⟨q, hq, e⟩ := List.mem_iff_getElem.mp this
    exact ⟨q, by rw [List.getElem?_eq_getElem hq, e]⟩
  · intro q r i j hi hj
    refine ⟨hlt q r i j hi hj, fun h => ?_⟩
    rcases Nat.lt_trichotomy q r with h' | h' | h'
    · exact h'
    · subst h'; rw [hi] at hj; cases hj; omega
    · have := hlt r q j i hj hi h'; omega
  · rw [StrictlyIncreasing, List.pairwise_map]
    refine hpw.imp_of_mem fun {a b} ha hb hab => ?_
    have hb' : b < n := by
      have : b ∈ keep := hb
      simp [keep] at this; exact this.1
    exact strictlyIncreasing_getD hs hab (by omega)

/-- Interpolation between the retained rows. -/
theorem keepRows_spec {v : ND ℝ} {n k : ℕ} (hv : v.shape = [n, k]) {ts : List ℝ} (hn : ts.length = n) (hs : StrictlyIncreasing ts)
    (K : ℕ → Prop) [DecidablePred K] {a0 b0 : ℕ} (hab : a0 < b0) (hb0 : b0 < n) (ha : K a0) (hb : K b0) :
    ∃ w : ND (Option ℝ), (List.range n).filter (fun i => decide (K i)) ≠ [] ∧ (⟨v.shape, fun idx =>
      interpFill (((List.range n).filter fun i => decide (K i)).map fun i => ts.getD i 0) (((List.range n).filter fun i => decide (K i)).map fun i => v.get (idx.set 0 i))
        (ts.getD (idx.getD 0 0) 0)⟩ : ND (Option ℝ)) = w ∧ w.shape = v.shape ∧
      (∀ i j, i < n → K i → w.get [i, j] = some (v.get [i, j])) ∧
      (∀ i j a b, a < i → i < b → b < n → K a → K b →
        (∀ m, a < m → m < b → ¬ K m) →
        w.get [i, j] = some ((1 - (ts.getD i 0 - ts.getD a 0) / (ts.getD b 0 - ts.getD a 0)) * v.get [a, j] +
          (ts.getD i 0 - ts.getD a 0) / (ts.getD b 0 - ts.getD a 0) * v.get [b, j])) ∧
      (∀ i j, i < n → ((∀ m, m ≤ i → ¬ K m) ∨ (∀ m, i ≤ m → m < n → ¬ K m)) → w.get [i, j] = none) := by
  obtain ⟨k1, k2, k3, k4⟩ := keep_facts (K := K) hn hs
  set keep := (List.range n).filter fun i => decide (K i) with hkeep
  obtain ⟨qa, hqa⟩ := k2 a0 (by omega) ha
  obtain ⟨qb, hqb⟩ := k2 b0 hb0 hb
  have hqq := (k3 qa qb a0 b0 hqa hqb).mpr hab
  have hlen : 2 ≤ keep.length := by
    have := (List.getElem?_eq_some_iff.mp hqb).1
    omega
  have hxl : (keep.map fun i => ts.getD i 0).length = keep.length := by simp
  have hne : keep ≠ [] := by intro h; rw [h] at hlen; simp at hlen
  have hgetx : ∀ (q i : ℕ), keep[q]? = some i → (keep.map fun i => ts.getD i 0)[q]? = some (ts.getD i 0) := by
    intro q i h; rw [List.getElem?_map, h]; rfl
  have hgety : ∀ (j q i : ℕ), keep[q]? = some i → (keep.map fun i => v.get [i, j])[q]? = some (v.get [i, j]) := by
    intro j q i h; rw [List.getElem?_map, h]; rfl
  have hfirst : ∃ i, keep[0]? = some i ∧ (keep.map fun i => ts.getD i 0).getD 0 0 = ts.getD i 0 := by
    refine ⟨keep[0], List.getElem?_eq_getElem (by omega), ?_⟩
    rw [List.getD_eq_getElem?_getD, hgetx 0 keep[0] (List.getElem?_eq_getElem (by omega))]; rfl
  have hlast : ∃ i, keep[keep.length - 1]? = some i ∧ (keep.map fun i => ts.getD i 0).getD (keep.length - 1) 0 = ts.getD i 0 := by
    refine ⟨keep[keep.length - 1], List.getElem?_eq_getElem (by omega), ?_⟩
    rw [List.getD_eq_getElem?_getD, hgetx _ keep[keep.length - 1] (List.getElem?_eq_getElem (by omega))]; rfl
  obtain ⟨f, hf, hfx⟩ := hfirst
  obtain ⟨l, hl, hlx⟩ := hlast
  have hmonole : ∀ {a b : ℕ}, a ≤ b → b < n → ts.getD a 0 ≤ ts.getD b 0 := fun h1 h2 =>
    nonDecreasing_getD hs.nonDecreasing h1 (by omega)
  have hfmin : ∀ i, i < n → K i → f ≤ i := by
    intro i hi hk
    obtain ⟨q, hq⟩ := k2 i hi hk
    by_contra hc
    have := (k3 q 0 i f hq hf).mpr (by omega)
    omega
  have hlmax : ∀ i, i < n → K i → i ≤ l := by
    intro i hi hk
    obtain ⟨q, hq⟩ := k2 i hi hk
    by_contra hc
    have h1 := (k3 _ q l i hl hq).mpr (by omega)
    have := (List.getElem?_eq_some_iff.mp hq).1
    omega
  have hin : ∀ i j, f ≤ i → i ≤ l → ∃ y, interpFill (keep.map fun i => ts.getD i 0) (keep.map fun i => v.get [i, j]) (ts.getD i 0) = some y ∧
      IsLinInterp (keep.map fun i => ts.getD i 0) (keep.map fun i => v.get [i, j]) (ts.getD i 0) y := by
    intro i j h1 h2
    have hln := (k1 _ _ hl).1
    refine interpFill_spec k4 (by rw [hxl]; exact hlen) (by simp) ?_ ?_
    · rw [hfx]; exact hmonole h1 (by omega)
    · rw [hxl, hlx]; exact hmonole h2 hln
  refine ⟨⟨v.shape, fun idx => interpFill (keep.map fun i => ts.getD i 0) (keep.map fun i => v.get (idx.set 0 i)) (ts.getD (idx.getD 0 0) 0)⟩,
    hne, rfl, rfl, ?_, ?_, ?_⟩
  · intro i j hi hk
    obtain ⟨y, e1, e2⟩ := hin i j (hfmin i hi hk) (hlmax i hi hk)
    obtain ⟨q, hq⟩ := k2 i hi hk
    have := e2.knot k4 (hgetx q i hq) (hgety j q i hq)
    rw [← this]; exact e1
  · intro i j a b hai hib hbn hka hkb hno
    obtain ⟨y, e1, e2⟩ := hin i j (by have := hfmin a (by omega) hka; omega) (by have := hlmax b hbn hkb; omega)
    obtain ⟨q, hq⟩ := k2 a (by omega) hka
    obtain ⟨r, hr⟩ := k2 b hbn hkb
    have hqr := (k3 q r a b hq hr).mpr (by omega)
    have hrq : r = q + 1 := by
      by_contra hc
      have hrl := (List.getElem?_eq_some_iff.mp hr).1
      have hm : keep[q + 1]? = some keep[q + 1] := List.getElem?_eq_getElem (by omega)
      exact hno _ ((k3 q (q + 1) a _ hq hm).mp (by omega)) ((k3 (q + 1) r _ b hm hr).mp (by omega)) (k1 _ _ hm).2
    subst hrq
    have hlt := strictlyIncreasing_getD hs (show a < b by omega) (by omega)
    have := e2.unique k4 (v' := (1 - (ts.getD i 0 - ts.getD a 0) / (ts.getD b 0 - ts.getD a 0)) • v.get [a, j] +
          ((ts.getD i 0 - ts.getD a 0) / (ts.getD b 0 - ts.getD a 0)) • v.get [b, j])
      ⟨q, ts.getD a 0, ts.getD b 0, _, _, hgetx q a hq, hgetx _ b hr, hgety j q a hq, hgety j _ b hr, hlt,
        hmonole (by omega) (by omega), hmonole (by omega) (by omega), rfl⟩
    rw [this] at e1
    exact e1
  · intro i j hi hc
    refine interpFill_outside (.inr ?_)
    rcases hc with hc | hc
    · left
      have hfi : i < f := by
        by_contra h; exact hc f (by omega) (k1 _ _ hf).2
      have := strictlyIncreasing_getD hs hfi (by have := (k1 _ _ hf).1; omega)
      rw [hfx]; exact this
    · right
      have hli : l < i := by
        by_contra h; exact hc l (by omega) (k1 _ _ hl).1 (k1 _ _ hl).2
      have := strictlyIncreasing_getD hs hli (by omega)
      rw [hxl, hlx]; exact this

theorem removeOutliers_spec {v : ND ℝ} {n k : ℕ} (hv : v.shape = [n, k]) {ts : List ℝ} (hn : ts.length = n) (hs : StrictlyIncreasing ts)
    (d : ℕ → ℝ) (th : ℝ) {a0 b0 : ℕ} (hab : a0 < b0) (hb0 : b0 < n) (ha : jumpStat d n a0 ≤ th) (hb : jumpStat d n b0 ≤ th) :
    ∃ w, removeOutliers v ts d th = .ok w ∧ w.shape = v.shape ∧
      (∀ i j, i < n → jumpStat d n i ≤ th → w.get [i, j] = some (v.get [i, j])) ∧
      (∀ i j a b, a < i → i < b → b < n → jumpStat d n a ≤ th → jumpStat d n b ≤ th →
        (∀ m, a < m → m < b → ¬ jumpStat d n m ≤ th) →
        w.get [i, j] = some ((1 - (ts.getD i 0 - ts.getD a 0) / (ts.getD b 0 - ts.getD a 0)) * v.get [a, j] +
          (ts.getD i 0 - ts.getD a 0) / (ts.getD b 0 - ts.getD a 0) * v.get [b, j])) ∧
      (∀ i j, i < n → ((∀ m, m ≤ i → ¬ jumpStat d n m ≤ th) ∨ (∀ m, i ≤ m → m < n → ¬ jumpStat d n m ≤ th)) → w.get [i, j] = none) := by
  classical
  obtain ⟨w, hne, w1, w2, w3, w4, w5⟩ := keepRows_spec hv hn hs (fun i => jumpStat d n i ≤ th) hab hb0 ha hb
  refine ⟨w, ?_, w2, w3, w4, w5⟩
  simp only [removeOutliers, hn]
  rw [← w1]
  exact if_neg hne

theorem maybeFilter_const {ext : Ext} (hf : FiltLaw ext) (v : ND (Option ℝ)) {p : ℕ} (hp : p < v.ndim) {cutoff : Option ℝ}
    (hc : ∀ c, cutoff = some c → 0 < c ∧ c < 1 ∧ 24 < v.shape.getD p 0) :
    ∃ w, maybeFilter ext v p cutoff = .ok w ∧ w.shape = v.shape ∧ (cutoff = none → w = v) ∧
      ∀ idx m, Valid v.shape idx → (∀ k < v.shape.getD p 0, v.get (idx.set p k) = some m) → w.get idx = some m := by
  classical
  cases cutoff with
  | none =>
    refine ⟨v, rfl, rfl, fun _ => rfl, fun idx m hv hk => ?_⟩
    have := hk (idx.getD p 0) ((valid_iff.mp hv).2 p hp)
    rw [← this, List.getD_eq_getElem?_getD]
    congr 1
    have hl : p < idx.length := by rw [hv.length]; exact hp
    rw [List.getElem?_eq_getElem hl]; simp
  | some c =>
    obtain ⟨c0, c1, c2⟩ := hc c rfl
    refine ⟨⟨v.shape, fun idx => if none ∈ v.lane p idx then none
      else some (ext.filt c ((v.lane p idx).map fun x => x.getD 0) (idx.getD p 0))⟩, ?_, rfl, by simp, ?_⟩
    · simp only [maybeFilter]
      rw [if_neg (by push Not; exact ⟨c0, c1⟩), if_neg (by omega)]
    · intro idx m hv hk
      have hlane : v.lane p idx = List.replicate (v.shape.getD p 0) (some m) := by
        refine List.ext_getElem (by simp [ND.lane]) fun k h1 h2 => ?_
        simp only [ND.lane, List.getElem_map, List.getElem_range, List.getElem_replicate]
        exact hk k (by simpa using h2)
      simp only [hlane, List.map_replicate, Option.getD_some]
      rw [hf c _ m _ c0 c1 c2 ((valid_iff.mp hv).2 p hp), if_neg (by simp)]

end RBM

namespace RBM

open Spec

theorem sum_range_map (k : ℕ) (f : ℕ → ℝ) : ((List.range k).map f).sum = ∑ j ∈ Finset.range k, f j := by
  induction k with
  | zero => simp
  | succ k ih => rw [List.range_succ, List.map_append, List.sum_append, ih, Finset.sum_range_succ]; simp

/-- The statistic of the code, in words. -/
theorem jumpStat_eq (arr : ND ℝ) {n k : ℕ} (hs : arr.shape.getD 1 0 = k) (i : ℕ) :
    jumpStat (secondDiff arr) n i = jump arr n k i := by
  have key : ∀ m, secondDiff arr m = Real.sqrt (∑ j ∈ Finset.range k, (arr.get [m + 2, j] - 2 * arr.get [m + 1, j] + arr.get [m, j]) ^ 2) := by
    intro m
    rw [secondDiff, sum_range_map, hs]
    congr 1
    refine Finset.sum_congr rfl fun j _ => ?_
    congr 1; ring
  have e1 : (if i + 2 < n then secondDiff arr i else 0) = bend arr n k (i + 1) := by
    unfold bend
    by_cases h : i + 2 < n
    · rw [if_pos h, if_pos ⟨by omega, by omega⟩, key]; rfl
    · rw [if_neg h, if_neg (by omega)]
  have e2 : (if 1 ≤ i ∧ i + 1 < n then secondDiff arr (i - 1) else 0) = bend arr n k i := by
    unfold bend
    by_cases h : 1 ≤ i ∧ i + 1 < n
    · rw [if_pos h, if_pos h, key]
      rw [show i - 1 + 2 = i + 1 by omega, show i - 1 + 1 = i by omega]
    · rw [if_neg h, if_neg h]
  rw [jumpStat, e1, e2, jump]; ring

theorem swapL_set {pa p d k : ℕ} {idx : List ℕ} (hl : idx.length = d) (hpa : pa < d) (hp : p < d) (hne : pa ≠ p) :
    swapL pa (d - 1) (idx.set p k) = (swapL pa (d - 1) idx).set (if p + 1 = d then pa else p) k := by
  have h1 : d - 1 < idx.length := by omega
  have hsl : (swapL pa (d - 1) idx).length = d := by simp [hl]
  refine list_ext_getD (by simp) fun j hj => ?_
  simp only [swapL_length, List.length_set] at hj
  have hg : ∀ m, (idx.set p k).getD m 0 = if m = p then k else idx.getD m 0 := fun m => getD_set (by omega)
  by_cases hp1 : p + 1 = d
  · rw [if_pos hp1, swapL_getD (by simp; omega) (by simp; omega), getD_set (l := swapL pa (d - 1) idx) (by omega),
      swapL_getD (by omega) h1, hg, hg, hg]
    split_ifs <;> first | rfl | omega
  · rw [if_neg hp1, swapL_getD (by simp; omega) (by simp; omega), getD_set (l := swapL pa (d - 1) idx) (by omega),
      swapL_getD (by omega) h1, hg, hg, hg]
    split_ifs <;> first | rfl | omega

theorem swapL_set_self {pa d k : ℕ} {idx : List ℕ} (hl : idx.length = d) (hpa : pa < d) :
    swapL pa (d - 1) (idx.set pa k) = (swapL pa (d - 1) idx).set (d - 1) k := by
  have h1 : d - 1 < idx.length := by omega
  refine list_ext_getD (by simp) fun j hj => ?_
  simp only [swapL_length, List.length_set] at hj
  have hsl : (swapL pa (d - 1) idx).length = d := by simp [hl]
  have hg : ∀ m, (idx.set pa k).getD m 0 = if m = pa then k else idx.getD m 0 := fun m => getD_set (by omega)
  rw [swapL_getD (by simp; omega) (by simp; omega), getD_set (l := swapL pa (d - 1) idx) (by omega), swapL_getD (by omega) h1, hg, hg, hg]
  split_ifs <;> first | rfl | omega

theorem set_last {l : List ℕ} {d k : ℕ} (hl : l.length = d) (hd : 0 < d) : l.set (d - 1) k = l.dropLast ++ [k] := by
  refine list_ext_getD (by simp; omega) fun j hj => ?_
  rw [getD_set (by omega)]
  simp only [List.getD_eq_getElem?_getD, List.length_set] at *
  split
  · rename_i h
    rw [List.getElem?_append_right (by simp; omega)]
    simp [h, hl]
  · rw [List.getElem?_append_left (by simp; omega), List.getElem?_dropLast, if_pos (by omega)]

end RBM

namespace RBM

open Spec

theorem axis_mod {x : ℤ} {n r : ℕ} (h : AxisIs x n r) : x % n = r := by
  have hr := h.1
  rcases h.2 with h' | h'
  · rw [h']; exact Int.emod_eq_of_lt (by omega) (by omega)
  · rw [h', show ((r : ℤ) - n) = r + n * (-1) by ring, Int.add_mul_emod_self_left]
    exact Int.emod_eq_of_lt (by omega) (by omega)

theorem angularAxes_eq {n pa p : ℕ} {axis ta : ℤ} (h1 : AxisIs axis n pa) (h2 : AxisIs ta n p) :
    angularAxes n axis ta = (pa, if p + 1 = n then pa else p) := by
  simp only [angularAxes, axis_mod h1, axis_mod h2, Int.toNat_natCast]

section

variable {arr : ND ℝ} {pa p : ℕ} {ts : List ℝ}

theorem swapped_getLast (hpa : pa < arr.ndim) {k : ℕ} (h4 : arr.shape.getD pa 0 = k) :
    (arr.swapaxes pa (arr.ndim - 1)).shape.getLast? = some k := by
  have hl : (swapL pa (arr.ndim - 1) arr.shape).length = arr.ndim := by simp [ND.ndim]
  have : (swapL pa (arr.ndim - 1) arr.shape).getD (arr.ndim - 1) 0 = k := by
    rw [swapL_getD hpa (show arr.ndim - 1 < arr.shape.length by simp only [ND.ndim] at *; omega), if_pos rfl, h4]
  simp only [ND.swapaxes]
  rw [List.getLast?_eq_getElem?, hl, ← this]
  rw [getD_eq (by omega)]
  exact List.getElem?_eq_getElem _

theorem swapped_time (hpa : pa < arr.ndim) (hp : p < arr.ndim) (hne : pa ≠ p) :
    (arr.swapaxes pa (arr.ndim - 1)).shape.getD (if p + 1 = arr.ndim then pa else p) 0 = arr.shape.getD p 0 := by
  simp only [ND.swapaxes]
  rw [swapL_getD hpa (show arr.ndim - 1 < arr.shape.length by simp only [ND.ndim] at *; omega)]
  by_cases h : p + 1 = arr.ndim
  · rw [if_pos h]
    split_ifs with h1
    · omega
    · congr 1; omega
    · exact absurd rfl ‹_›
  · rw [if_neg h]
    split_ifs with h1 h2
    · omega
    · omega
    · rfl

theorem swapped_drop3 (hpa : pa < arr.ndim) :
    (arr.swapaxes pa (arr.ndim - 1)).shape.dropLast ++ [3] = swapL pa (arr.ndim - 1) (arr.shape.set pa 3) := by
  rw [swapL_set_self (d := arr.ndim) rfl hpa, set_last (by simp [ND.ndim]) (by omega)]
  rfl

theorem swap_idx (hpa : pa < arr.ndim) {idx : List ℕ} (hl : idx.length = arr.ndim) (c : ℕ) :
    (swapL pa (arr.ndim - 1) idx).dropLast ++ [c] = swapL pa (arr.ndim - 1) (idx.set pa c) := by
  rw [swapL_set_self (d := arr.ndim) hl hpa, set_last (by simp [hl]) (by omega)]

theorem swap_idx_drop (hpa : pa < arr.ndim) {idx : List ℕ} (hl : idx.length = arr.ndim) (c : ℕ) :
    (swapL pa (arr.ndim - 1) (idx.set pa c)).dropLast = (swapL pa (arr.ndim - 1) idx).dropLast ∧
      (swapL pa (arr.ndim - 1) (idx.set pa c)).getLast? = some c := by
  rw [← swap_idx hpa hl]; simp

theorem swap_get (hpa : pa < arr.ndim) {idx : List ℕ} (hl : idx.length = arr.ndim) :
    (arr.swapaxes pa (arr.ndim - 1)).get (swapL pa (arr.ndim - 1) idx) = arr.get idx := by
  simp only [ND.swapaxes]
  rw [swapL_swapL (by omega) (by omega)]

theorem swap_time_get (hpa : pa < arr.ndim) (hp : p < arr.ndim) (hne : pa ≠ p) {idx : List ℕ} (hl : idx.length = arr.ndim) (c : ℕ) :
    (swapL pa (arr.ndim - 1) (idx.set pa c)).getD (if p + 1 = arr.ndim then pa else p) 0 = idx.getD p 0 := by
  have hg : ∀ m, (idx.set pa c).getD m 0 = if m = pa then c else idx.getD m 0 := fun m => getD_set (by omega)
  rw [swapL_getD (by simp; omega) (by simp; omega)]
  by_cases h : p + 1 = arr.ndim
  · rw [if_pos h]
    simp only [hg]
    split_ifs <;> first | omega | (congr 1; omega)
  · rw [if_neg h]
    simp only [hg]
    split_ifs <;> first | omega | rfl

theorem swap_lane (hpa : pa < arr.ndim) (hp : p < arr.ndim) (hne : pa ≠ p) (hn : arr.shape.getD p 0 = ts.length)
    {idx : List ℕ} (hl : idx.length = arr.ndim) (c : ℕ) :
    (arr.swapaxes pa (arr.ndim - 1)).lane (if p + 1 = arr.ndim then pa else p) (swapL pa (arr.ndim - 1) (idx.set pa c)) =
      (List.range ts.length).map fun k => arr.get ((idx.set pa c).set p k) := by
  rw [ND.lane, swapped_time hpa hp hne, hn]
  refine List.map_congr_left fun k _ => ?_
  rw [← swapL_set (by simp [hl]) hpa hp hne, swap_get hpa (by simp [hl])]

theorem rawAngular_quat (ext : Ext) (hacc : ext.derivErr ts = none) (hpa : pa < arr.ndim) (hp : p < arr.ndim) (hne : pa ≠ p)
    (h4 : arr.shape.getD pa 0 = 4) (hn : arr.shape.getD p 0 = ts.length) :
    ∃ v, rawAngular ext (arr.swapaxes pa (arr.ndim - 1)) ts (if p + 1 = arr.ndim then pa else p) "quaternion" = .ok v ∧
      v.shape = swapL pa (arr.ndim - 1) (arr.shape.set pa 3) ∧
      ∀ idx : List ℕ, idx.length = arr.ndim → ∀ j, v.get (swapL pa (arr.ndim - 1) (idx.set pa j)) =
        qcomp ((2 : ℝ) • (star (quat4 arr pa idx) * quatRate ext arr pa p ts idx)) (j + 1) := by
  refine ⟨angularFromDerivative ext (arr.swapaxes pa (arr.ndim - 1)) ts (if p + 1 = arr.ndim then pa else p), ?_, ?_, ?_⟩
  · rw [rawAngular, if_pos rfl, if_neg (by rw [swapped_time hpa hp hne, hn]; simp), hacc]
    exact if_neg (by rw [swapped_getLast hpa h4]; simp)
  · exact swapped_drop3 hpa
  · intro idx hl j
    simp only [angularFromDerivative, (swap_idx_drop hpa hl j).1, (swap_idx_drop hpa hl j).2, swap_idx hpa hl, Option.getD_some,
      swap_get hpa (show (idx.set pa _).length = arr.ndim by simp [hl]), swap_lane hpa hp hne hn hl, swap_time_get hpa hp hne hl]
    rfl

theorem rotVecs_get (hpa : pa < arr.ndim) {idx : List ℕ} (hl : idx.length = arr.ndim) (j : ℕ) :
    (rotVecs (arr.swapaxes pa (arr.ndim - 1))).get (swapL pa (arr.ndim - 1) (idx.set pa j)) = rotVec (quat4 arr pa idx) (Fin.ofNat 3 j) := by
  simp only [rotVecs, (swap_idx_drop hpa hl j).1, (swap_idx_drop hpa hl j).2, swap_idx hpa hl, Option.getD_some,
      swap_get hpa (show (idx.set pa _).length = arr.ndim by simp [hl])]
  rfl

theorem rawAngular_rv (ext : Ext) (hs : StrictlyIncreasing ts) (h2 : 2 ≤ ts.length) (hpa : pa < arr.ndim) (hp : p < arr.ndim) (hne : pa ≠ p)
    (h4 : arr.shape.getD pa 0 = 4) (hn : arr.shape.getD p 0 = ts.length) :
    ∃ v, rawAngular ext (arr.swapaxes pa (arr.ndim - 1)) ts (if p + 1 = arr.ndim then pa else p) "rotation_vector" = .ok v ∧
      v.shape = swapL pa (arr.ndim - 1) (arr.shape.set pa 3) ∧
      ∀ idx : List ℕ, idx.length = arr.ndim → ∀ j, v.get (swapL pa (arr.ndim - 1) (idx.set pa j)) =
        gradAt ts ((List.range ts.length).map fun k => rotVec (quat4 arr pa (idx.set p k)) (Fin.ofNat 3 j)) (idx.getD p 0) := by
  have hsh : (rotVecs (arr.swapaxes pa (arr.ndim - 1))).shape = swapL pa (arr.ndim - 1) (arr.shape.set pa 3) := swapped_drop3 hpa
  have hnd : (rotVecs (arr.swapaxes pa (arr.ndim - 1))).ndim = arr.ndim := by rw [ND.ndim, hsh]; simp [ND.ndim]
  have hp' : (if p + 1 = arr.ndim then pa else p) < arr.ndim := by split_ifs <;> omega
  have hti : (rotVecs (arr.swapaxes pa (arr.ndim - 1))).shape.getD (if p + 1 = arr.ndim then pa else p) 0 = ts.length := by
    rw [hsh, ← hn]
    have := swap_time_get hpa hp hne (idx := arr.shape) rfl 3
    exact this
  refine ⟨⟨(rotVecs (arr.swapaxes pa (arr.ndim - 1))).shape, fun idx => gradAt ts ((rotVecs (arr.swapaxes pa (arr.ndim - 1))).lane
    (if p + 1 = arr.ndim then pa else p) idx) (idx.getD (if p + 1 = arr.ndim then pa else p) 0)⟩, ?_, hsh, ?_⟩
  · rw [rawAngular, if_neg (by decide), if_pos rfl, if_neg (by rw [swapped_getLast hpa h4]; simp), npGradient,
      hnd, normAxis_nat hp']
    simp only
    rw [if_neg (by rw [hti]; simp), if_neg (by omega), if_neg (grad_not_degenerate hs)]
  · intro idx hl j
    simp only [swap_time_get hpa hp hne hl]
    congr 1
    rw [ND.lane, hti]
    refine List.map_congr_left fun k _ => ?_
    rw [← swapL_set (by simp [hl]) hpa hp hne, List.set_comm _ _ hne, rotVecs_get hpa (by simp [hl])]

end

end RBM
