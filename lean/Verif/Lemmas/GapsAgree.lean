import Verif.Lemmas.Gaps
import Verif.Lemmas.Clock

/-!
The model for arrays with NaN agrees with the model for arrays without on arrays without.
-/

namespace RBM

open Spec

theorem same_refl {α} (a : ND α) : a.Same a := ⟨rfl, fun _ _ => rfl⟩

theorem same_swap {α} {a b : ND α} (h : a.Same b) {i j : ℕ} (hi : i < a.ndim) (hj : j < a.ndim) : (a.swapaxes i j).Same (b.swapaxes i j) :=
  ⟨by simp [ND.swapaxes, h.1], fun idx hv => h.2 _ (valid_swapL' hi hj hv)⟩

theorem lane_same {α} {a b : ND α} (h : a.Same b) (p : ℕ) {idx : List ℕ} (hv : Valid a.shape idx) : a.lane p idx = b.lane p idx := by
  simp only [ND.lane, ← h.1]
  refine List.map_congr_left fun i hi => h.2 _ (valid_set hv (by simpa using hi))

theorem gradNeeds_lt {xs : List ℝ} {i k : ℕ} (h2 : 2 ≤ xs.length) (hi : i < xs.length) (hk : k ∈ gradNeeds xs i) : k < xs.length := by
  simp only [gradNeeds] at hk
  split_ifs at hk <;> simp at hk <;> omega

theorem gradAtGaps_present {xs : List ℝ} {ys : List (Option ℝ)} {i : ℕ} (h : ∀ k ∈ gradNeeds xs i, ys.getD k none ≠ none) :
    gradAtGaps xs ys i = some (gradAt xs (ys.map fun o => o.getD 0) i) := by
  rw [gradAtGaps, if_neg]
  rintro ⟨k, hk, e⟩
  exact h k hk e

theorem lane_get {α} (a : ND α) (p : ℕ) (idx : List ℕ) {k : ℕ} (hk : k < a.shape.getD p 0) (d : α) : (a.lane p idx).getD k d = a.get (idx.set p k) := by
  rw [List.getD_eq_getElem?_getD, ND.lane, List.getElem?_map, List.getElem?_range hk]; rfl

theorem npGradientGaps_same {a' : ND (Option ℝ)} {a : ND ℝ} (h : a'.Same (a.map some)) (xs : List ℝ) (ax : ℤ) :
    Agree (npGradientGaps a' xs ax) ((npGradient a xs ax).map fun v => v.map some) := by
  have hnd : a'.ndim = a.ndim := by simp only [ND.ndim, h.1]; rfl
  have hsh : a'.shape = a.shape := h.1
  rw [npGradientGaps, npGradient, hnd, hsh]
  cases hp : normAxis ax a.ndim with
  | none => exact .error _
  | some p =>
    simp only
    by_cases h1 : xs.length ≠ a.shape.getD p 0
    · rw [if_pos h1, if_pos h1]; exact .error _
    rw [if_neg h1, if_neg h1]
    by_cases h2 : xs.length < 2
    · rw [if_pos h2, if_pos h2]; exact .error _
    rw [if_neg h2, if_neg h2]
    by_cases h3 : gradDegenerate xs
    · rw [if_pos h3, if_pos h3]; exact .error _
    rw [if_neg h3, if_neg h3]
    refine .ok _ _ ⟨rfl, fun idx hv => ?_⟩
    have hn : xs.length = a.shape.getD p 0 := not_not.mp h1
    have hpl : p < a.ndim := by
      rw [normAxis] at hp
      split_ifs at hp with q1 q2
      · have := Option.some.inj hp; omega
      · have := Option.some.inj hp; omega
    have hi : idx.getD p 0 < xs.length := by rw [hn]; exact (valid_iff.mp hv).2 p hpl
    have hlane : a'.lane p idx = (a.lane p idx).map some := by
      rw [lane_same h p (by rw [hsh]; exact hv)]
      simp only [ND.lane, ND.map, List.map_map]
      rfl
    show gradAtGaps xs (a'.lane p idx) (idx.getD p 0) = some (gradAt xs (a.lane p idx) (idx.getD p 0))
    rw [gradAtGaps_present, hlane, List.map_map]
    · congr 2
      exact List.map_id _
    · intro k hk
      have := gradNeeds_lt (by omega) hi hk
      rw [lane_get a' p idx (by rw [hsh, ← hn]; exact this), h.2 _ (valid_set (by rw [hsh]; exact hv) (by rw [hsh, ← hn]; exact this))]
      simp [ND.map]

theorem interpFillGaps_present {xs : List ℝ} {ys : List (Option ℝ)} (hl : ys.length = xs.length) (h : none ∉ ys) (t : ℝ) :
    interpFillGaps xs ys t = interpFill xs (ys.map fun o => o.getD 0) t := by
  rw [interpFillGaps, interpFill]
  cases hloc : interpLoc xs t with
  | error e => rfl
  | ok loc =>
    obtain ⟨h1, h2⟩ := interpLoc_lt hloc
    simp only
    have hne : ∀ k, k < xs.length → ys.getD k none ≠ none := by
      intro k hk e
      rw [List.getD_eq_getElem?_getD, List.getElem?_eq_getElem (by omega)] at e
      exact h (by rw [← show ys[k] = none from e]; exact List.getElem_mem _)
    rw [if_neg]
    rintro (e | e)
    · exact hne _ h1 e
    · exact hne _ h2 e

theorem jumpStatGaps_some {d : ℕ → Option ℝ} {e : ℕ → ℝ} {n : ℕ} (h : ∀ i, i + 2 < n → d i = some (e i)) (i : ℕ) :
    jumpStatGaps d n i = some (jumpStat e n i) := by
  have h1 : (if i + 2 < n then d i else some 0) = some (if i + 2 < n then e i else 0) := by
    split_ifs with hc
    · exact h i hc
    · rfl
  have h2 : (if 1 ≤ i ∧ i + 1 < n then d (i - 1) else some 0) = some (if 1 ≤ i ∧ i + 1 < n then e (i - 1) else 0) := by
    split_ifs with hc
    · exact h _ (by omega)
    · rfl
  rw [jumpStatGaps, h1, h2]; rfl

theorem maybeOutliersGaps_same {v : ND (Option ℝ)} {u : ND ℝ} (h : v.Same (u.map some)) {ts : List ℝ} {d : ℕ → Option ℝ} {e : ℕ → ℝ} {p : ℕ}
    (hn : u.ndim = 2 → p = 0 → u.shape.getD 0 0 = ts.length) (hd : u.ndim = 2 → p = 0 → ∀ i, i + 2 < ts.length → d i = some (e i)) (o : Option ℝ) :
    Agree (maybeOutliersGaps v ts d p o) (maybeOutliers u ts e p o) := by
  classical
  have hnd : v.ndim = u.ndim := by simp only [ND.ndim, h.1]; rfl
  have hsh : v.shape = u.shape := h.1
  cases o with
  | none => exact .ok _ _ h
  | some th =>
    rw [maybeOutliersGaps, maybeOutliers, hnd]
    by_cases h2 : u.ndim ≠ 2
    · rw [if_pos h2, if_pos h2]; exact .error _
    rw [if_neg h2, if_neg h2]
    by_cases h0 : p ≠ 0
    · rw [if_pos h0, if_pos h0]; exact .error _
    rw [if_neg h0, if_neg h0]
    have hj := jumpStatGaps_some (hd (not_not.mp h2) (not_not.mp h0))
    have hn' := hn (not_not.mp h2) (not_not.mp h0)
    have hkeep : ((List.range ts.length).filter fun i => decide (LeNan (jumpStatGaps d ts.length i) th)) =
        (List.range ts.length).filter fun i => decide (jumpStat e ts.length i ≤ th) := by
      refine List.filter_congr fun i _ => ?_
      rw [hj]
      simp [LeNan]
    simp only [removeOutliersGaps, removeOutliers, hkeep]
    generalize hK : ((List.range ts.length).filter fun i => decide (jumpStat e ts.length i ≤ th)) = keep
    have hlt : ∀ i ∈ keep, i < ts.length := by
      intro i hi
      rw [← hK] at hi
      have := List.mem_of_mem_filter hi
      simpa using this
    by_cases hk : keep = []
    · rw [if_pos hk, if_pos hk]; exact .error _
    · rw [if_neg hk, if_neg hk]
      refine .ok _ _ ⟨hsh, fun idx hv => ?_⟩
      have hv' : Valid v.shape idx := hv
      have hys : (keep.map fun i => v.get (idx.set 0 i)) = keep.map fun i => some (u.get (idx.set 0 i)) := by
        refine List.map_congr_left fun i hi => ?_
        exact h.2 _ (valid_set hv' (by rw [hsh, hn']; exact hlt i hi))
      show interpFillGaps _ _ _ = interpFill _ _ _
      rw [hys, interpFillGaps_present (by simp) (by simp), List.map_map]
      rfl

theorem maybeFilter_same {ext : Ext} {v u : ND (Option ℝ)} (h : v.Same u) {p : ℕ} (c : Option ℝ) :
    Agree (maybeFilter ext v p c) (maybeFilter ext u p c) := by
  cases c with
  | none => exact .ok _ _ h
  | some c =>
    simp only [maybeFilter]
    by_cases h1 : ¬ (0 < c ∧ c < 1)
    · rw [if_pos h1, if_pos h1]; exact .error _
    rw [if_neg h1, if_neg h1, ← h.1]
    by_cases h2 : v.shape.getD p 0 ≤ 24
    · rw [if_pos h2, if_pos h2]; exact .error _
    rw [if_neg h2, if_neg h2]
    refine .ok _ _ ⟨rfl, fun idx hv => ?_⟩
    simp only [lane_same h p hv]

theorem agree_bind {x y : Res (ND (Option ℝ))} (h : Agree x y) {f g : ND (Option ℝ) → Res (ND (Option ℝ))}
    (hfg : ∀ a b, x = .ok a → y = .ok b → a.Same b → Agree (f a) (g b)) : Agree (x >>= f) (y >>= g) := by
  cases h with
  | error e => exact .error e
  | ok a b h => exact hfg a b rfl rfl h

theorem maybeFilter_shape {ext : Ext} {v w : ND (Option ℝ)} {p : ℕ} {c : Option ℝ} (h : maybeFilter ext v p c = .ok w) : w.shape = v.shape := by
  cases c with
  | none => cases h; rfl
  | some c =>
    simp only [maybeFilter] at h
    split_ifs at h
    cases h; rfl

theorem maybeOutliers_shape {v : ND ℝ} {w : ND (Option ℝ)} {ts : List ℝ} {d : ℕ → ℝ} {p : ℕ} {o : Option ℝ} (h : maybeOutliers v ts d p o = .ok w) :
    w.shape = v.shape := by
  cases o with
  | none => cases h; rfl
  | some c =>
    simp only [maybeOutliers, removeOutliers] at h
    split_ifs at h
    cases h; rfl

theorem npGradient_shape {a v : ND ℝ} {xs : List ℝ} {ax : ℤ} (h : npGradient a xs ax = .ok v) : v.shape = a.shape ∧
    ∃ p, normAxis ax a.ndim = some p ∧ p < a.ndim ∧ a.shape.getD p 0 = xs.length := by
  rw [npGradient] at h
  cases hp : normAxis ax a.ndim with
  | none => rw [hp] at h; cases h
  | some p =>
    rw [hp] at h
    simp only at h
    split_ifs at h with h1 h2 h3
    cases h
    refine ⟨rfl, p, rfl, ?_, (not_not.mp h1).symm⟩
    rw [normAxis] at hp
    split_ifs at hp with q1 q2
    · have := Option.some.inj hp; omega
    · have := Option.some.inj hp; omega

theorem shape2 {α} {a : ND α} (h : a.ndim = 2) : ∃ n k, a.shape = [n, k] := by
  rw [ND.ndim] at h
  match hs : a.shape, h with
  | [n, k], _ => exact ⟨n, k, rfl⟩

/-- The statistic of arrays without NaN. -/
theorem secondDiffGaps_same {a' : ND (Option ℝ)} {a : ND ℝ} (h : a'.Same (a.map some)) (h2 : a.ndim = 2) {i : ℕ} (hi : i + 2 < a.shape.getD 0 0) :
    secondDiffGaps a' i = some (secondDiff a i) := by
  have hsh : a'.shape = a.shape := h.1
  obtain ⟨n, k, hs⟩ := shape2 h2
  have hget : ∀ m j, m < n → j < k → a'.get [m, j] = some (a.get [m, j]) := fun m j hm hj =>
    h.2 [m, j] (by rw [hsh, hs]; exact ⟨hm, hj, trivial⟩)
  have hin : i + 2 < n := by simpa [hs] using hi
  rw [secondDiffGaps, if_neg]
  · congr 1
    rw [secondDiff, secondDiff]
    have hs' : a'.fill.shape = a.shape := hsh
    rw [hs']
    congr 2
    refine List.map_congr_left fun j hj => ?_
    have hj' : j < k := by simpa [hs] using hj
    have hf : ∀ m, m < n → a'.fill.get [m, j] = a.get [m, j] := by
      intro m hm
      show (a'.get [m, j]).getD 0 = _
      rw [hget m j hm hj']; rfl
    rw [hf _ hin, hf _ (by omega), hf _ (by omega)]
  · rintro ⟨j, m, h1, h3, h4, h5⟩
    have hj' : j < k := by simpa [hsh, hs] using h1
    rw [hget m j (by omega) hj'] at h5
    cases h5

theorem estimateLinearGaps_same (ext : Ext) (a : ND ℝ) (ts : List ℝ) (ta : ℤ) (o c : Option ℝ) :
    Agree (estimateLinearGaps ext (a.map some) ts ta o c) (estimateLinear ext a ts ta o c) := by
  rw [estimateLinearGaps, estimateLinear]
  have h1 := npGradientGaps_same (same_refl (a.map some)) ts ta
  cases hg : npGradient a ts ta with
  | error e =>
    rw [hg] at h1
    generalize npGradientGaps (a.map some) ts ta = z at h1 ⊢
    cases h1
    exact .error _
  | ok v =>
    rw [hg] at h1
    obtain ⟨hs, p, hp, hpl, hn⟩ := npGradient_shape hg
    generalize npGradientGaps (a.map some) ts ta = z at h1 ⊢
    cases h1 with
    | ok w _ hw =>
      have hp' : normAxis ta (a.map some).ndim = some p := hp
      simp only [bind, Except.bind, hp', hp]
      have hva : v.ndim = a.ndim := by rw [ND.ndim, hs]; rfl
      refine agree_bind (maybeOutliersGaps_same hw (fun _ hp0 => by rw [hp0] at hn; rw [hs]; exact hn) (fun h2 hp0 i hi => ?_) o) fun x y _ _ hxy => maybeFilter_same hxy c
      rw [hp0] at hn
      exact secondDiffGaps_same (same_refl _) (by rw [← hva]; exact h2) (by rw [hn]; exact hi)

theorem rotVecsGaps_same {r' : ND (Option ℝ)} {r : ND ℝ} (h : r'.Same (r.map some)) (h4 : r.shape.getLast? = some 4) :
    (rotVecsGaps r').Same ((rotVecs r).map some) := by
  have hsh : r'.shape = r.shape := h.1
  refine ⟨by simp only [rotVecsGaps, hsh]; rfl, fun idx hv => ?_⟩
  have hv' : Valid (r.shape.dropLast ++ [3]) idx := by rw [← hsh]; exact hv
  have hne : r.shape ≠ [] := by rintro e; rw [e] at h4; cases h4
  have hlast : r.shape = r.shape.dropLast ++ [4] := by
    have := List.dropLast_append_getLast? 4 h4
    exact this.symm
  have hget : ∀ c, c < 4 → r'.get (idx.dropLast ++ [c]) = some (r.get (idx.dropLast ++ [c])) := by
    intro c hc
    refine h.2 _ ?_
    rw [hsh, hlast]
    obtain ⟨i0, k0, rfl, hi0, hk0⟩ := valid_snoc hv'
    rw [List.dropLast_concat]
    exact valid_snoc_mk hi0 hc
  show (if ∃ c ∈ [0, 1, 2, 3], r'.get (idx.dropLast ++ [c]) = none then none else some ((rotVecs r'.fill).get idx)) = some ((rotVecs r).get idx)
  rw [if_neg]
  · have hf : ∀ c, c < 4 → r'.fill.get (idx.dropLast ++ [c]) = r.get (idx.dropLast ++ [c]) := by
      intro c hc
      show (r'.get _).getD 0 = _
      rw [hget c hc]; rfl
    simp only [rotVecs, hf 0 (by omega), hf 1 (by omega), hf 2 (by omega), hf 3 (by omega)]
  · rintro ⟨c, hc, e⟩
    rw [hget c (by simp at hc; omega)] at e
    cases e

theorem validRows_full {r : ND ℝ} (p : ℕ) : validRows (r.map some) p = List.range (r.shape.getD p 0) := by
  rw [validRows]
  refine List.filter_eq_self.mpr fun i _ => ?_
  simp [NanAt, ND.map]

theorem range_times (ts : List ℝ) : ((List.range ts.length).map fun i => ts.getD i 0) = ts := by
  refine List.ext_getElem (by simp) fun k h1 h2 => ?_
  simp only [List.getElem_map, List.getElem_range]
  exact getD_eq h2 0

theorem angularFromDerivative_same {ext : Ext} {A B : ND ℝ} {p : ℕ} (h : A.Same B) (h4 : A.shape.getLast? = some 4) (ts : List ℝ) :
    (angularFromDerivative ext A ts p).Same (angularFromDerivative ext B ts p) := by
  refine ⟨by simp only [angularFromDerivative, h.1], fun idx hv => ?_⟩
  have hlast : A.shape = A.shape.dropLast ++ [4] := (List.dropLast_append_getLast? 4 h4).symm
  have hval : ∀ c, c < 4 → Valid A.shape (idx.dropLast ++ [c]) := by
    intro c hc
    have hv' : Valid (A.shape.dropLast ++ [3]) idx := hv
    rw [hlast]
    obtain ⟨i0, k0, rfl, hi0, hk0⟩ := valid_snoc hv'
    rw [List.dropLast_concat]
    exact valid_snoc_mk hi0 hc
  have hg : ∀ c, c < 4 → A.get (idx.dropLast ++ [c]) = B.get (idx.dropLast ++ [c]) := fun c hc => h.2 _ (hval c hc)
  have hla : ∀ c, c < 4 → A.lane p (idx.dropLast ++ [c]) = B.lane p (idx.dropLast ++ [c]) := fun c hc => lane_same h p (hval c hc)
  simp only [angularFromDerivative, hg 0 (by omega), hg 1 (by omega), hg 2 (by omega), hg 3 (by omega), hla 0 (by omega), hla 1 (by omega), hla 2 (by omega),
    hla 3 (by omega)]

theorem rawAngularGaps_same (ext : Ext) (r : ND ℝ) (ts : List ℝ) {p : ℕ} (hp : p < r.ndim) (mode : String) :
    Agree (rawAngularGaps ext (r.map some) ts p mode) ((rawAngular ext r ts p mode).map fun v => v.map some) := by
  rw [rawAngularGaps, rawAngular]
  by_cases hq : mode = "quaternion"
  · rw [if_pos hq, if_pos hq]
    have hsh : (r.map some).shape = r.shape := rfl
    rw [hsh]
    by_cases h1 : ts.length ≠ r.shape.getD p 0
    · rw [if_pos h1, if_pos h1]; exact .error _
    rw [if_neg h1, if_neg h1]
    have hn : ts.length = r.shape.getD p 0 := not_not.mp h1
    simp only [validRows_full, ← hn, range_times]
    cases hacc : ext.derivErr ts with
    | some e => exact .error _
    | none =>
      simp only
      by_cases h4 : r.shape.getLast? ≠ some 4
      · rw [if_pos h4, if_pos h4]; exact .error _
      rw [if_neg h4, if_neg h4]
      have h4' : r.shape.getLast? = some 4 := not_not.mp h4
      have hsame : ((r.map some).takeRows p (List.range ts.length)).fill.Same r := by
        have hs1 : ((r.map some).takeRows p (List.range ts.length)).fill.shape = r.shape := by
          show r.shape.set p (List.range ts.length).length = r.shape
          rw [List.length_range, hn, set_getD_self]
        refine ⟨hs1, fun idx hv => ?_⟩
        rw [hs1] at hv
        have hi : idx.getD p 0 < ts.length := by rw [hn]; exact (valid_iff.mp hv).2 p hp
        show r.get (idx.set p ((List.range ts.length).getD (idx.getD p 0) 0)) = r.get idx
        rw [List.getD_eq_getElem?_getD, List.getElem?_range hi, Option.getD_some, set_getD_self]
      have hang := angularFromDerivative_same (ext := ext) (p := p) hsame (by rw [hsame.1]; exact h4') ts
      refine .ok _ _ ⟨rfl, fun idx hv => ?_⟩
      have hv' : Valid (r.shape.dropLast ++ [3]) idx := hv
      show (if idx.getD p 0 ∈ List.range ts.length then _ else _) = some _
      have hlast : r.shape = r.shape.dropLast ++ [4] := (List.dropLast_append_getLast? 4 h4').symm
      have hi : idx.getD p 0 < ts.length := by
        obtain ⟨i0, k0, e, hi0, hk0⟩ := valid_snoc hv'
        have hv4 : Valid r.shape idx := by
          rw [hlast, e]
          exact valid_snoc_mk hi0 (by omega)
        rw [hn]
        exact (valid_iff.mp hv4).2 p hp
      rw [if_pos (by simpa using hi)]
      have : (List.range ts.length).idxOf (idx.getD p 0) = idx.getD p 0 := idxOf_sorted List.pairwise_lt_range (List.getElem?_range hi)
      rw [this, set_getD_self]
      congr 1
      exact hang.2 idx (by show Valid (_ ++ [3]) idx; rw [hsame.1]; exact hv')
  · rw [if_neg hq, if_neg hq]
    by_cases hr : mode = "rotation_vector"
    · rw [if_pos hr, if_pos hr]
      have hsh : (r.map some).shape = r.shape := rfl
      rw [hsh]
      by_cases h4 : r.shape.getLast? ≠ some 4
      · rw [if_pos h4, if_pos h4]; exact .error _
      rw [if_neg h4, if_neg h4]
      exact npGradientGaps_same (rotVecsGaps_same (same_refl _) (not_not.mp h4)) ts p
    · rw [if_neg hr, if_neg hr]; exact .error _

/-- What an accepted array looks like. -/
theorem rawAngular_facts {ext : Ext} {r v : ND ℝ} {ts : List ℝ} {p : ℕ} (hp : p < r.ndim) {mode : String} (h : rawAngular ext r ts p mode = .ok v) :
    v.shape = r.shape.dropLast ++ [3] ∧ r.shape.getLast? = some 4 ∧ (r.ndim = 2 → p = 0 → r.shape.dropLast = [ts.length]) := by
  rw [rawAngular] at h
  by_cases hq : mode = "quaternion"
  · rw [if_pos hq] at h
    by_cases h1 : ts.length ≠ r.shape.getD p 0
    · rw [if_pos h1] at h; cases h
    rw [if_neg h1] at h
    cases hacc : ext.derivErr ts with
    | some e => rw [hacc] at h; cases h
    | none =>
      rw [hacc] at h
      simp only at h
      by_cases h4 : r.shape.getLast? ≠ some 4
      · rw [if_pos h4] at h; cases h
      · rw [if_neg h4] at h
        cases h
        refine ⟨rfl, not_not.mp h4, fun h2 h0 => ?_⟩
        obtain ⟨n, k, hs⟩ := shape2 h2
        rw [hs, h0] at h1
        have : ts.length = n := by simpa using h1
        rw [hs, this]; rfl
  · rw [if_neg hq] at h
    by_cases hr : mode = "rotation_vector"
    · rw [if_pos hr] at h
      by_cases h4 : r.shape.getLast? ≠ some 4
      · rw [if_pos h4] at h; cases h
      · rw [if_neg h4] at h
        obtain ⟨hs, q, hq, hql, hn⟩ := npGradient_shape h
        refine ⟨hs, not_not.mp h4, fun h2 h0 => ?_⟩
        obtain ⟨n, k, hsr⟩ := shape2 h2
        have hnd : (rotVecs r).ndim = 2 := by simp [rotVecs, ND.ndim, hsr]
        rw [hnd, h0] at hq
        have hq0 : q = 0 := by simpa [normAxis] using hq.symm
        rw [hq0] at hn
        have : n = ts.length := by simpa [rotVecs, hsr] using hn
        rw [hsr, ← this]; rfl
    · rw [if_neg hr] at h; cases h

theorem estimateAngularGaps_same (ext : Ext) (a : ND ℝ) (ts : List ℝ) (axis ta : ℤ) (mode : String) (o c : Option ℝ) :
    Agree (estimateAngularGaps ext (a.map some) ts axis ta mode o c) (estimateAngular ext a ts axis ta mode o c) := by
  rw [estimateAngularGaps, estimateAngular]
  have hnd0 : (a.map some).ndim = a.ndim := rfl
  rw [hnd0]
  by_cases h2 : a.ndim < 2
  · rw [if_pos h2, if_pos h2]; exact .error _
  rw [if_neg h2, if_neg h2]
  have hax : (angularAxes a.ndim axis ta).1 < a.ndim := by
    show (axis % (a.ndim : ℤ)).toNat < a.ndim
    have h0 := Int.emod_nonneg axis (b := (a.ndim : ℤ)) (by omega)
    have h1 := Int.emod_lt_of_pos axis (b := (a.ndim : ℤ)) (by omega)
    omega
  have hp : (angularAxes a.ndim axis ta).2 < a.ndim := by
    show (if (ta % (a.ndim : ℤ)).toNat + 1 = a.ndim then (axis % (a.ndim : ℤ)).toNat else (ta % (a.ndim : ℤ)).toNat) < a.ndim
    split_ifs
    · exact hax
    · have h0 := Int.emod_nonneg ta (b := (a.ndim : ℤ)) (by omega)
      have h1 := Int.emod_lt_of_pos ta (b := (a.ndim : ℤ)) (by omega)
      omega
  rcases hA : angularAxes a.ndim axis ta with ⟨ax, p⟩
  rw [hA] at hax hp
  simp only at hax hp ⊢
  have hsw : (a.map some).swapaxes ax (a.ndim - 1) = (a.swapaxes ax (a.ndim - 1)).map some := rfl
  rw [hsw]
  have hrn : (a.swapaxes ax (a.ndim - 1)).ndim = a.ndim := by simp [ND.swapaxes, ND.ndim]
  generalize a.swapaxes ax (a.ndim - 1) = r at *
  have h1 := rawAngularGaps_same ext r ts (p := p) (by omega) mode
  cases hg : rawAngular ext r ts p mode with
  | error e =>
    rw [hg] at h1
    generalize rawAngularGaps ext (r.map some) ts p mode = z at h1 ⊢
    cases h1
    exact .error _
  | ok v =>
    rw [hg] at h1
    obtain ⟨f1, f2, f3⟩ := rawAngular_facts (by omega) hg
    have hvn : v.ndim = a.ndim := by
      rw [ND.ndim, f1, List.length_append, List.length_dropLast, List.length_singleton]
      show r.ndim - 1 + 1 = _
      omega
    generalize rawAngularGaps ext (r.map some) ts p mode = z at h1 ⊢
    cases h1 with
    | ok w _ hw =>
      simp only [bind, Except.bind]
      have hout := maybeOutliersGaps_same hw (ts := ts) (d := secondDiffGaps (rotVecsGaps (r.map some))) (e := secondDiff (rotVecs r)) (p := p)
        (fun h2 h0 => by rw [f1, f3 (by omega) h0]; rfl)
        (fun h2 h0 i hi => by
          refine secondDiffGaps_same (rotVecsGaps_same (same_refl _) f2) ?_ ?_
          · rw [← h2, ND.ndim, ND.ndim, f1]; rfl
          · show i + 2 < (r.shape.dropLast ++ [3]).getD 0 0
            rw [f3 (by omega) h0]; exact hi) o
      refine agree_bind hout fun x y _ hy hxy => ?_
      refine agree_bind (maybeFilter_same hxy c) fun x' y' _ hy' hxy' => ?_
      have hyn : y'.ndim = a.ndim := by rw [ND.ndim, maybeFilter_shape hy', maybeOutliers_shape hy]; exact hvn
      have hxn : x'.ndim = a.ndim := by rw [ND.ndim, hxy'.1]; exact hyn
      refine .ok _ _ ?_
      rw [hxn, hyn]
      exact same_swap hxy' (by omega) (by omega)

end RBM
