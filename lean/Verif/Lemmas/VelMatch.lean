import Verif.Lemmas.Match
import Verif.Lemmas.RotateND

namespace RBM

open Spec

theorem Spec.IsSeries.shape {a : ND ℝ} {ts : Option (List ℝ)} (h : IsSeries a ts) : a.shape = seriesShape ts := by
  cases ts with
  | none => exact h
  | some ts => exact h.1

/-- At its own sample times a series has the values of the samples. -/
theorem valueAt_sample {a : ND ℝ} {ts : Option (List ℝ)} (h : IsSeries a ts) {τ : ℝ} {v : Vec} (hv : ValueAt a ts τ v)
    (hτ : ∀ y, ts = some y → τ ∈ y) : SampleAt a ts τ v := by
  cases ts with
  | none => exact hv
  | some ts =>
    obtain ⟨k, x0, x1, y0, y1, h0, h1, g0, g1, hlt, hl, hr, e⟩ := hv
    obtain ⟨hs, h2, hinc⟩ := h
    obtain ⟨m, hm⟩ := List.mem_iff_getElem?.mp (hτ ts rfl)
    obtain ⟨hk, rfl⟩ := List.getElem?_eq_some_iff.mp h0
    obtain ⟨hk1, rfl⟩ := List.getElem?_eq_some_iff.mp h1
    obtain ⟨hm', rfl⟩ := List.getElem?_eq_some_iff.mp hm
    have hmono : ∀ {i j : ℕ} (hi : i < ts.length) (hj : j < ts.length), i < j → ts[i] < ts[j] := fun hi hj hij => List.pairwise_iff_getElem.mp hinc _ _ hi hj hij
    rw [rowsOf_get hs hk] at g0
    rw [rowsOf_get hs hk1] at g1
    cases g0; cases g1
    have hkm : m = k ∨ m = k + 1 := by
      rcases Nat.lt_trichotomy m k with h | h | h
      · exact absurd (hmono hm' hk h) (not_lt.mpr hl)
      · exact .inl h
      · rcases Nat.lt_or_ge (k + 1) m with h' | h'
        · exact absurd (hmono hk1 hm' h') (not_lt.mpr hr)
        · exact .inr (by omega)
    rcases hkm with rfl | rfl
    · exact ⟨m, hm, by rw [e, sub_self, zero_div]; simp⟩
    · refine ⟨k + 1, hm, ?_⟩
      rw [e, div_self (by linarith)]; simp

/-- `_match_arrays` on vector series. -/
theorem matchArrays_values (sq : SquadFn) {l : List MArray} (h : ∀ a ∈ l, IsSeries a.data a.timestamps) :
    ∃ outs ots, matchArrays sq l = .ok (outs, ots) ∧
      ots = sharedStamps (l.map (·.timestamps)) ∧
      List.Forall₂ (fun (a : MArray) (R : ND ℝ) => R.shape = seriesShape ots ∧
        ∀ τ w, SampleAt R ots τ w → ValueAt a.data a.timestamps τ w) l outs := by
  have hfm : (l.map (·.timestamps)).filterMap id = l.filterMap (·.timestamps) := by rw [List.filterMap_map]; rfl
  by_cases hne : l.filterMap (·.timestamps) = []
  · have hn : ∀ a ∈ l, a.timestamps = none := List.filterMap_eq_nil_iff.mp hne
    refine ⟨_, _, matchArrays_static sq hn, by rw [sharedStamps, hfm, hne], ?_⟩
    rw [List.forall₂_map_right_iff, List.forall₂_same]
    intro a ha
    have := h a ha
    rw [hn a ha] at this ⊢
    exact ⟨this, fun τ w hw => hw⟩
  · obtain ⟨outs, o1, o2⟩ := matchArrays_series sq h hne
    refine ⟨outs, _, o1, ?_, o2.imp fun a R hR => ⟨hR.1, ?_⟩⟩
    · obtain ⟨y, ys, e⟩ := List.exists_cons_of_ne_nil hne
      rw [sharedStamps, hfm, matchStamps, e]; rfl
    rintro τ w ⟨k, hk, rfl⟩
    exact hR.2 k τ hk

theorem valid_series {ots : Option (List ℝ)} {idx : List ℕ} (h : Valid (seriesShape ots) idx) :
    (ots = none ∧ ∃ j : Fin 3, idx = [(j : ℕ)]) ∨ ∃ ts, ots = some ts ∧ ∃ k, k < ts.length ∧ ∃ j : Fin 3, idx = [k, (j : ℕ)] := by
  cases ots with
  | none =>
    match idx, h with
    | [j], h => exact .inl ⟨rfl, ⟨j, h.1⟩, rfl⟩
  | some ts =>
    match idx, h with
    | [k, j], h => exact .inr ⟨ts, rfl, k, h.1, ⟨j, h.2.1⟩, rfl⟩

/-- Elementwise operation on two series with the same timestamps. -/
theorem bop_series {a b : ND ℝ} {ots : Option (List ℝ)} (ha : a.shape = seriesShape ots) (hb : b.shape = seriesShape ots) :
    ∃ c, ND.bop (fun x y => x + y) a b = .ok c ∧ c.shape = seriesShape ots ∧
      ∀ τ w, SampleAt c ots τ w → ∃ u v, SampleAt a ots τ u ∧ SampleAt b ots τ v ∧ w = u + v := by
  have hbc : Bcast a.shape b.shape := by rw [ha, hb]; exact Bcast.refl _
  have hg : ∀ idx, Valid (seriesShape ots) idx → a.bget idx + b.bget idx = a.get idx + b.get idx := fun idx hv => by
    rw [bget_valid a (by rw [ha]; exact hv), bget_valid b (by rw [hb]; exact hv)]
  refine ⟨_, bop_left _ a b hbc, hb, fun τ w hw => ?_⟩
  cases ots with
  | none =>
    refine ⟨_, _, rfl, rfl, ?_⟩
    rw [show w = _ from hw]
    ext i
    fin_cases i
    · exact hg [0] ⟨by omega, trivial⟩
    · exact hg [1] ⟨by omega, trivial⟩
    · exact hg [2] ⟨by omega, trivial⟩
  | some ts =>
    obtain ⟨k, hk, rfl⟩ := hw
    have hkl := (List.getElem?_eq_some_iff.mp hk).1
    refine ⟨_, _, ⟨k, hk, rfl⟩, ⟨k, hk, rfl⟩, ?_⟩
    ext i
    fin_cases i
    · exact hg [k, 0] ⟨hkl, by omega, trivial⟩
    · exact hg [k, 1] ⟨hkl, by omega, trivial⟩
    · exact hg [k, 2] ⟨hkl, by omega, trivial⟩

theorem iadd_series {a b : ND ℝ} {ots : Option (List ℝ)} (ha : a.shape = seriesShape ots) (hb : b.shape = seriesShape ots) :
    ∃ c, ND.iadd a b = .ok c ∧ c.shape = seriesShape ots ∧
      ∀ τ w, SampleAt c ots τ w → ∃ u v, SampleAt a ots τ u ∧ SampleAt b ots τ v ∧ w = u + v := by
  obtain ⟨c, c1, c2, c3⟩ := bop_series ha hb
  exact ⟨c, by rw [ND.iadd, c1]; simp only; rw [if_pos (c2.trans ha.symm)], c2, c3⟩

theorem bshape_self (l : List ℕ) : ND.bshape l l = some l := bshape_left (Bcast.refl l)

theorem moveL_last {l : List ℕ} {p : ℕ} (h : p < l.length) : moveL p p l = l := by
  apply list_ext_getD
  · rw [moveL, List.length_insertIdx, List.length_eraseIdx_of_lt h]; split <;> omega
  · intro j hj
    rw [moveL]
    have := List.insertIdx_eraseIdx_getElem h
    rw [getD_eq h, this]

/-- Cross product along the last axis of two arrays of the same shape. -/
theorem npCross_same {a b : ND ℝ} {sh : List ℕ} (ha : a.shape = sh ++ [3]) (hb : b.shape = sh ++ [3]) :
    ∃ c, npCross a b (-1) = .ok c ∧ c.shape = sh ++ [3] ∧ ∀ i, Valid sh i → ∀ j : Fin 3,
      c.get (i ++ [(j : ℕ)]) = Spec.cross (fun k => a.get (i ++ [(k : ℕ)])) (fun k => b.get (i ++ [(k : ℕ)])) j := by
  have hbd : b.ndim = sh.length + 1 := by simp [ND.ndim, hb]
  have had : a.ndim = sh.length + 1 := by simp [ND.ndim, ha]
  have hn : normAxis (-1) (sh.length + 1) = some sh.length := by
    have : AxisIs (-1) (sh.length + 1) sh.length := ⟨by omega, .inr (by push_cast; ring)⟩
    exact axisIs_norm this
  have hms : ∀ x : ND ℝ, x.shape = sh ++ [3] → (x.moveaxis sh.length sh.length).shape = sh ++ [3] := fun x hx => by
    show moveL _ _ _ = _
    rw [moveL_last (by simp [hx]), hx]
  have hmg : ∀ (x : ND ℝ) (i : List ℕ) (j : ℕ), i.length = sh.length → (x.moveaxis sh.length sh.length).get (i ++ [j]) = x.get (i ++ [j]) := fun x i j hi => by
    show x.get (moveL _ _ _) = _
    rw [moveL_last (by simp [hi])]
  have hmb := hms b hb
  have hcl : ∃ c, crossLast a (b.moveaxis sh.length sh.length) = .ok c ∧ c.shape = sh ++ [3] ∧ ∀ i, Valid sh i → ∀ j : Fin 3,
      c.get (i ++ [(j : ℕ)]) = Spec.cross (fun k => a.get (i ++ [(k : ℕ)])) (fun k => b.get (i ++ [(k : ℕ)])) j := by
    refine ⟨?w, ?h1, ?h2, ?h3⟩
    case h1 =>
      simp only [crossLast, ha, hmb]
      rw [if_pos (by simp)]
      simp only [List.dropLast_concat, bshape_self]
      rfl
    case h2 => rfl
    case h3 =>
      intro i hi j
      have hil := hi.length
      have hd : (b.moveaxis sh.length sh.length).ndim = sh.length + 1 := by simp [ND.ndim, hmb]
      simp only [List.dropLast_concat, List.getLast?_concat, Option.getD_some, had, hd, Nat.add_sub_cancel, hil, Nat.sub_self, List.drop_zero,
        bidx_valid hi, hmg b i _ hil]
      have hj : Fin.ofNat 3 (j : ℕ) = j := by fin_cases j <;> rfl
      rw [hj]
      fin_cases j <;> simp [Spec.cross, cross_apply]
  obtain ⟨c, c1, c2, c3⟩ := hcl
  refine ⟨c.moveaxis sh.length sh.length, ?_, hms c c2, fun i hi j => by rw [hmg c i j hi.length]; exact c3 i hi j⟩
  have hcd : c.ndim = sh.length + 1 := by simp [ND.ndim, c2]
  simp only [npCross, hbd, hn, Nat.add_sub_cancel, c1, hcd]

/-- `np.cross` of two series with the same timestamps. -/
theorem cross_series {a b : ND ℝ} {ots : Option (List ℝ)} (ha : a.shape = seriesShape ots) (hb : b.shape = seriesShape ots) :
    ∃ c, npCross a b (-1) = .ok c ∧ c.shape = seriesShape ots ∧
      ∀ τ w, SampleAt c ots τ w → ∃ u v, SampleAt a ots τ u ∧ SampleAt b ots τ v ∧ w = Spec.cross u v := by
  cases ots with
  | none =>
    obtain ⟨c, c1, c2, c3⟩ := npCross_same (sh := []) ha hb
    refine ⟨c, c1, c2, fun τ w hw => ⟨_, _, rfl, rfl, ?_⟩⟩
    rw [show w = _ from hw]
    have := c3 [] trivial
    ext j
    fin_cases j
    · exact this 0
    · exact this 1
    · exact this 2
  | some ts =>
    obtain ⟨c, c1, c2, c3⟩ := npCross_same (sh := [ts.length]) ha hb
    refine ⟨c, c1, c2, ?_⟩
    rintro τ w ⟨k, hk, rfl⟩
    refine ⟨_, _, ⟨k, hk, rfl⟩, ⟨k, hk, rfl⟩, ?_⟩
    have := c3 [k] ⟨(List.getElem?_eq_some_iff.mp hk).1, trivial⟩
    ext j
    fin_cases j
    · exact this 0
    · exact this 1
    · exact this 2

end RBM
