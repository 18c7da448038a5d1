import Verif.Spec.Plumbing
import Verif.Props.Coords
import Verif.Props.Axes

/-!
Argument handling (C44, C55, C56, C57).
-/

namespace RBM.Props

open RBM Spec

/-! ### C55 -/

theorem axisIs_resolve {a : ℤ} {n p : ℕ} (h : AxisIs a n p) : (if a < 0 then (n : ℤ) + a else a) = p := by
  rcases h.2 with h' | h'
  · rw [h', if_neg (by omega)]
  · have := h.1; rw [h', if_pos (by omega)]; omega

theorem not_axis {a : ℤ} {n : ℕ} (h : ∀ p, ¬ AxisIs a n p) :
    (if a < 0 then (n : ℤ) + a else a) < 0 ∨ (if a < 0 then (n : ℤ) + a else a) ≥ n := by
  by_contra hc
  push Not at hc
  split at hc
  · exact h ((n : ℤ) + a).toNat ⟨by omega, .inr (by omega)⟩
  · exact h a.toNat ⟨by omega, .inl (by omega)⟩

/-- An integer axis resolves to the position it denotes in numpy, or raises `IndexError`. -/
theorem C55_int (a : ℤ) (n : ℕ) :
    (∀ p, AxisIs a n p → resolveAxis (.int a) n = .ok (.int p)) ∧
    ((∀ p, ¬ AxisIs a n p) → resolveAxis (.int a) n = .error .indexError) := by
  have e : resolveAxis (.int a) n = if (if a < 0 then (n : ℤ) + a else a) < 0 ∨ (if a < 0 then (n : ℤ) + a else a) ≥ n
      then .error .indexError else .ok (.int (if a < 0 then (n : ℤ) + a else a)) := by
    by_cases h : a < 0 <;> simp only [resolveAxis, h, if_true, if_false]
  constructor
  · intro p h
    rw [e, axisIs_resolve h]
    have := h.1
    rw [if_neg (by omega)]
  · intro h
    rw [e, if_pos (not_axis h)]

/-- A tuple resolves elementwise, or raises `IndexError` if one entry is out of range. -/
theorem C55_tuple (l : List ℤ) (n : ℕ) :
    (∀ ps : List ℕ, List.Forall₂ (fun a p => AxisIs a n p) l ps → resolveAxis (.tuple l) n = .ok (.tuple (ps.map fun (p : ℕ) => (p : ℤ)))) ∧
    ((∃ a ∈ l, ∀ p, ¬ AxisIs a n p) → resolveAxis (.tuple l) n = .error .indexError) := by
  constructor
  · intro ps h
    have e : l.map (fun a => if a < 0 then (n : ℤ) + a else a) = ps.map fun (p : ℕ) => (p : ℤ) := by
      induction h with
      | nil => rfl
      | cons h _ ih => simp only [List.map_cons, ih, axisIs_resolve h]
    have hb : ∀ p ∈ ps, p < n := by
      clear e
      induction h with
      | nil => simp
      | cons h _ ih => intro p hp; rcases List.mem_cons.mp hp with rfl | hp; exacts [h.1, ih p hp]
    simp only [resolveAxis, e]
    rw [if_neg]
    rw [Bool.not_eq_true, List.any_eq_false]
    intro x hx
    obtain ⟨p, hp, rfl⟩ := List.mem_map.mp hx
    have := hb p hp
    simp only [decide_eq_true_eq]; omega
  · rintro ⟨a, ha, h⟩
    simp only [resolveAxis]
    rw [if_pos]
    rw [List.any_eq_true]
    exact ⟨_, List.mem_map.mpr ⟨a, ha, rfl⟩, by simpa only [decide_eq_true_eq] using not_axis h⟩

/-- `None` means all axes. -/
theorem C55_none (n : ℕ) : resolveAxis .none n = .ok (.tuple ((List.range n).map fun (p : ℕ) => (p : ℤ))) := by
  refine if_neg ?_
  rw [Bool.not_eq_true, List.any_eq_false]
  intro x hx
  obtain ⟨p, hp, rfl⟩ := List.mem_map.mp hx
  have := List.mem_range.mp hp
  simp only [decide_eq_true_eq]; omega

example : resolveAxis (.tuple [-1, 0, 2]) 3 = .ok (.tuple [2, 0, 2]) :=
  (C55_tuple [-1, 0, 2] 3).1 [2, 0, 2] (.cons (by simp [AxisIs]) (.cons (by simp [AxisIs]) (.cons (by simp [AxisIs]) .nil)))

/-! ### C56 -/

/-- Plain arrays pass through; `None` and 0 mean the last axis (for the time axis: the first). -/
theorem C56_plain (a : ND ℝ) (axis ta : Option ℤ) :
    maybeUnpack (.nd a) none axis ta .none =
      .ok ⟨a, orDefault axis (-1), none, some (orDefault ta 0), none, .none, none⟩ := rfl

/-- With timestamps, the two axes must be different positions of the array. -/
theorem C56_plain_timed (a : ND ℝ) (axis ta : Option ℤ) (ts : ND ℝ) {p q : ℕ} (hp : AxisIs (orDefault axis (-1)) a.ndim p)
    (hq : AxisIs (orDefault ta 0) a.ndim q) :
    (p ≠ q → maybeUnpack (.nd a) none axis ta (.arr ts) =
      .ok ⟨a, orDefault axis (-1), none, some (orDefault ta 0), none, .arr ts, none⟩) ∧
    (p = q → maybeUnpack (.nd a) none axis ta (.arr ts) = .error .valueError) := by
  have hn : ¬ a.ndim = 0 := by have := hp.1; omega
  have hmod : ∀ {x : ℤ} {r : ℕ}, AxisIs x a.ndim r → x % a.ndim = r := by
    intro x r h
    have hr := h.1
    rcases h.2 with h' | h'
    · rw [h']; exact Int.emod_eq_of_lt (by omega) (by omega)
    · rw [h', show ((r : ℤ) - a.ndim) = r + a.ndim * (-1) by ring, Int.add_mul_emod_self_left]
      exact Int.emod_eq_of_lt (by omega) (by omega)
  constructor
  · intro hne
    simp only [maybeUnpack, checkAxes, if_neg hn, hmod hp, hmod hq]
    rw [if_neg (by omega)]
  · intro he
    simp only [maybeUnpack, checkAxes, if_neg hn, hmod hp, hmod hq, he, if_true]

/-- `dim` makes sense for DataArrays only. -/
theorem C56_plain_dim (a : ND ℝ) (dim : String) (axis ta : Option ℤ) (ts : TsArg) :
    maybeUnpack (.nd a) (some dim) axis ta ts = .error .valueError := rfl

theorem idxOf_of_dimAt {d : DArr} (h : DArr.Ok d) {dim : String} {p : ℕ} (hd : DimAt d dim p) :
    dim ∈ d.info.dims ∧ d.info.dims.idxOf dim = p ∧ p < d.data.ndim := by
  obtain ⟨hp, e⟩ := List.getElem?_eq_some_iff.mp hd
  refine ⟨e ▸ List.getElem_mem hp, ?_, by rw [← h.ndim]; exact hp⟩
  rw [← e]; exact h.nodup.idxOf_getElem p hp

theorem dimAt_inj {d : DArr} (h : DArr.Ok d) {dim : String} {p q : ℕ} (hp : DimAt d dim p) (hq : DimAt d dim q) : p = q := by
  rw [← (idxOf_of_dimAt h hp).2.1, (idxOf_of_dimAt h hq).2.1]

theorem unpackAxis_dim {d : DArr} (h : DArr.Ok d) {dim : String} {p : ℕ} (hd : DimAt d dim p) :
    unpackAxis d (some dim) none = .ok ((p : ℤ), dim) := by
  obtain ⟨h1, h2, h3⟩ := idxOf_of_dimAt h hd
  simp only [unpackAxis, tupleIndex, h1, if_true, h2, bind, Except.bind, Pure.pure, Except.pure]

theorem unpackAxis_axis {d : DArr} (h : DArr.Ok d) {axis : Option ℤ} {dim : String} {p : ℕ}
    (hax : AxisIs (orDefault axis (-1)) d.data.ndim p) (hd : DimAt d dim p) :
    unpackAxis d none axis = .ok (orDefault axis (-1), dim) := by
  have hg : d.info.dims.getD p "" = dim := by rw [List.getD_eq_getElem?_getD, hd]; rfl
  simp only [unpackAxis, tupleGet, h.ndim, axisIs_norm hax, hg, bind, Except.bind, Pure.pure, Except.pure]

theorem unpackTime_name {d : DArr} (h : DArr.Ok d) {td : String} {q : ℕ} (hd : DimAt d td q) (ta : Option ℤ) {t : ND ℝ}
    (ht : d.dimCoord td = .ok t) : unpackTime d ta (.name td) = .ok (some (q : ℤ), some td, .arr t) := by
  obtain ⟨h1, h2, h3⟩ := idxOf_of_dimAt h hd
  simp only [unpackTime, tupleIndex, h1, if_true, h2, bind, Except.bind, ht, Pure.pure, Except.pure]

theorem unpackTime_default {d : DArr} (h : DArr.Ok d) {ta : Option ℤ} {td : String} {q : ℕ} (hn : 1 < d.data.ndim)
    (hq : AxisIs (orDefault ta 0) d.data.ndim q) (hd : DimAt d td q) {t : ND ℝ} (ht : d.dimCoord td = .ok t) :
    unpackTime d ta .none = .ok (some (orDefault ta 0), some td, .arr t) := by
  have hg : d.info.dims.getD q "" = td := by rw [List.getD_eq_getElem?_getD, hd]; rfl
  simp only [unpackTime, gt_iff_lt, hn, if_true, tupleGet, h.ndim, axisIs_norm hq, hg, bind, Except.bind, ht, Pure.pure, Except.pure]

theorem checkAxes_ok {u : Unpacked} {ta : ℤ} {t : ND ℝ} (hts : u.ts = .arr t) (hta : u.timeAxis = some ta) {p q : ℕ}
    (hp : AxisIs u.axis u.arr.ndim p) (hq : AxisIs ta u.arr.ndim q) (hne : p ≠ q) : checkAxes u = .ok u := by
  have hn : ¬ u.arr.ndim = 0 := by have := hp.1; omega
  have hmod : ∀ {x : ℤ} {r : ℕ}, AxisIs x u.arr.ndim r → x % u.arr.ndim = r := by
    intro x r h
    have hr := h.1
    rcases h.2 with h' | h'
    · rw [h']; exact Int.emod_eq_of_lt (by omega) (by omega)
    · rw [h', show ((r : ℤ) - u.arr.ndim) = r + u.arr.ndim * (-1) by ring, Int.add_mul_emod_self_left]
      exact Int.emod_eq_of_lt (by omega) (by omega)
  simp only [checkAxes, hts, if_neg hn, hta, hmod hp, hmod hq]
  rw [if_neg (by omega)]

theorem checkAxes_err {u : Unpacked} {ta : ℤ} {t : ND ℝ} (hts : u.ts = .arr t) (hta : u.timeAxis = some ta) {p : ℕ}
    (hp : AxisIs u.axis u.arr.ndim p) (hq : AxisIs ta u.arr.ndim p) : checkAxes u = .error .valueError := by
  have hn : ¬ u.arr.ndim = 0 := by have := hp.1; omega
  have hmod : ∀ {x : ℤ} {r : ℕ}, AxisIs x u.arr.ndim r → x % u.arr.ndim = r := by
    intro x r h
    have hr := h.1
    rcases h.2 with h' | h'
    · rw [h']; exact Int.emod_eq_of_lt (by omega) (by omega)
    · rw [h', show ((r : ℤ) - u.arr.ndim) = r + u.arr.ndim * (-1) by ring, Int.add_mul_emod_self_left]
      exact Int.emod_eq_of_lt (by omega) (by omega)
  simp only [checkAxes, hts, if_neg hn, hta, hmod hp, hmod hq, if_true]

theorem axisIs_nat {p n : ℕ} (h : p < n) : AxisIs (p : ℤ) n p := ⟨h, .inl rfl⟩

/-- A DataArray with named dimensions: the spatial axis is the position of `dim`, the time axis the
position of `timestamps`, the timestamps are the values of that coordinate; data and metadata are
those of the array. -/
theorem C56_dims {d : DArr} (h : DArr.Ok d) {dim td : String} {p q : ℕ} (hp : DimAt d dim p) (hq : DimAt d td q) (hne : dim ≠ td)
    {t : ND ℝ} (ht : d.dimCoord td = .ok t) (ta : Option ℤ) :
    maybeUnpack (.da d) (some dim) none ta (.name td) =
      .ok ⟨d.data, (p : ℤ), some dim, some (q : ℤ), some td, .arr t, some d.info⟩ := by
  have h1 := (idxOf_of_dimAt h hp).2.2
  have h2 := (idxOf_of_dimAt h hq).2.2
  have hpq : p ≠ q := by rintro rfl; rw [DimAt] at hp hq; rw [hp] at hq; exact hne (Option.some.inj hq)
  simp only [maybeUnpack, unpackAxis_dim h hp, unpackTime_name h hq ta ht, bind, Except.bind]
  exact checkAxes_ok (u := ⟨d.data, (p : ℤ), some dim, some (q : ℤ), some td, .arr t, some d.info⟩) rfl rfl (axisIs_nat h1) (axisIs_nat h2) hpq

/-- Without names: the spatial axis is `axis` (the last one if `None` or 0), time is the axis
`time_axis` (the first one by default). -/
theorem C56_axes {d : DArr} (h : DArr.Ok d) {axis ta : Option ℤ} {dim td : String} {p q : ℕ} (hn : 1 < d.data.ndim)
    (hax : AxisIs (orDefault axis (-1)) d.data.ndim p) (hp : DimAt d dim p)
    (hta : AxisIs (orDefault ta 0) d.data.ndim q) (hq : DimAt d td q) (hpq : p ≠ q)
    {t : ND ℝ} (ht : d.dimCoord td = .ok t) :
    maybeUnpack (.da d) none axis ta .none =
      .ok ⟨d.data, orDefault axis (-1), some dim, some (orDefault ta 0), some td, .arr t, some d.info⟩ := by
  simp only [maybeUnpack, unpackAxis_axis h hax hp, unpackTime_default h hn hta hq ht, bind, Except.bind]
  exact checkAxes_ok (u := ⟨d.data, orDefault axis (-1), some dim, some (orDefault ta 0), some td, .arr t, some d.info⟩) rfl rfl hax hta hpq

/-- The entries of a one dimensional array in order. -/
theorem dimCoord_none {d : DArr} (h : DArr.Ok d) {td : String} {q : ℕ} (hq : DimAt d td q) (hc : dictGet d.info.coords td = none) :
    ∃ t, d.dimCoord td = .ok t ∧ t.shape = [d.data.shape.getD q 0] ∧ ∀ i : ℕ, t.get [i] = i := by
  refine ⟨⟨[d.data.shape.getD q 0], fun idx => ((idx.getD 0 0 : ℕ) : ℝ)⟩, ?_, rfl, fun i => rfl⟩
  simp only [DArr.dimCoord, hc, (idxOf_of_dimAt h hq).2.1]

/-- A time dimension without a coordinate: the timestamps are `0, 1, 2, …`, one per sample. A coordinate of labels is refused. -/
theorem C56_no_coordinate {d : DArr} (h : DArr.Ok d) {dim td : String} {p q : ℕ} (hp : DimAt d dim p) (hq : DimAt d td q) (hne : dim ≠ td) (ta : Option ℤ) :
    (dictGet d.info.coords td = none → ∃ t, maybeUnpack (.da d) (some dim) none ta (.name td) =
        .ok ⟨d.data, (p : ℤ), some dim, some (q : ℤ), some td, .arr t, some d.info⟩ ∧ t.shape = [d.data.shape.getD q 0] ∧ ∀ i : ℕ, t.get [i] = i) ∧
    (∀ ds l, dictGet d.info.coords td = some ⟨ds, .lab l⟩ → maybeUnpack (.da d) (some dim) none ta (.name td) = .error .typeError) := by
  refine ⟨fun hc => ?_, fun ds l hc => ?_⟩
  · obtain ⟨t, h1, h2, h3⟩ := dimCoord_none h hq hc
    exact ⟨t, C56_dims h hp hq hne h1 ta, h2, h3⟩
  · have hm : td ∈ d.info.dims := List.mem_of_getElem? hq
    simp only [maybeUnpack, unpackAxis_dim h hp, unpackTime, tupleIndex, if_pos hm, DArr.dimCoord, hc, bind, Except.bind]

/-- One dimensional DataArrays and `timestamps=False`: no timestamps. -/
theorem C56_untimed {d : DArr} (h : DArr.Ok d) {dim : String} {p : ℕ} (hp : DimAt d dim p) (ta : Option ℤ) {ts : TsArg}
    (hts : ts = .no ∨ (ts = .none ∧ d.data.ndim ≤ 1)) :
    maybeUnpack (.da d) (some dim) none ta ts = .ok ⟨d.data, (p : ℤ), some dim, ta, none, .none, some d.info⟩ := by
  have e : unpackTime d ta ts = .ok (ta, none, .none) := by
    rcases hts with rfl | ⟨rfl, h1⟩
    · rfl
    · simp only [unpackTime]; rw [if_neg (by omega)]
  simp only [maybeUnpack, unpackAxis_dim h hp, e, bind, Except.bind, checkAxes]

/-- Contradictory arguments are refused. -/
theorem C56_contradictory {d : DArr} (h : DArr.Ok d) (ta : Option ℤ) :
    (∀ dim axis ts, maybeUnpack (.da d) (some dim) (some axis) ta ts = .error .valueError) ∧
    (∀ dim ts, dim ∉ d.info.dims → maybeUnpack (.da d) (some dim) none ta ts = .error .valueError) ∧
    (∀ dim td, dim ∈ d.info.dims → td ∉ d.info.dims → maybeUnpack (.da d) (some dim) none ta (.name td) = .error .valueError) ∧
    (∀ dim t, dim ∈ d.info.dims → d.dimCoord dim = .ok t → maybeUnpack (.da d) (some dim) none ta (.name dim) = .error .valueError) ∧
    (∀ dim t, dim ∈ d.info.dims → maybeUnpack (.da d) (some dim) none ta (.arr t) = .error .notImplementedError) := by
  have hat : ∀ {dim}, dim ∈ d.info.dims → ∃ p, DimAt d dim p := fun hm => by
    obtain ⟨p, hp, e⟩ := List.getElem_of_mem hm; exact ⟨p, by rw [DimAt, List.getElem?_eq_getElem hp, e]⟩
  refine ⟨fun dim axis ts => rfl, fun dim ts hm => ?_, fun dim td hm ht => ?_, fun dim t hm ht => ?_, fun dim t hm => ?_⟩
  · simp only [maybeUnpack, unpackAxis, tupleIndex, hm, if_false, bind, Except.bind]
  · obtain ⟨p, hp⟩ := hat hm
    simp only [maybeUnpack, unpackAxis_dim h hp, unpackTime, tupleIndex, ht, if_false, bind, Except.bind]
  · obtain ⟨p, hp⟩ := hat hm
    have h1 := (idxOf_of_dimAt h hp).2.2
    simp only [maybeUnpack, unpackAxis_dim h hp, unpackTime_name h hp ta ht, bind, Except.bind]
    exact checkAxes_err (u := ⟨d.data, (p : ℤ), some dim, some (p : ℤ), some dim, .arr t, some d.info⟩) rfl rfl (axisIs_nat h1) (axisIs_nat h1)
  · obtain ⟨p, hp⟩ := hat hm
    simp only [maybeUnpack, unpackAxis_dim h hp, unpackTime, bind, Except.bind]

/-- `axis=0` is not honoured: it is treated like a missing axis, both for plain arrays and DataArrays. -/
theorem C56_axis_zero (arr : PyArr) (ta : Option ℤ) (ts : TsArg) :
    maybeUnpack arr none (some 0) ta ts = maybeUnpack arr none none ta ts := by
  cases arr <;> rfl

/-! ### C57 -/

theorem unpack_da {d : DArr} {dim : Option String} {axis ta : Option ℤ} {ts : TsArg} {u : Unpacked}
    (h : maybeUnpack (.da d) dim axis ta ts = .ok u) :
    u.arr = d.data ∧ u.info = some d.info ∧ ∀ td, u.timeDim = some td → td ∈ d.info.dims := by
  simp only [maybeUnpack, bind, Except.bind] at h
  have hc : ∀ {v w : Unpacked}, checkAxes v = .ok w → w = v := by
    intro v w hv
    simp only [checkAxes] at hv
    split at hv
    · exact (Except.ok.inj hv).symm
    · split at hv
      · cases hv
      · split at hv
        · cases hv
        · split at hv
          · cases hv
          · exact (Except.ok.inj hv).symm
  cases h1 : unpackAxis d dim axis with
  | error e => rw [h1] at h; cases h
  | ok v =>
    rw [h1] at h
    simp only at h
    cases h2 : unpackTime d ta ts with
    | error e => rw [h2] at h; cases h
    | ok w =>
      rw [h2] at h
      simp only at h
      have := hc h
      subst this
      refine ⟨rfl, rfl, fun td htd => ?_⟩
      simp only at htd
      have hget : ∀ {k : ℤ} {n : String}, tupleGet d.info.dims k = .ok n → n ∈ d.info.dims := by
        intro k n hk
        simp only [tupleGet] at hk
        split at hk
        · rename_i i hi
          have := normAxis_lt hi
          have e := (Except.ok.inj hk).symm
          rw [e, List.getD_eq_getElem?_getD, List.getElem?_eq_getElem this]
          exact List.getElem_mem this
        · cases hk
      cases ts with
      | none =>
        simp only [unpackTime] at h2
        split at h2
        · simp only [bind, Except.bind] at h2
          cases h3 : tupleGet d.info.dims (orDefault ta 0) with
          | error e => rw [h3] at h2; cases h2
          | ok n =>
            rw [h3] at h2
            simp only at h2
            cases h4 : d.dimCoord n with
            | error e => rw [h4] at h2; cases h2
            | ok t =>
              rw [h4] at h2
              cases h2
              cases htd
              exact hget h3
        · cases h2; cases htd
      | name n =>
        simp only [unpackTime, bind, Except.bind, tupleIndex] at h2
        by_cases hn : n ∈ d.info.dims
        · simp only [hn, if_true] at h2
          cases h4 : d.dimCoord n with
          | error e => rw [h4] at h2; cases h2
          | ok t =>
            rw [h4] at h2
            cases h2
            cases htd
            exact hn
        · simp only [hn, if_false] at h2; cases h2
      | no => cases h2; cases htd
      | arr t => cases h2

theorem mkDArr_ok {arr : ND ℝ} {m : Meta} {d : DArr} (h : mkDArr arr m = .ok d) : d = ⟨arr, m⟩ := by
  simp only [mkDArr] at h
  split at h
  · cases h
  · split at h
    · exact (Except.ok.inj h).symm
    · cases h

theorem vec1_entries (l : List ℝ) : (ND.vec1 l).entries = l := by
  apply List.ext_getElem
  · simp [ND.entries, ND.vec1]
  · intro i h1 h2; simp [ND.entries, ND.vec1, h2]

theorem mem_of_dictGet {α : Type} {l : List (String × α)} {k : String} {c : α} (h : dictGet l k = some c) : (k, c) ∈ l := by
  unfold dictGet at h
  induction l with
  | nil => simp at h
  | cons a l ih =>
    obtain ⟨k', v⟩ := a
    by_cases e : k = k'
    · subst e; simp at h; simp [h]
    · have : (k == k') = false := by simpa using e
      rw [List.lookup_cons, this] at h
      exact List.mem_cons_of_mem _ (ih h)


theorem entries_get {a : ND ℝ} {l : List ℝ} {n : ℕ} (hs : a.shape = [n]) (h : a.entries = l) :
    a.shape = [l.length] ∧ ∀ i (hi : i < l.length), a.get [i] = l[i] := by
  subst h
  constructor
  · simp [ND.entries, hs]
  · intro i hi; simp [ND.entries]

theorem resample_lookup (x : XrOps) (td : String) (ts : List ℝ) (k : String) : ∀ (coords : List (String × Coord)),
    (∀ c ∈ coords, c.1 = k → td ∉ c.2.dims) →
    dictGet (resampleCoords x td ts coords) k = dictGet coords k
  | [], _ => rfl
  | (n, c) :: coords, h => by
    have ih := resample_lookup x td ts k coords fun c hc => h c (List.mem_cons_of_mem _ hc)
    simp only [dictGet, resampleCoords, List.map_cons] at ih ⊢
    by_cases hk : k = n
    · subst hk
      have := h (k, c) List.mem_cons_self rfl
      simp [this]
    · split
      · simp only [List.lookup, beq_eq_false_iff_ne.mpr hk, ih]
      · simp only [List.lookup, beq_eq_false_iff_ne.mpr hk, ih]

/-- What a transform of a DataArray returns, whenever it returns: a DataArray around the result of
the method, with the same name; the attribute `what` and the representation frame are the target
frame, other attributes are kept. If there is a time dimension, the dimensions are those of the
input in the same order, its coordinate are the timestamps returned by the method, and coordinates
that do not depend on time (as the spatial one) are kept. Otherwise all coordinates and dimensions
are kept, preceded by a new time dimension if the method returned timestamps. -/
theorem C57_result (x : XrOps) (s : State) (method : MethodFn) (what : String) {d : DArr} (hd : DArr.Ok d) (into : FrameRef)
    (o : TopArgs) {r : TopRet} (h : transformTop x s method what (.da d) into o = .ok r) :
    ∃ (out : DArr) (u : Unpacked) (src dst : ℕ) (arr : ND ℝ) (ts : Option (List ℝ)), r = .da out ∧
      maybeUnpack (.da d) o.dim o.axis o.timeAxis o.timestamps = .ok u ∧ s.resolve into = .ok dst ∧
      method what src d.data (.byObj dst) ⟨u.axis, u.timeAxis, u.ts.toND, true⟩ = .ok (.withTs arr ts) ∧
      out.data = arr ∧ out.info.name = d.info.name ∧
      Attr out what (s.name dst) ∧ Attr out "representation_frame" (s.name dst) ∧
      (∀ k, k ≠ what → k ≠ "representation_frame" → dictGet out.info.attrs k = dictGet d.info.attrs k) ∧
      (∀ td, u.timeDim = some td → ∃ ts', ts = some ts' ∧ out.info.dims = d.info.dims ∧ HasStamps out td ts' ∧
        ∀ k, k ≠ td → (∀ c ∈ d.info.coords, c.1 = k → td ∉ c.2.dims) → dictGet out.info.coords k = dictGet d.info.coords k) ∧
      (u.timeDim = none → (ts = none → out.info.dims = d.info.dims ∧ out.info.coords = d.info.coords) ∧
        ∀ ts', ts = some ts' → out.info.dims = "time" :: d.info.dims ∧ HasStamps out "time" ts' ∧
          ∀ k, k ≠ "time" → dictGet out.info.coords k = dictGet d.info.coords k) := by
  simp only [transformTop, bind, Except.bind] at h
  cases h1 : maybeUnpack (.da d) o.dim o.axis o.timeAxis o.timestamps with
  | error e => rw [h1] at h; cases h
  | ok u =>
    rw [h1] at h
    simp only at h
    obtain ⟨ua, ui, ut⟩ := unpack_da h1
    cases h2 : resolveOutof s o.outof u.info what with
    | error e => rw [h2] at h; cases h
    | ok src =>
      rw [h2] at h
      simp only at h
      cases h3 : s.resolve into with
      | error e => rw [h3] at h; cases h
      | ok dst =>
        rw [h3] at h
        simp only [ua, ui] at h
        cases h4 : method what src d.data (.byObj dst) ⟨u.axis, u.timeAxis, u.ts.toND, true⟩ with
        | error e => rw [h4] at h; cases h
        | ok pr =>
          rw [h4] at h
          simp only at h
          cases pr with
          | single a => cases h
          | withTs arr ts =>
            simp only [packResult, Option.map_some, bind, Except.bind] at h
            set m : Meta := { d.info with
              attrs := dictSet (dictSet d.info.attrs what (s.name dst)) "representation_frame" (s.name dst) } with hm
            cases h5 : makeDataArray x arr m u.timeDim ts with
            | error e => rw [h5] at h; cases h
            | ok out =>
              rw [h5] at h
              have hr := (Except.ok.inj h).symm
              have hattr : ∀ a : List (String × Option String), a = m.attrs →
                  dictGet a what = some (s.name dst) ∧ dictGet a "representation_frame" = some (s.name dst) ∧
                  ∀ k, k ≠ what → k ≠ "representation_frame" → dictGet a k = dictGet d.info.attrs k := by
                rintro a rfl
                simp only [hm, dictGet_set]
                refine ⟨by split_ifs <;> rfl, by simp, fun k k1 k2 => ?_⟩
                rw [if_neg (Ne.symm k2), if_neg (Ne.symm k1)]
              refine ⟨out, u, src, dst, arr, ts, hr, rfl, rfl, h4, ?_⟩
              cases htd : u.timeDim with
              | none =>
                rw [htd] at h5
                cases ts with
                | none =>
                  have e := mkDArr_ok h5
                  subst e
                  obtain ⟨a1, a2, a3⟩ := hattr m.attrs rfl
                  exact ⟨rfl, rfl, a1, a2, a3, fun td hx => by simp at hx, fun _ => ⟨fun _ => ⟨rfl, rfl⟩, fun ts' hx => by simp at hx⟩⟩
                | some ts =>
                  have e := mkDArr_ok h5
                  subst e
                  obtain ⟨a1, a2, a3⟩ := hattr m.attrs rfl
                  refine ⟨rfl, rfl, a1, a2, a3, fun td hx => by simp at hx, fun _ => ⟨fun hx => by simp at hx, fun ts' hx => ?_⟩⟩
                  cases hx
                  refine ⟨rfl, ⟨_, _, by simp only [dictGet_set, if_true]; rfl, rfl, rfl, rfl, fun i hi => by simp [ND.vec1, hi]⟩, fun k hk => ?_⟩
                  simp only [dictGet_set, if_neg (Ne.symm hk)]
                  rfl
              | some td =>
                have htdm := ut td htd
                rw [htd] at h5
                simp only [makeDataArray] at h5
                cases hc : dictGet m.coords td with
                | none => rw [hc] at h5; cases h5
                | some c =>
                  rw [hc] at h5
                  cases ts with
                  | none => cases h5
                  | some ts =>
                    simp only at h5
                    cases hv : c.vals with
                    | lab l => rw [hv] at h5; cases h5
                    | num old =>
                      rw [hv] at h5
                      simp only at h5
                      split at h5
                      · rename_i hold
                        have e := mkDArr_ok h5
                        subst e
                        obtain ⟨a1, a2, a3⟩ := hattr m.attrs rfl
                        refine ⟨rfl, rfl, a1, a2, a3, fun td' hx => ?_, fun hx => by simp at hx⟩
                        cases hx
                        have hdims := hd.index td c hc htdm
                        have hshape : ∃ n, old.shape = [n] := by
                          have hmem : ∃ k, (k, c) ∈ d.info.coords := by
                            have : d.info.coords.lookup td = some c := hc
                            exact ⟨td, mem_of_dictGet this⟩
                          obtain ⟨k, hk⟩ := hmem
                          have := hd.coordShape _ hk
                          simp only [hv, CVals.shape, hdims, List.map_cons, List.map_nil] at this
                          exact ⟨_, this⟩
                        obtain ⟨n, hn⟩ := hshape
                        obtain ⟨e1, e2⟩ := entries_get hn hold
                        exact ⟨ts, rfl, rfl, ⟨c, old, hc, hdims, hv, e1, e2⟩, fun k _ _ => rfl⟩
                      · have e := mkDArr_ok h5
                        subst e
                        obtain ⟨a1, a2, a3⟩ := hattr m.attrs rfl
                        refine ⟨rfl, rfl, a1, a2, a3, fun td' hx => ?_, fun hx => by simp at hx⟩
                        cases hx
                        refine ⟨ts, rfl, rfl, ⟨_, _, by simp only [dictGet_set, if_true]; rfl, rfl, rfl, rfl, fun i hi => by simp [ND.vec1, hi]⟩, fun k hk hkc => ?_⟩
                        simp only [dictGet_set, if_neg (Ne.symm hk)]
                        exact resample_lookup x td ts k _ hkc

example : resolveAxis (.int (-1)) 3 = .ok (.int 2) ∧ resolveAxis (.int 3) 3 = .error .indexError :=
  ⟨(C55_int (-1) 3).1 2 ⟨by norm_num, .inr (by norm_num)⟩, (C55_int 3 3).2 (by rintro p ⟨h1, h2 | h2⟩ <;> omega)⟩

end RBM.Props
