import Verif.Lemmas.AxisSame
import Verif.Lemmas.UnitsArr

/-!
Transforms of arrays with axes counted from the front or from the back.
-/

namespace RBM

open Spec

/-- The time axis argument: missing, or two numbers for the same axis. -/
def SameTime (n : ℕ) : Option ℤ → Option ℤ → Prop
  | none, none => True
  | some i, some j => normAxis i n = normAxis j n
  | _, _ => False

theorem validateInput_same {arr : ND ℝ} {i j : ℤ} {k : ℕ} {ts : Option (ND ℝ)} {ta tb : Option ℤ} (h : normAxis i arr.ndim = normAxis j arr.ndim)
    (ht : SameTime arr.ndim ta tb) : validateInput arr i k ts ta = validateInput arr j k ts tb := by
  simp only [validateInput]
  rw [pyShape_same h]
  refine bind_same fun k' _ => ?_
  split_ifs
  · rfl
  · cases ts with
    | none => rfl
    | some ts =>
      simp only
      cases ta with
      | none =>
        cases tb with
        | none => rfl
        | some tb => exact ht.elim
      | some ta =>
        cases tb with
        | none => exact ht.elim
        | some tb =>
          have ht' : normAxis ta arr.ndim = normAxis tb arr.ndim := ht
          simp only
          rw [pyShape_same ht', swapaxesZ_same rfl ht']

theorem validateInput_facts {arr w : ND ℝ} {i : ℤ} {k : ℕ} {ts : Option (ND ℝ)} {ta : Option ℤ} {l : Option (List ℝ)}
    (h : validateInput arr i k ts ta = .ok (w, l)) : w.ndim = arr.ndim ∧ (ts = none ↔ l = none) := by
  simp only [validateInput, bind] at h
  obtain ⟨k', _, h⟩ := bind_ok' h
  split_ifs at h
  · cases h
  cases ts with
  | none => cases h; exact ⟨rfl, by simp⟩
  | some ts =>
    simp only at h
    split at h
    · cases ta with
      | none => cases h
      | some ta =>
        simp only at h
        obtain ⟨k2, _, h⟩ := bind_ok' h
        split_ifs at h
        · cases h
        obtain ⟨w', hw, h⟩ := bind_ok' h
        cases h
        exact ⟨swapaxesZ_ndim hw, by simp⟩
    · cases h

theorem resample_ndim {sq : SquadFn} {arr w : ND ℝ} {ats : List ℝ} {ts : List ℝ} (h2 : 2 ≤ arr.ndim) (h : resampleArray sq ⟨arr, some ats⟩ (some ts) = .ok w)
    (hne : arr.ndim = 2 ∨ (ts ≠ [] ∧ ∀ rest, arr.shape ≠ 0 :: rest)) : w.ndim = arr.ndim := by
  simp only [resampleArray] at h
  cases hs : arr.shape with
  | nil => rw [hs] at h; cases h
  | cons n rest =>
    have hl : arr.ndim = rest.length + 1 := by simp [ND.ndim, hs]
    rw [hs] at h
    simp only at h
    by_cases h4 : (n :: rest).getLast? = some 4
    · rw [if_pos h4] at h
      cases hq : asQuatArray arr with
      | error e => rw [hq] at h; cases h
      | ok q =>
        rw [hq] at h
        simp only at h
        by_cases h0 : n = 0 ∨ ts = []
        · rw [if_pos h0] at h
          cases h
          rcases hne with e | ⟨e1, e2⟩
          · rw [e]; rfl
          · rcases h0 with rfl | h0
            · exact absurd hs (e2 rest)
            · exact absurd h0 e1
        · rw [if_neg h0] at h
          split_ifs at h
          cases h
          have : 1 ≤ rest.length := by omega
          simp only [asFloatArray, ND.ndim, List.length_append, List.length_cons, List.length_dropLast, List.length_nil, hs]
          omega
    · rw [if_neg h4] at h
      split_ifs at h
      cases hc : collect (ts.map (interpLoc ats)) with
      | error e => rw [hc] at h; cases h
      | ok locs =>
        rw [hc] at h
        cases h
        simp [ND.ndim, hs]

theorem firstStamps_nil {ls : List (List ℝ)} (h : [] ∈ ls) : ∃ e, firstStamps ls = .error e := by
  induction ls with
  | nil => simp at h
  | cons l ls ih =>
    cases l with
    | nil => exact ⟨_, rfl⟩
    | cons x l =>
      obtain ⟨e, he⟩ := ih (by simpa using h)
      exact ⟨e, by simp [firstStamps, he]⟩

theorem addArray_length {a : ℕ} {s : State} {dst : FrameRef} {arr : ND ℝ} {ats : List ℝ} {m : Matcher} {rest : List ℕ} {n : ℕ} (hs : arr.shape = n :: rest)
    (h : s.getMatcher a dst [⟨arr, some ats⟩] = .ok m) : ats.length = n := by
  simp only [State.getMatcher, bind] at h
  obtain ⟨⟨up, down⟩, _, h⟩ := bind_ok' h
  obtain ⟨m1, _, h⟩ := bind_ok' h
  obtain ⟨m2, _, h⟩ := bind_ok' h
  simp only [addArrays, Matcher.addArray, hs] at h
  cases hc : checkTimestamps (some ats) n with
  | error e => rw [hc] at h; cases h
  | ok u =>
    simp only [checkTimestamps] at hc
    split_ifs at hc with _ h2
    push Not at h2
    exact h2

/-- The matched array has as many dimensions as the array, unless it is repeated for the timestamps of the transform, or nothing is left of it. -/
theorem core_ndim {sq : SquadFn} {s : State} {a : ℕ} {dst : FrameRef} {arr w : ND ℝ} {l : Option (List ℝ)} {m : Matcher} {t : Arr Vec} {r : Arr Quat}
    {ts : Option (List ℝ)} (hm : s.getMatcher a dst [⟨arr, l⟩] = .ok m) (ht : m.getTransformation sq = .ok (t, r, ts)) (hw : m.getArray1 sq ts = .ok w)
    (h0 : l = none → ts = none) (h1 : l ≠ none → 2 ≤ arr.ndim ∧ (arr.ndim = 2 ∨ ts ≠ some [])) : w.ndim = arr.ndim := by
  have ha := getMatcher_arrays hm
  have hts : m.getTimestamps = .ok ts := by
    simp only [Matcher.getTransformation, bind] at ht
    obtain ⟨ts', e1, ht⟩ := bind_ok' ht
    obtain ⟨⟨t', r'⟩, _, ht⟩ := bind_ok' ht
    cases ht
    exact e1
  have hres : resampleArray sq ⟨arr, l⟩ ts = .ok w := by
    simp only [Matcher.getArray1, Matcher.getArrays, bind] at hw
    obtain ⟨⟨arrs, ts2⟩, e1, hw⟩ := bind_ok' hw
    have e1 : Except.bind (collect (m.arrays.map fun a => resampleArray sq a ts)) (fun arrs => Pure.pure (arrs, ts)) = Except.ok (arrs, ts2) := by
      cases ts with
      | none => simp only [hts] at e1; exact e1
      | some ts => exact e1
    obtain ⟨as, e3, e1⟩ := bind_ok' e1
    cases e1
    rw [ha] at e3
    simp only [List.map_cons, List.map_nil, collect] at e3
    cases hr : resampleArray sq ⟨arr, l⟩ ts with
    | error e => rw [hr] at e3; cases e3
    | ok w' =>
      rw [hr] at e3
      cases e3
      simp only at hw
      cases hw; rfl
  cases l with
  | none =>
    cases h0 rfl
    simp only [resampleArray, Except.ok.injEq] at hres
    rw [← hres]
  | some ats =>
    obtain ⟨h2, h3⟩ := h1 (by simp)
    cases ts with
    | none => simp [resampleArray] at hres
    | some ts =>
      refine resample_ndim h2 hres ?_
      rcases h3 with h3 | h3
      · exact .inl h3
      refine .inr ⟨fun h => h3 (by rw [h]), fun rest hs => ?_⟩
      have := addArray_length hs hm
      have hnil : ats = [] := List.length_eq_zero_iff.mp this
      obtain ⟨e, he⟩ := firstStamps_nil (ls := m.continuous) (by simp [Matcher.continuous, ha, hnil])
      simp only [Matcher.getTimestamps, Matcher.getRange, he] at hts
      cases hts

/-- The results of a call that keep their dimensions. -/
def KeepsDims (arr : ND ℝ) (o : TArgs) (ts : Option (List ℝ)) : Prop :=
  (o.timestamps = none → ts = none) ∧ (o.timestamps ≠ none → 2 ≤ arr.ndim ∧ (arr.ndim = 2 ∨ ts ≠ some []))

section
variable {sq : SquadFn} {s : State} {a : ℕ} {arr : ND ℝ} {dst : FrameRef} {o : TArgs} {i : ℤ} {tb : Option ℤ}

theorem undo_same {w : ND ℝ} (h : w.ndim = arr.ndim) {ta : Option ℤ} (ht : SameTime arr.ndim ta tb) : undoTimeSwap w ta = undoTimeSwap w tb := by
  cases ta <;> cases tb
  · rfl
  · exact ht.elim
  · exact ht.elim
  · exact swapaxesZ_same rfl (by rw [h]; exact ht)

theorem keeps {k : ℕ} {w0 w : ND ℝ} {l : Option (List ℝ)} {m : Matcher} {t : Arr Vec} {r : Arr Quat} {ts : Option (List ℝ)}
    (hv : validateInput arr o.axis k o.timestamps o.timeAxis = .ok (w0, l)) (hm : s.getMatcher a dst [⟨w0, l⟩] = .ok m)
    (ht : m.getTransformation sq = .ok (t, r, ts)) (hw : m.getArray1 sq ts = .ok w) (hk : KeepsDims arr o ts) : w.ndim = arr.ndim := by
  obtain ⟨v1, v2⟩ := validateInput_facts hv
  rw [← v1]
  refine core_ndim hm ht hw (fun h => hk.1 (v2.mpr h)) fun h => ?_
  rw [v1]
  exact hk.2 fun h' => h (v2.mp h')

theorem transformVectors_same (h : normAxis o.axis arr.ndim = normAxis i arr.ndim) (ht : SameTime arr.ndim o.timeAxis tb) {out : ND ℝ} {ts : Option (List ℝ)}
    (hk : KeepsDims arr o ts) (hr : s.transformVectors sq a arr dst { o with returnTimestamps := true } = .ok (.withTs out ts)) (b : Bool) :
    s.transformVectors sq a arr dst { o with axis := i, timeAxis := tb, returnTimestamps := b } = .ok (pyReturn b out ts) := by
  simp only [State.transformVectors, State.transformVectorsCore, bind] at hr ⊢
  obtain ⟨⟨R, ts'⟩, hr, hr'⟩ := bind_ok' hr
  obtain ⟨⟨w0, l⟩, hv, hr⟩ := bind_ok' hr
  obtain ⟨m, hm, hr⟩ := bind_ok' hr
  obtain ⟨⟨t, r, ts1⟩, hg, hr⟩ := bind_ok' hr
  obtain ⟨w, hw, hr⟩ := bind_ok' hr
  obtain ⟨R', hR, hr⟩ := bind_ok' hr
  cases hr
  obtain ⟨U, hU, hr'⟩ := bind_ok' hr'
  cases hr'
  have hn := keeps hv hm hg hw hk
  rw [← validateInput_same h ht, hv]
  simp only [Except.bind, hm, hg, hw]
  rw [rotateVectorsF_same (i := i) (j := o.axis) (l := -1) (by rw [hn, h]) rfl, hR]
  simp only [Pure.pure, Except.pure]
  rw [← undo_same (by rw [rotateVectorsF_ndim hR, hn]) ht, hU]

theorem expand_ndim (x : ND ℝ) {n : ℕ} (hx : x.ndim ≤ 2) (hn : 2 ≤ n) : (expandSingletonAxes x n).ndim ≤ n := by
  simp only [expandSingletonAxes]
  split_ifs with h1
  · have key : ∀ k (x : ND ℝ), 2 ≤ x.ndim → ((ND.expandDims1)^[k] x).ndim = x.ndim + k := by
      intro k
      induction k with
      | zero => intro x _; rfl
      | succ k ih =>
        intro x hx
        have e1 : x.expandDims1.ndim = x.ndim + 1 := by
          simp only [ND.expandDims1, ND.ndim] at *
          rw [List.length_insertIdx_of_le_length (by omega)]
        rw [Function.iterate_succ_apply, ih _ (by omega), e1]; omega
    rw [key _ _ (by omega)]
    omega
  · omega

theorem transformPoints_same (h2 : 2 ≤ arr.ndim) (h : normAxis o.axis arr.ndim = normAxis i arr.ndim) (ht : SameTime arr.ndim o.timeAxis tb) {out : ND ℝ}
    {ts : Option (List ℝ)} (hk : KeepsDims arr o ts) (hr : s.transformPoints sq a arr dst { o with returnTimestamps := true } = .ok (.withTs out ts)) (b : Bool) :
    s.transformPoints sq a arr dst { o with axis := i, timeAxis := tb, returnTimestamps := b } = .ok (pyReturn b out ts) := by
  simp only [State.transformPoints, State.transformPointsCore, bind] at hr ⊢
  obtain ⟨⟨R, ts'⟩, hr, hr'⟩ := bind_ok' hr
  obtain ⟨⟨w0, l⟩, hv, hr⟩ := bind_ok' hr
  obtain ⟨m, hm, hr⟩ := bind_ok' hr
  obtain ⟨⟨t, r, ts1⟩, hg, hr⟩ := bind_ok' hr
  obtain ⟨w, hw, hr⟩ := bind_ok' hr
  obtain ⟨R', hR, hr⟩ := bind_ok' hr
  obtain ⟨S, hS, hr⟩ := bind_ok' hr
  cases hr
  obtain ⟨U, hU, hr'⟩ := bind_ok' hr'
  cases hr'
  have hn := keeps hv hm hg hw hk
  rw [← validateInput_same h ht, hv]
  simp only [Except.bind, hm, hg, hw]
  rw [rotateVectorsF_same (i := i) (j := o.axis) (l := -1) (by rw [hn, h]) rfl, hR]
  simp only [Pure.pure, Except.pure, hS]
  have hSn : R.ndim = arr.ndim := by
    rw [bop_ndim hS, rotateVectorsF_ndim hR, hn]
    refine max_eq_left (expand_ndim _ ?_ h2)
    cases t <;> simp [ND.ndim, ND.ofVecs]
  rw [← undo_same hSn ht, hU]

theorem asQuatArray_ndim {x : ND ℝ} {q : ND Quat} (h : asQuatArray x = .ok q) : q.ndim + 1 = x.ndim := by
  simp only [asQuatArray] at h
  split at h
  · rename_i e
    cases h
    have : x.shape ≠ [] := by intro h0; rw [h0] at e; simp at e
    have := List.length_pos_of_ne_nil this
    simp only [ND.ndim, List.length_dropLast]
    omega
  · cases h

theorem transformQuaternions_same (h2 : 2 ≤ arr.ndim) (h : normAxis o.axis arr.ndim = normAxis i arr.ndim) (ht : SameTime arr.ndim o.timeAxis tb) {out : ND ℝ}
    {ts : Option (List ℝ)} (hk : KeepsDims arr o ts) (hr : s.transformQuaternions sq a arr dst { o with returnTimestamps := true } = .ok (.withTs out ts)) (b : Bool) :
    s.transformQuaternions sq a arr dst { o with axis := i, timeAxis := tb, returnTimestamps := b } = .ok (pyReturn b out ts) := by
  simp only [State.transformQuaternions, State.transformQuaternionsCore, bind] at hr ⊢
  obtain ⟨⟨R, ts'⟩, hr, hr'⟩ := bind_ok' hr
  obtain ⟨⟨w0, l⟩, hv, hr⟩ := bind_ok' hr
  obtain ⟨m, hm, hr⟩ := bind_ok' hr
  obtain ⟨⟨t, r, ts1⟩, hg, hr⟩ := bind_ok' hr
  obtain ⟨w, hw, hr⟩ := bind_ok' hr
  obtain ⟨w', hw', hr⟩ := bind_ok' hr
  obtain ⟨rq, hrq, hr⟩ := bind_ok' hr
  obtain ⟨aq, haq, hr⟩ := bind_ok' hr
  obtain ⟨pr, hpr, hr⟩ := bind_ok' hr
  obtain ⟨S, hS, hr⟩ := bind_ok' hr
  cases hr
  obtain ⟨U, hU, hr'⟩ := bind_ok' hr'
  cases hr'
  have hn := keeps hv hm hg hw hk
  have hpn : (asFloatArray pr).ndim = arr.ndim := by
    have e1 := swapaxesZ_ndim hw'
    have e2 := asQuatArray_ndim hrq
    have e3 := asQuatArray_ndim haq
    have e4 := bop_ndim hpr
    have e5 : (expandSingletonAxes (ND.ofQuats r) w.ndim).ndim ≤ w.ndim := by
      refine expand_ndim _ ?_ (by omega)
      cases r <;> simp [ND.ndim, ND.ofQuats]
    show (pr.shape ++ [4]).length = _
    have : pr.shape.length = pr.ndim := rfl
    rw [List.length_append, this, List.length_singleton, e4]
    have hle : rq.ndim ≤ aq.ndim := by
      simp only at e2
      omega
    rw [max_eq_right hle]
    omega
  rw [← validateInput_same h ht, hv]
  simp only [Except.bind, hm, hg, hw]
  rw [swapaxesZ_same (i := i) (i' := o.axis) (j' := -1) (by rw [hn, h]) rfl, hw']
  simp only [hrq, haq, hpr]
  rw [swapaxesZ_same (i := -1) (i' := -1) (j := i) (j' := o.axis) rfl (by rw [hpn, h]), hS]
  simp only [Pure.pure, Except.pure]
  rw [← undo_same (by rw [swapaxesZ_ndim hS, hpn]) ht, hU]

/-- Timestamped arrays with two axes: the same outcome, errors included. -/
theorem transformVectors_eq (h2 : arr.ndim = 2) (hts : o.timestamps ≠ none) (h : normAxis o.axis arr.ndim = normAxis i arr.ndim)
    (ht : SameTime arr.ndim o.timeAxis tb) :
    s.transformVectors sq a arr dst { o with axis := i, timeAxis := tb } = s.transformVectors sq a arr dst o := by
  simp only [State.transformVectors, State.transformVectorsCore, bind]
  rw [validateInput_same h ht]
  have hk : ∀ ts, KeepsDims arr o ts := fun ts => ⟨fun h => absurd h hts, fun _ => ⟨by omega, .inl h2⟩⟩
  cases hv : validateInput arr i 3 o.timestamps tb with
  | error e => rfl
  | ok p =>
    obtain ⟨w0, l⟩ := p
    simp only [Except.bind]
    cases hm : s.getMatcher a dst [⟨w0, l⟩] with
    | error e => rfl
    | ok m =>
      simp only
      cases hg : m.getTransformation sq with
      | error e => rfl
      | ok p =>
        obtain ⟨t, r, ts⟩ := p
        simp only
        cases hw : m.getArray1 sq ts with
        | error e => rfl
        | ok w =>
          simp only
          have hv' := hv
          rw [← validateInput_same h ht] at hv'
          have hn := keeps hv' hm hg hw (hk ts)
          rw [rotateVectorsF_same (i := i) (j := o.axis) (l := -1) (by rw [hn, h]) rfl]
          cases hR : rotateVectorsF (expandSingletonAxes (ND.ofQuats r) w.ndim) w o.axis with
          | error e => rfl
          | ok R =>
            simp only [Pure.pure, Except.pure]
            rw [← undo_same (by rw [rotateVectorsF_ndim hR, hn]) ht]

end

end RBM
