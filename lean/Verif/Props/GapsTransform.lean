import Verif.Lemmas.GapsCore
import Verif.Props.Transform
import Verif.Lemmas.AxisSame

/-!
Transforming arrays with missing (NaN) entries (C96).
-/

namespace RBM.Props

open RBM RBM.Spec

theorem undoGaps_noSwap {R : ND (Option ℝ)} {ta : Option ℤ} (h : NoSwap ta R.ndim) :
    ∃ out, undoTimeSwapGaps R ta = .ok out ∧ out.shape = R.shape ∧ ∀ idx, idx.length = R.ndim → out.get idx = R.get idx := by
  cases ta with
  | none => exact ⟨R, rfl, rfl, fun _ _ => rfl⟩
  | some t =>
    have hz := h t rfl
    have h0 := hz.1
    refine ⟨R.swapaxes 0 0, ?_, ?_, ?_⟩
    · simp only [undoTimeSwapGaps, ND.swapaxesZ, normAxis_zero h0, axisIs_norm hz]
    · exact swapL_self h0
    · intro idx hi
      simp only [ND.swapaxes]
      rw [swapL_self (by rw [hi]; exact h0)]

theorem returnGaps_eq (b : Bool) (out : ND (Option ℝ)) (ts : Option (List ℝ)) :
    (if !b then (return .single out : Res PyRetGaps) else return .withTs out ts) = .ok (returnedGaps b out ts) := by
  cases b <;> rfl

/-- The matcher of a static path has no timestamps. -/
theorem getArray1Gaps_static {sq : SquadFn} {m : Matcher} {t : Arr Vec} {r : Arr Quat}
    (h : m.getTransformation sq = .ok (t, r, none)) (v : ND (Option ℝ)) : m.getArray1Gaps sq v none none = .ok v := by
  simp only [Matcher.getTransformation, bind] at h
  obtain ⟨ts, h1, h⟩ := bind_ok' h
  obtain ⟨p, -, h⟩ := bind_ok' h
  simp only [Pure.pure, Except.pure, Except.ok.injEq, Prod.mk.injEq] at h
  obtain ⟨-, -, rfl⟩ := h
  simp only [Matcher.getArray1Gaps, bind, h1, Except.bind, resampleArrayGaps]

/-- `transform_vectors` of an array with missing entries on a path of static frames: a vector with a missing
coordinate is missing in all coordinates of the result, every other vector is rotated as if nothing were missing. -/
theorem C96_vectors_static (sq : SquadFn) {s : State} {h : List Event} (hr : Reachable s h) {a b : ℕ}
    (ha : a < s.size) (hb : b < s.size) (hp : PathAll s a b (FrameOk false s)) (v : ND (Option ℝ)) (o : TArgs) {p : ℕ}
    (hax : AxisIs o.axis v.ndim p) (h3 : v.shape.getD p 0 = 3) (hts : o.timestamps = none)
    (hta : NoSwap o.timeAxis v.ndim) :
    ∃ A out, (∀ τ, IsTransformAt sq s a b τ A) ∧
      s.transformVectorsGaps sq a v (.byObj b) o = .ok (returnedGaps o.returnTimestamps out none) ∧
      out.shape = v.shape ∧ ∀ idx, Valid v.shape idx →
        (VecMissing v p idx → VecGone out p idx) ∧ ∀ w, VecIs v p idx w → VecIs out p idx (rot A.r w) := by
  obtain ⟨A, m, h1, h2, h4, h5, -, -⟩ := core_static sq hr.wf ha hb hp v.fill
  have h6 := getArray1Gaps_static h5 v
  obtain ⟨R, r1, r2, r3⟩ := rotateFGaps_one A.r h2 v.ndim v (axisIs_norm hax) h3
  obtain ⟨out, o1, o2, o3⟩ := undoGaps_noSwap (R := R) (ta := o.timeAxis) (by simpa [ND.ndim, r2] using hta)
  refine ⟨A, out, h1, ?_, o2.trans r2, ?_⟩
  · simp only [State.transformVectorsGaps, hts, validateInputGaps_static hax h3,
      bind, Except.bind, h4, h5, h6, r1, o1]
    exact returnGaps_eq _ _ _
  · intro idx hv
    have hl : p < idx.length := by rw [hv.length]; exact hax.1
    have hent : ∀ c : Fin 3, out.get (idx.set p c) = rotNan A.r (v.vecAtGaps p idx) c := by
      intro c
      rw [o3 _ (by simp [hv.length, ND.ndim, r2]), r3, vecAtGaps_set, ofNat_set hl]
    obtain ⟨g1, g2⟩ := gone_of_rot hent
    exact ⟨fun hm => g1 (vecMissing_at.mp hm), fun w hw => g2 w (vecIs_at.mp hw)⟩

/-- `transform_points` of an array with missing entries on a path of static frames (coordinates along the last axis). -/
theorem C96_points_static (sq : SquadFn) {s : State} {h : List Event} (hr : Reachable s h) {a b : ℕ}
    (ha : a < s.size) (hb : b < s.size) (hp : PathAll s a b (FrameOk false s)) (v : ND (Option ℝ)) (o : TArgs) {p : ℕ}
    (hax : AxisIs o.axis v.ndim p) (hlast : p + 1 = v.ndim) (h3 : v.shape.getD p 0 = 3) (hts : o.timestamps = none)
    (hta : NoSwap o.timeAxis v.ndim) :
    ∃ A out, (∀ τ, IsTransformAt sq s a b τ A) ∧
      s.transformPointsGaps sq a v (.byObj b) o = .ok (returnedGaps o.returnTimestamps out none) ∧
      out.shape = v.shape ∧ ∀ idx, Valid v.shape idx →
        (VecMissing v p idx → VecGone out p idx) ∧ ∀ w, VecIs v p idx w → VecIs out p idx (A.act w) := by
  obtain ⟨A, m, h1, h2, h4, h5, -, -⟩ := core_static sq hr.wf ha hb hp v.fill
  have h6 := getArray1Gaps_static h5 v
  obtain ⟨R, r1, r2, r3⟩ := rotateFGaps_one A.r h2 v.ndim v (axisIs_norm hax) h3
  have hsplit := split_last hlast h3
  obtain ⟨S, s1, s2, s3⟩ := addGaps_one_vec R (r2.trans hsplit) A.t
  obtain ⟨out, o1, o2, o3⟩ := undoGaps_noSwap (R := S) (ta := o.timeAxis) (by simpa [ND.ndim, s2, r2] using hta)
  have eone : expandSingletonAxes (ND.ofVecs (.one A.t)) v.ndim = ND.ofVecs (.one A.t) := by
    simp [expandSingletonAxes, ND.ndim, ND.ofVecs]
  refine ⟨A, out, h1, ?_, o2.trans (s2.trans r2), ?_⟩
  · simp only [State.transformPointsGaps, hts, validateInputGaps_static hax h3,
      bind, Except.bind, h4, h5, h6, r1, eone, s1, o1]
    exact returnGaps_eq _ _ _
  · intro idx hv
    have hl : p < idx.length := by rw [hv.length]; exact hax.1
    have hlen := hv.length
    have hent : ∀ c : Fin 3, R.get (idx.set p c) = rotNan A.r (v.vecAtGaps p idx) c := by
      intro c
      rw [r3, vecAtGaps_set, ofNat_set hl]
    have hadd : ∀ c : Fin 3, out.get (idx.set p c) = (R.get (idx.set p c)).map fun x => x + A.t c := by
      intro c
      rw [o3 _ (by simp [hlen, ND.ndim, s2, r2])]
      have hv' := hv
      rw [hsplit] at hv'
      obtain ⟨i, k, rfl, hi, hk⟩ := valid_snoc hv'
      have hil : i.length = p := by rw [hi.length]; simp only [ND.ndim] at hlast; simp; omega
      have e1 : (i ++ [k]).set p c.val = i ++ [c.val] := by
        rw [← hil, List.set_append_right _ _ (le_refl _)]; simp
      rw [e1, s3 i c hi c.2]
      simp
    obtain ⟨g1, g2⟩ := gone_of_rot hent
    refine ⟨fun hm c hc => ?_, fun w hw c => ?_⟩
    · have := hadd ⟨c, hc⟩
      rw [g1 (vecMissing_at.mp hm) c hc] at this
      simpa using this
    · rw [hadd c, g2 w (vecIs_at.mp hw) c]
      rfl

theorem vecGone_swap {X Y : ND (Option ℝ)} {d q p : ℕ} (h : ∀ y, y.length = d → X.get y = Y.get (swapL 0 q y))
    {idx : List ℕ} (hl : idx.length = d) (hq : q < d) (hp : p < d) (hp0 : p ≠ 0) (hpq : p ≠ q) (i c : ℕ) :
    X.get ((idx.set q i).set p c) = Y.get ((i :: (swapL 0 q idx).tail).set p c) := by
  rw [h _ (by simpa), swap_set_space (by simp; omega) (by simp; omega) hp0 hpq, swap_set_time (by omega)]

/-- `transform_vectors` of a timestamped array with missing entries: the result at the timestamp of sample `k` is missing
if sample `k` or the sample before it (for the first sample: the second one) has a missing coordinate, and is the
rotated sample `k` otherwise. -/
theorem C96_vectors_timed (sq : SquadFn) (hsq : SquadLaw sq) {s : State} {h : List Event} (hr : Reachable s h)
    {a b : ℕ} (ha : a < s.size) (hb : b < s.size) (hp : PathAll s a b (FrameOk true s)) {l : List ℕ}
    (hl : Route s a b l) (v : ND (Option ℝ)) (o : TArgs) {p q : ℕ} {ta : ℤ} {ats : List ℝ}
    (hax : AxisIs o.axis v.ndim p) (h3 : v.shape.getD p 0 = 3) (hta : o.timeAxis = some ta)
    (hq : AxisIs ta v.ndim q) (hts : o.timestamps = some (ofList ats)) (hlen : v.shape.getD q 0 = ats.length)
    (htwo : 2 ≤ ats.length) (hinc : StrictlyIncreasing ats)
    (hp0 : p ≠ 0) (hpq : p ≠ q) (h4 : p + 1 = v.ndim ∨ 4 ∉ v.shape) :
    ∃ out, s.transformVectorsGaps sq a v (.byObj b) o =
        .ok (returnedGaps o.returnTimestamps out (some (outStamps s l ats))) ∧
      out.shape = v.shape.set q (outStamps s l ats).length ∧
      ∀ (i k : ℕ) τ, (outStamps s l ats)[i]? = some τ → ats[k]? = some τ →
        ∃ A, IsTransformAt sq s a b τ A ∧ ∀ idx, Valid v.shape idx →
          ((VecMissing v p (idx.set q k) ∨ VecMissing v p (idx.set q (before k))) → VecGone out p (idx.set q i)) ∧
          ∀ w, VecIs v p (idx.set q k) w → ¬ VecMissing v p (idx.set q (before k)) →
            VecIs out p (idx.set q i) (rot A.r w) := by
  have htd : TimedArray v.fill q ats := ⟨hq.1, hlen, htwo, hinc⟩
  obtain ⟨rest, hsh, hrl, hback⟩ := swapShape htd
  have hwd : (v.swapaxes 0 q).ndim = v.ndim := by simp [ND.ndim, ND.swapaxes]
  obtain ⟨fs, T, t, r, w', R, e1, e2, e3, e4, e5, e6, hT, ht, hR⟩ := vectorsCoreGaps_timed sq hsq hr.wf ha hb hp hl
    (v.swapaxes 0 q) (rest := rest) (ats := ats) hsh htd.two htd.sorted (axis := o.axis) (p := p) (by rw [hwd]; exact hax) hp0
    (by show (swapL 0 q v.shape).getD p 0 = 3; rw [swap_getD_other hq.1 hp0 hpq]; exact h3)
    (swapped_last (v := v.fill) hq.1 hp0 hpq (by norm_num) h3 h4)
  set ts := outStamps s l ats with hts'
  change (∀ τ ∈ ts, _) at hT
  change R.shape = ts.length :: rest at e6
  have hRd : R.ndim = v.ndim := by
    have : rest.length + 1 = v.ndim := hrl
    simp only [ND.ndim, e6, List.length_cons] at this ⊢; omega
  have hun : undoTimeSwapGaps R (some ta) = .ok (R.swapaxes 0 q) := by
    simp only [undoTimeSwapGaps, ND.swapaxesZ, hRd, axisIs_norm hq, normAxis_zero (show 0 < v.ndim by have := hq.1; omega)]
  refine ⟨R.swapaxes 0 q, ?_, ?_, ?_⟩
  · have hv := validateInputGaps_timed hax h3 hq hlen
    simp only [State.transformVectorsGaps, hts, hta, hv, bind, Except.bind, e1, e2, e3, e4, hun]
    exact returnGaps_eq _ _ _
  · simp only [ND.swapaxes, e6]; rw [hback]; rfl
  · intro i k τ hi hk
    refine ⟨T τ, (hT τ (List.mem_of_getElem? hi)).1, fun idx hv => ?_⟩
    have hvt := valid_swap_tail htd hsh (idx := idx) hv
    obtain ⟨g1, g2⟩ := hR i k τ _ hi hk hvt
    have hvl : idx.length = v.ndim := hv.length
    have eo := fun i c => vecGone_swap (X := R.swapaxes 0 q) (Y := R) (d := v.ndim) (fun y hy => rfl) hvl hq.1 hax.1 hp0 hpq i c
    have ei := fun i c => vecGone_swap (X := v) (Y := v.swapaxes 0 q) (d := v.ndim) (fun y hy => by
        simp only [ND.swapaxes]; rw [swapL_swapL (by rw [hy]; have := hq.1; omega) (by rw [hy]; exact hq.1)])
        hvl hq.1 hax.1 hp0 hpq i c
    have em : ∀ j, VecMissing v p (idx.set q j) ↔ VecMissing (v.swapaxes 0 q) p (j :: (swapL 0 q idx).tail) := by
      intro j; simp only [VecMissing, ei]
    constructor
    · intro hm c hc
      rw [eo]
      exact g1 (by rcases hm with hm | hm; exacts [.inl ((em _).mp hm), .inr ((em _).mp hm)]) c hc
    · intro w hw hn c
      rw [eo]
      exact g2 w (fun c => by rw [← ei]; exact hw c) (fun hm => hn ((em _).mpr hm)) c

/-- `transform_points` of a timestamped array with missing entries (coordinates along the last axis). -/
theorem C96_points_timed (sq : SquadFn) (hsq : SquadLaw sq) {s : State} {h : List Event} (hr : Reachable s h)
    {a b : ℕ} (ha : a < s.size) (hb : b < s.size) (hp : PathAll s a b (FrameOk true s)) {l : List ℕ}
    (hl : Route s a b l) (v : ND (Option ℝ)) (o : TArgs) {p q : ℕ} {ta : ℤ} {ats : List ℝ}
    (hax : AxisIs o.axis v.ndim p) (h3 : v.shape.getD p 0 = 3) (hta : o.timeAxis = some ta)
    (hq : AxisIs ta v.ndim q) (hts : o.timestamps = some (ofList ats)) (hlen : v.shape.getD q 0 = ats.length)
    (htwo : 2 ≤ ats.length) (hinc : StrictlyIncreasing ats)
    (hp0 : p ≠ 0) (hpq : p ≠ q) (hlast : p + 1 = v.ndim) :
    ∃ out, s.transformPointsGaps sq a v (.byObj b) o =
        .ok (returnedGaps o.returnTimestamps out (some (outStamps s l ats))) ∧
      out.shape = v.shape.set q (outStamps s l ats).length ∧
      ∀ (i k : ℕ) τ, (outStamps s l ats)[i]? = some τ → ats[k]? = some τ →
        ∃ A, IsTransformAt sq s a b τ A ∧ ∀ idx, Valid v.shape idx →
          ((VecMissing v p (idx.set q k) ∨ VecMissing v p (idx.set q (before k))) → VecGone out p (idx.set q i)) ∧
          ∀ w, VecIs v p (idx.set q k) w → ¬ VecMissing v p (idx.set q (before k)) →
            VecIs out p (idx.set q i) (A.act w) := by
  have htd : TimedArray v.fill q ats := ⟨hq.1, hlen, htwo, hinc⟩
  obtain ⟨rest, hsh, hrl, hback⟩ := swapShape htd
  have hrl' : rest.length + 1 = v.ndim := hrl
  have hwd : (v.swapaxes 0 q).ndim = v.ndim := by simp [ND.ndim, ND.swapaxes]
  obtain ⟨fs, T, t, r, w', R, e1, e2, e3, e4, e5, e6, hT, ht, hR⟩ := vectorsCoreGaps_timed sq hsq hr.wf ha hb hp hl
    (v.swapaxes 0 q) (rest := rest) (ats := ats) hsh htd.two htd.sorted (axis := o.axis) (p := p) (by rw [hwd]; exact hax) hp0
    (by show (swapL 0 q v.shape).getD p 0 = 3; rw [swap_getD_other hq.1 hp0 hpq]; exact h3)
    (swapped_last (v := v.fill) hq.1 hp0 hpq (by norm_num) h3 (.inl hlast))
  set ts := outStamps s l ats with hts'
  change (∀ τ ∈ ts, _) at hT
  change (_ = Arr.many (ts.map _) ∨ _) at ht
  change w'.shape = ts.length :: rest at e5
  change R.shape = ts.length :: rest at e6
  obtain ⟨p, rfl⟩ : ∃ p', p = p' + 1 := ⟨p - 1, by omega⟩
  have h3r : rest.getD p 0 = 3 := by
    have := swap_getD_other (x := v.shape) hq.1 hp0 hpq
    have hsh' : swapL 0 q v.shape = ats.length :: rest := hsh
    rw [hsh', h3] at this; simpa using this
  have hsplit := split_last (sh := rest) (p := p) (by omega) h3r
  have hRs : R.shape = ts.length :: (rest.dropLast ++ [3]) := by rw [e6, ← hsplit]
  obtain ⟨tl, rfl, htl⟩ : ∃ tl : List Vec, t = .many tl ∧ (tl.length = ts.length ∨ tl.length = 1) ∧
      ∀ (i : ℕ) τ, ts[i]? = some τ → tl.getD (if tl.length = 1 then 0 else i) 0 = (T τ).t := by
    rcases ht with ht | ⟨ht, h0⟩
    · refine ⟨_, ht, .inl (by simp), ?_⟩
      intro i τ hi
      have hil := (List.getElem?_eq_some_iff.mp hi).1
      have : (if (ts.map fun τ => (T τ).t).length = 1 then 0 else i) = i := by
        split
        · rename_i h1; simp at h1; omega
        · rfl
      rw [this, List.getD_eq_getElem?_getD, List.getElem?_map, hi]; rfl
    · exact ⟨[0], ht, .inr rfl, fun i τ _ => by simp [h0]⟩
  obtain ⟨S, s1, s2, s3⟩ := addGaps_many_vec R hRs tl htl.1
  have hdd : w'.ndim = R.ndim := by simp [ND.ndim, e5, e6]
  have hSd : S.ndim = v.ndim := by
    simp only [ND.ndim, s2, e6, List.length_cons] at hrl' ⊢; omega
  have hun : undoTimeSwapGaps S (some ta) = .ok (S.swapaxes 0 q) := by
    simp only [undoTimeSwapGaps, ND.swapaxesZ, hSd, axisIs_norm hq, normAxis_zero (show 0 < v.ndim by have := hq.1; omega)]
  refine ⟨S.swapaxes 0 q, ?_, ?_, ?_⟩
  · have hv := validateInputGaps_timed hax h3 hq hlen
    rw [← hdd] at s1
    simp only [State.transformPointsGaps, hts, hta, hv, bind, Except.bind, e1, e2, e3, e4, s1, hun]
    exact returnGaps_eq _ _ _
  · simp only [ND.swapaxes, s2, e6]; rw [hback]; rfl
  · intro i k τ hi hk
    refine ⟨T τ, (hT τ (List.mem_of_getElem? hi)).1, fun idx hv => ?_⟩
    have hvt := valid_swap_tail htd hsh (idx := idx) hv
    obtain ⟨g1, g2⟩ := hR i k τ _ hi hk hvt
    have hvl : idx.length = v.ndim := hv.length
    have eo := fun i c => vecGone_swap (X := S.swapaxes 0 q) (Y := S) (d := v.ndim) (fun y hy => rfl) hvl hq.1 hax.1 hp0 hpq i c
    have ei := fun i c => vecGone_swap (X := v) (Y := v.swapaxes 0 q) (d := v.ndim) (fun y hy => by
        simp only [ND.swapaxes]; rw [swapL_swapL (by rw [hy]; have := hq.1; omega) (by rw [hy]; exact hq.1)])
        hvl hq.1 hax.1 hp0 hpq i c
    have em : ∀ j, VecMissing v (p + 1) (idx.set q j) ↔ VecMissing (v.swapaxes 0 q) (p + 1) (j :: (swapL 0 q idx).tail) := by
      intro j; simp only [VecMissing, ei]
    have hadd : ∀ c : Fin 3, S.get ((i :: (swapL 0 q idx).tail).set (p + 1) c) =
        (R.get ((i :: (swapL 0 q idx).tail).set (p + 1) c)).map fun x => x + (T τ).t c := by
      intro c
      have hvt' := hvt
      generalize (swapL 0 q idx).tail = js at hvt' ⊢
      rw [hsplit] at hvt'
      obtain ⟨js, c0, rfl, hj, _⟩ := valid_snoc hvt'
      have hjl : js.length = p := by rw [hj.length]; simp; omega
      have e7 : ∀ c, (i :: (js ++ [c0])).set (p + 1) c = i :: (js ++ [c]) := by
        intro c; rw [List.set_cons_succ, ← hjl, List.set_append_right _ _ (le_refl _)]; simp
      have hil := (List.getElem?_eq_some_iff.mp hi).1
      rw [e7, s3 i js c hil hj c.2, htl.2 i τ hi]
      simp
    constructor
    · intro hm c hc
      rw [eo]
      have := hadd ⟨c, hc⟩
      rw [g1 (by rcases hm with hm | hm; exacts [.inl ((em _).mp hm), .inr ((em _).mp hm)]) c hc] at this
      simpa using this
    · intro w hw hn c
      rw [eo, hadd c, g2 w (fun c => by rw [← ei]; exact hw c) (fun hm => hn ((em _).mpr hm)) c]
      rfl

end RBM.Props
