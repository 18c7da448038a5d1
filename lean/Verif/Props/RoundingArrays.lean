import Verif.Lemmas.RoundingArr
import Verif.Props.TransformQuat
import Verif.Props.Rounding
import Verif.Props.ExamplesLookup

/-!
C86 for timestamped arrays: which samples are returned is decided with exact times, and each sample
keeps its recorded value; only the frames it is transformed with are evaluated at rounded times.
-/

namespace RBM.Props

open RBM RBM.Spec

/-- `transform_vectors` of a timestamped array whose timestamps stay different when rounded. -/
theorem C86_vectors {fl : ℝ → ℝ} (hm : Monotone fl) (sq : SquadFn) (hsq : SquadLaw sq) {s : State} {h : List Event} (hr : Reachable s h)
    {a b : ℕ} (ha : a < s.size) (hb : b < s.size) (hp : PathAll s a b fun i => FrameOk true s i ∧ StaysApart fl s i) {l : List ℕ}
    (hl : Route s a b l) (v : ND ℝ) (o : TArgs) {p q : ℕ} {ta : ℤ} {ats : List ℝ}
    (hax : AxisIs o.axis v.ndim p) (h3 : v.shape.getD p 0 = 3) (hta : o.timeAxis = some ta)
    (hq : AxisIs ta v.ndim q) (hts : o.timestamps = some (ofList ats)) (htd : TimedArray v q ats)
    (hfl : StrictlyIncreasing (ats.map fl))
    (hp0 : p ≠ 0) (hpq : p ≠ q) (h4 : p + 1 = v.ndim ∨ 4 ∉ v.shape) :
    ∃ out, s.transformVectorsFl fl sq a v (.byObj b) o =
        .ok (returned o.returnTimestamps out (some (outStamps s l ats))) ∧
      out.shape = v.shape.set q (outStamps s l ats).length ∧
      ∀ (i k : ℕ) τ, (outStamps s l ats)[i]? = some τ → ats[k]? = some τ →
        ∃ A, RoundedTransformAt fl sq s a b τ A ∧ ∀ idx, Valid v.shape idx →
          vec3 out p (idx.set q i) = rot A.r (vec3 v p (idx.set q k)) := by
  obtain ⟨rest, hsh, hrl, hback⟩ := swapShape htd
  have hwd : (v.swapaxes 0 q).ndim = v.ndim := by simp [ND.ndim, ND.swapaxes]
  obtain ⟨fs, T, t, r, w', R, e1, e2, e3, e4, e5, e6, hT, ht, hR⟩ := vectorsCore_timedFl hm sq hsq hr.wf ha hb hp hl
    (v.swapaxes 0 q) (rest := rest) (ats := ats) hsh htd.two htd.sorted hfl (axis := o.axis) (p := p) (by rw [hwd]; exact hax) hp0
    (by simp only [ND.swapaxes]; rw [swap_getD_other htd.axis hp0 hpq]; exact h3)
    (swapped_last hq.1 hp0 hpq (by norm_num) h3 h4)
  set ts := outStamps s l ats with hts'
  change (∀ τ ∈ ts, _) at hT
  change R.shape = ts.length :: rest at e6
  have hRd : R.ndim = v.ndim := by simp [ND.ndim, e6] at hrl ⊢; omega
  have hun : undoTimeSwap R o.timeAxis = .ok (R.swapaxes 0 q) := by
    rw [hta]
    simp only [undoTimeSwap, ND.swapaxesZ, hRd, axisIs_norm hq, normAxis_zero (show 0 < v.ndim by have := hq.1; omega)]
  refine ⟨R.swapaxes 0 q, ?_, ?_, ?_⟩
  · have hv := validateInput_timed hax h3 hq htd.length
    simp only [State.transformVectorsFl, hts, hta, hv,
      bind, Except.bind, e1, e2, e3, e4, Pure.pure, Except.pure, pyReturn_eq]
    rw [hta] at hun
    simp only [hun]
    rfl
  · simp only [ND.swapaxes, e6]; rw [hback]
  · intro i k τ hi hk
    refine ⟨T τ, (hT τ (List.mem_of_getElem? hi)).1, fun idx hv => ?_⟩
    rw [vec3_swap (X := R.swapaxes 0 q) (Y := R) (d := v.ndim) (fun y hy => rfl) hv.length hq.1 hax.1 hp0 hpq,
      vec3_swap (X := v) (Y := v.swapaxes 0 q) (d := v.ndim) (fun y hy => by
        simp only [ND.swapaxes]; rw [swapL_swapL (by rw [hy]; have := hq.1; omega) (by rw [hy]; exact hq.1)])
        hv.length hq.1 hax.1 hp0 hpq]
    exact hR i k τ _ hi hk (valid_swap_tail htd hsh hv)

/-- `transform_points` of a timestamped array (spatial axis last) whose timestamps stay different
when rounded. -/
theorem C86_points {fl : ℝ → ℝ} (hm : Monotone fl) (sq : SquadFn) (hsq : SquadLaw sq) {s : State} {h : List Event} (hr : Reachable s h)
    {a b : ℕ} (ha : a < s.size) (hb : b < s.size) (hp : PathAll s a b fun i => FrameOk true s i ∧ StaysApart fl s i) {l : List ℕ}
    (hl : Route s a b l) (v : ND ℝ) (o : TArgs) {p q : ℕ} {ta : ℤ} {ats : List ℝ}
    (hax : AxisIs o.axis v.ndim p) (h3 : v.shape.getD p 0 = 3) (hta : o.timeAxis = some ta)
    (hq : AxisIs ta v.ndim q) (hts : o.timestamps = some (ofList ats)) (htd : TimedArray v q ats)
    (hfl : StrictlyIncreasing (ats.map fl))
    (hp0 : p ≠ 0) (hpq : p ≠ q) (hlast : p + 1 = v.ndim) :
    ∃ out, s.transformPointsFl fl sq a v (.byObj b) o =
        .ok (returned o.returnTimestamps out (some (outStamps s l ats))) ∧
      out.shape = v.shape.set q (outStamps s l ats).length ∧
      ∀ (i k : ℕ) τ, (outStamps s l ats)[i]? = some τ → ats[k]? = some τ →
        ∃ A, RoundedTransformAt fl sq s a b τ A ∧ ∀ idx, Valid v.shape idx →
          vec3 out p (idx.set q i) = A.act (vec3 v p (idx.set q k)) := by
  obtain ⟨rest, hsh, hrl, hback⟩ := swapShape htd
  have hwd : (v.swapaxes 0 q).ndim = v.ndim := by simp [ND.ndim, ND.swapaxes]
  obtain ⟨fs, T, t, r, w', R, e1, e2, e3, e4, e5, e6, hT, ht, hR⟩ := vectorsCore_timedFl hm sq hsq hr.wf ha hb hp hl
    (v.swapaxes 0 q) (rest := rest) (ats := ats) hsh htd.two htd.sorted hfl (axis := o.axis) (p := p) (by rw [hwd]; exact hax) hp0
    (by simp only [ND.swapaxes]; rw [swap_getD_other htd.axis hp0 hpq]; exact h3)
    (swapped_last hq.1 hp0 hpq (by norm_num) h3 (.inl hlast))
  set ts := outStamps s l ats with hts'
  change (∀ τ ∈ ts, _) at hT
  change (_ = Arr.many (ts.map _) ∨ _) at ht
  change w'.shape = ts.length :: rest at e5
  change R.shape = ts.length :: rest at e6
  obtain ⟨p, rfl⟩ : ∃ p', p = p' + 1 := ⟨p - 1, by omega⟩
  have h3r : rest.getD p 0 = 3 := by
    have := swap_getD_other (x := v.shape) htd.axis hp0 hpq
    rw [hsh, h3] at this; simpa using this
  have hsplit := split_last (sh := rest) (p := p) (by omega) h3r
  have hRs : R.shape = ts.length :: (rest.dropLast ++ [3]) := by rw [e6, ← hsplit]
  obtain ⟨tl, rfl, htl⟩ : ∃ tl : List Vec, t = .many tl ∧ (tl.length = ts.length ∨ tl.length = 1) ∧
      ∀ (i : ℕ) τ, ts[i]? = some τ → tl.getD (if tl.length = 1 then 0 else i) 0 = (T τ).t := by
    rcases ht with ht | ⟨ht, h0⟩
    · refine ⟨_, ht, .inl (by simp), ?_⟩
      intro i τ hi
      have hil := (List.getElem?_eq_some_iff.mp hi).1
      have : (if (ts.map fun τ => (T τ).t).length = 1 then 0 else i) = i := by
        split
        · rename_i h1; simp at h1; omega
        · rfl
      rw [this, List.getD_eq_getElem?_getD, List.getElem?_map, hi]; rfl
    · exact ⟨[0], ht, .inr rfl, fun i τ _ => by simp [h0]⟩
  obtain ⟨S, s1, s2, s3⟩ := add_many_vec R hRs tl htl.1
  have hdd : w'.ndim = R.ndim := by simp [ND.ndim, e5, e6]
  have hSd : S.ndim = v.ndim := by simp [ND.ndim, s2, e6] at hrl ⊢; omega
  have hun : undoTimeSwap S (some ta) = .ok (S.swapaxes 0 q) := by
    simp only [undoTimeSwap, ND.swapaxesZ, hSd, axisIs_norm hq, normAxis_zero (show 0 < v.ndim by have := hq.1; omega)]
  refine ⟨S.swapaxes 0 q, ?_, ?_, ?_⟩
  · have hv := validateInput_timed hax h3 hq htd.length
    rw [← hdd] at s1
    simp only [State.transformPointsFl, hts, hta, hv,
      bind, Except.bind, e1, e2, e3, e4, s1, Pure.pure, Except.pure, pyReturn_eq, hun]
    rfl
  · simp only [ND.swapaxes, s2, e6]; rw [hback]
  · intro i k τ hi hk
    refine ⟨T τ, (hT τ (List.mem_of_getElem? hi)).1, fun idx hv => ?_⟩
    rw [vec3_swap (X := S.swapaxes 0 q) (Y := S) (d := v.ndim) (fun y hy => rfl) hv.length hq.1 hax.1 hp0 hpq,
      vec3_swap (X := v) (Y := v.swapaxes 0 q) (d := v.ndim) (fun y hy => by
        simp only [ND.swapaxes]; rw [swapL_swapL (by rw [hy]; have := hq.1; omega) (by rw [hy]; exact hq.1)])
        hv.length hq.1 hax.1 hp0 hpq]
    have hvt := valid_swap_tail htd hsh hv
    have hRv := hR i k τ _ hi hk hvt
    simp only [Pose.act]
    rw [← hRv]
    generalize (swapL 0 q idx).tail = js at *
    rw [hsplit] at hvt
    obtain ⟨js, c0, rfl, hj, _⟩ := valid_snoc hvt
    have hjl : js.length = p := by rw [hj.length]; simp; simp only [ND.ndim] at *; omega
    have e7 : ∀ c, (i :: (js ++ [c0])).set (p + 1) c = i :: (js ++ [c]) := by
      intro c; rw [List.set_cons_succ, ← hjl, List.set_append_right _ _ (le_refl _)]; simp
    have hil := (List.getElem?_eq_some_iff.mp hi).1
    funext c
    have hgo : ∀ c : Fin 3, S.get (i :: (js ++ [c.val])) = R.get (i :: (js ++ [c.val])) + (T τ).t c := by
      intro c
      rw [s3 i js c hil hj c.2, htl.2 i τ hi]
      congr 2
      ext; simp
    simp only [vec3_eq, ND.vecAt, Pi.add_apply, e7, hgo]

/-- `transform_quaternions` of a timestamped array whose timestamps stay different when rounded. -/
theorem C86_orientations {fl : ℝ → ℝ} (hm : Monotone fl) (sq : SquadFn) (hsq : SquadLaw sq) {s : State} {h : List Event} (hr : Reachable s h)
    {a b : ℕ} (ha : a < s.size) (hb : b < s.size) (hp : PathAll s a b fun i => FrameOk true s i ∧ StaysApart fl s i) {l : List ℕ}
    (hl : Route s a b l) (v : ND ℝ) (o : TArgs) {p q : ℕ} {ta : ℤ} {ats : List ℝ}
    (hax : AxisIs o.axis v.ndim p) (h4 : v.shape.getD p 0 = 4) (hta : o.timeAxis = some ta)
    (hq : AxisIs ta v.ndim q) (hts : o.timestamps = some (ofList ats)) (htd : TimedArray v q ats)
    (hfl : StrictlyIncreasing (ats.map fl))
    (hp0 : p ≠ 0) (hpq : p ≠ q)
    (hlast : (v.ndim = 2 ∧ ∀ i < ats.length, IsUnitQ (quat4 v 1 [i, 0])) ∨ (swapL 0 q v.shape).getLast? ≠ some 4) :
    ∃ out, s.transformQuaternionsFl fl sq a v (.byObj b) o =
        .ok (returned o.returnTimestamps out (some (outStamps s l ats))) ∧
      out.shape = v.shape.set q (outStamps s l ats).length ∧
      ∀ (i k : ℕ) τ, (outStamps s l ats)[i]? = some τ → ats[k]? = some τ →
        ∃ A, RoundedTransformAt fl sq s a b τ A ∧ ∀ idx, Valid v.shape idx →
          quat4 out p (idx.set q i) = A.r * quat4 v p (idx.set q k) := by
  obtain ⟨rest, hsh, hrl, hback⟩ := swapShape htd
  have hwd : (v.swapaxes 0 q).ndim = v.ndim := by simp [ND.ndim, ND.swapaxes]
  have h4w : (v.swapaxes 0 q).shape.getD p 0 = 4 := by
    simp only [ND.swapaxes]; rw [swap_getD_other htd.axis hp0 hpq]; exact h4
  obtain ⟨fs, T, t, r, w', w2, rq, aq, P, R, e1, e2, e3, q1, q2, q3, q4, q5, e6, hT, hR⟩ := quatCore_timedFl hm sq hsq hr.wf ha hb hp hl
    (v.swapaxes 0 q) (rest := rest) (ats := ats) hsh htd.two htd.sorted hfl (axis := o.axis) (p := p) (by rw [hwd]; exact hax) hp0
    h4w (by
      rcases hlast with ⟨h2d, hu⟩ | hlast
      · right
        have h1 := hax.1
        have h2 := hq.1
        have : p = 1 := by omega
        subst this
        have : q = 0 := by omega
        subst this
        constructor
        · match rest, hrl with
          | [x], _ =>
            rw [ND.swapaxes, hsh] at h4w
            simp at h4w; rw [h4w]
          | [], hrl => simp at hrl; omega
          | _ :: _ :: _, hrl => simp at hrl; omega
        · intro i hi
          have := hu i hi
          have e : ∀ c, (v.swapaxes 0 0).get [i, c] = v.get [i, c] := by
            intro c; simp only [ND.swapaxes]; rw [swapL_self (by simp)]
          have : quat4 (v.swapaxes 0 0) 1 [i, 0] = quat4 v 1 [i, 0] := by
            simp only [quat4, List.set_cons_succ, List.set_cons_zero, e]; rfl
          rw [this]; assumption
      · exact .inl hlast)
  set ts := outStamps s l ats with hts'
  change (∀ τ ∈ ts, _) at hT
  change R.shape = ts.length :: rest at e6
  have hRd : R.ndim = v.ndim := by simp [ND.ndim, e6] at hrl ⊢; omega
  have hun : undoTimeSwap R (some ta) = .ok (R.swapaxes 0 q) := by
    simp only [undoTimeSwap, ND.swapaxesZ, hRd, axisIs_norm hq, normAxis_zero (show 0 < v.ndim by have := hq.1; omega)]
  refine ⟨R.swapaxes 0 q, ?_, ?_, ?_⟩
  · have hv := validateInput_timed hax h4 hq htd.length
    simp only [State.transformQuaternionsFl, hts, hta, hv,
      bind, Except.bind, e1, e2, e3, q1, q2, q3, q4, q5, Pure.pure, Except.pure, pyReturn_eq, hun]
    rfl
  · simp only [ND.swapaxes, e6]; rw [hback]
  · intro i k τ hi hk
    refine ⟨T τ, (hT τ (List.mem_of_getElem? hi)).1, fun idx hv => ?_⟩
    rw [quat4_swap (X := R.swapaxes 0 q) (Y := R) (d := v.ndim) (fun y hy => rfl) hv.length hq.1 hax.1 hp0 hpq,
      quat4_swap (X := v) (Y := v.swapaxes 0 q) (d := v.ndim) (fun y hy => by
        simp only [ND.swapaxes]; rw [swapL_swapL (by rw [hy]; have := hq.1; omega) (by rw [hy]; exact hq.1)])
        hv.length hq.1 hax.1 hp0 hpq]
    exact hR i k τ _ hi hk (valid_swap_tail htd hsh hv)

/-! ### example -/

/-- `C86_points`, `C86_vectors`: the array of the example, recorded at -1, 0 and 1, in the moving frame. -/
theorem exFl_array : StrictlyIncreasing ([-1, 0, 1].map exFl) := by
  have : ⌊4 / 3 * (-1 : ℝ) + 1 / 2⌋ = -1 := by rw [Int.floor_eq_iff]; norm_num
  have h1 : exFl (-1) = -3 / 4 := by simp only [exFl, this]; norm_num
  simp only [List.map_cons, List.map_nil, exFl_values.1, exFl_values.2.1, h1]
  norm_num [StrictlyIncreasing]

example : ∃ out, Ex.m3.transformPointsFl exFl Ex.holdSquad 1 (Ex.arr2 3 [[1, 2, 3], [4, 5, 6], [7, 8, 9]]) (.byObj 2)
      { timestamps := some (ofList [-1, 0, 1]) } = .ok (returned false out (some [0, 1])) ∧ out.shape = [2, 3] ∧
    ∃ A, RoundedTransformAt exFl Ex.holdSquad Ex.m3 1 2 1 A ∧ vec3 out 1 [1, 0] = A.act ![7, 8, 9] := by
  obtain ⟨out, e1, e2, e3⟩ := C86_points exFl_mono Ex.holdSquad Ex.holdSquad_law Ex.reachM (exM_lt (by norm_num)) (exM_lt (by norm_num))
    exFl_path ex_route_moving
    (Ex.arr2 3 [[1, 2, 3], [4, 5, 6], [7, 8, 9]]) { timestamps := some (ofList [-1, 0, 1]) } (p := 1) (q := 0) (ta := 0) (ats := [-1, 0, 1])
    ⟨by simp [ND.ndim, Ex.arr2], .inr (by simp [ND.ndim, Ex.arr2])⟩ rfl rfl ⟨by simp [ND.ndim, Ex.arr2], .inl rfl⟩ rfl
    ⟨by simp [ND.ndim, Ex.arr2], rfl, by simp, by simp [StrictlyIncreasing]⟩ exFl_array (by norm_num) (by norm_num) rfl
  rw [ex_outStamps] at e1 e2 e3
  obtain ⟨A, a1, a2⟩ := e3 1 2 1 rfl rfl
  refine ⟨out, e1, e2, A, a1, (a2 [0, 0] (by simp [Valid, Ex.arr2])).trans ?_⟩
  congr 1

end RBM.Props
