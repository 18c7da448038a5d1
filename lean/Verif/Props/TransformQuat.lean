import Verif.Lemmas.TransformQuat
import Verif.Props.Transform

/-!
`transform_quaternions` (C16) and consequences for all transform functions.
-/

namespace RBM.Props

open RBM Spec

/-! ### C16 -/

/-- `transform_quaternions` through static frames: every orientation is multiplied from the left by
the looked-up rotation; any shape, any axis. -/
theorem C16_orientations_static (sq : SquadFn) {s : State} {h : List Event} (hr : Reachable s h) {a b : ℕ}
    (ha : a < s.size) (hb : b < s.size) (hp : PathAll s a b (FrameOk false s)) (v : ND ℝ) (o : TArgs) {p : ℕ}
    (hax : AxisIs o.axis v.ndim p) (h4 : v.shape.getD p 0 = 4) (hts : o.timestamps = none)
    (hta : NoSwap o.timeAxis v.ndim) :
    ∃ A out, (∀ τ, IsTransformAt sq s a b τ A) ∧
      s.lookupTransform sq a (.byObj b) = .ok (.one A.t, .one A.r, none) ∧
      s.transformQuaternions sq a v (.byObj b) o = .ok (returned o.returnTimestamps out none) ∧
      out.shape = v.shape ∧ ∀ idx, Valid v.shape idx → quat4 out p idx = A.r * quat4 v p idx := by
  obtain ⟨A, m, h1, h2, h5, h6, h7, h8⟩ := core_static sq hr.wf ha hb hp v
  obtain ⟨w2, rq, aq, P, R, q1, q2, q3, q4, q5, q6, q7⟩ := quat_mul_one A.r v hax h4 v.ndim
  obtain ⟨out, o1, o2, o3⟩ := undo_noSwap (R := R) (ta := o.timeAxis) (by simpa [ND.ndim, q6] using hta)
  refine ⟨A, out, h1, h8, ?_, o2.trans q6, ?_⟩
  · simp only [State.transformQuaternions, State.transformQuaternionsCore, hts, validateInput_static hax h4,
      bind, Except.bind, h5, h6, h7, q1, q2, q3, q4, q5, Pure.pure, Except.pure, o1, pyReturn_eq]
  · intro idx hv
    have hl : ∀ c, (idx.set p c).length = R.ndim := by intro c; simp [hv.length, ND.ndim, q6]
    rw [← q7 idx hv]
    simp only [quat4, o3 _ (hl _)]
    rfl

/-- `transform_quaternions` of timestamped orientations through static and moving frames. Arrays
whose last axis (with time first) has length four are interpolated as quaternions, which is
covered for two-dimensional arrays of unit quaternions; others are not. -/
theorem C16_orientations_timed (sq : SquadFn) (hsq : SquadLaw sq) {s : State} {h : List Event} (hr : Reachable s h)
    {a b : ℕ} (ha : a < s.size) (hb : b < s.size) (hp : PathAll s a b (FrameOk true s)) {l : List ℕ}
    (hl : Route s a b l) (v : ND ℝ) (o : TArgs) {p q : ℕ} {ta : ℤ} {ats : List ℝ}
    (hax : AxisIs o.axis v.ndim p) (h4 : v.shape.getD p 0 = 4) (hta : o.timeAxis = some ta)
    (hq : AxisIs ta v.ndim q) (hts : o.timestamps = some (ofList ats)) (htd : TimedArray v q ats)
    (hp0 : p ≠ 0) (hpq : p ≠ q)
    (hlast : (v.ndim = 2 ∧ ∀ i < ats.length, IsUnitQ (quat4 v 1 [i, 0])) ∨ (swapL 0 q v.shape).getLast? ≠ some 4) :
    ∃ out, s.transformQuaternions sq a v (.byObj b) o =
        .ok (returned o.returnTimestamps out (some (outStamps s l ats))) ∧
      out.shape = v.shape.set q (outStamps s l ats).length ∧
      ∀ (i k : ℕ) τ, (outStamps s l ats)[i]? = some τ → ats[k]? = some τ →
        ∃ A, IsTransformAt sq s a b τ A ∧ ∀ idx, Valid v.shape idx →
          quat4 out p (idx.set q i) = A.r * quat4 v p (idx.set q k) := by
  obtain ⟨rest, hsh, hrl, hback⟩ := swapShape htd
  have hwd : (v.swapaxes 0 q).ndim = v.ndim := by simp [ND.ndim, ND.swapaxes]
  have h4w : (v.swapaxes 0 q).shape.getD p 0 = 4 := by
    simp only [ND.swapaxes]; rw [swap_getD_other htd.axis hp0 hpq]; exact h4
  obtain ⟨fs, T, t, r, w', w2, rq, aq, P, R, e1, e2, e3, q1, q2, q3, q4, q5, e6, hT, hR⟩ := quatCore_timed sq hsq hr.wf ha hb hp hl
    (v.swapaxes 0 q) (rest := rest) (ats := ats) hsh htd.two htd.sorted (axis := o.axis) (p := p) (by rw [hwd]; exact hax) hp0
    h4w (by
      rcases hlast with ⟨h2d, hu⟩ | hlast
      · right
        have h1 := hax.1
        have h2 := hq.1
        have : p = 1 := by omega
        subst this
        have : q = 0 := by omega
        subst this
        constructor
        · match rest, hrl with
          | [x], _ =>
            rw [ND.swapaxes, hsh] at h4w
            simp at h4w; rw [h4w]
          | [], hrl => simp at hrl; omega
          | _ :: _ :: _, hrl => simp at hrl; omega
        · intro i hi
          have := hu i hi
          have e : ∀ c, (v.swapaxes 0 0).get [i, c] = v.get [i, c] := by
            intro c; simp only [ND.swapaxes]; rw [swapL_self (by simp)]
          have : quat4 (v.swapaxes 0 0) 1 [i, 0] = quat4 v 1 [i, 0] := by
            simp only [quat4, List.set_cons_succ, List.set_cons_zero, e]; rfl
          rw [this]; assumption
      · exact .inl hlast)
  set ts := outStamps s l ats with hts'
  change (∀ τ ∈ ts, _) at hT
  change R.shape = ts.length :: rest at e6
  have hRd : R.ndim = v.ndim := by simp [ND.ndim, e6] at hrl ⊢; omega
  have hun : undoTimeSwap R (some ta) = .ok (R.swapaxes 0 q) := by
    simp only [undoTimeSwap, ND.swapaxesZ, hRd, axisIs_norm hq, normAxis_zero (show 0 < v.ndim by have := hq.1; omega)]
  refine ⟨R.swapaxes 0 q, ?_, ?_, ?_⟩
  · have hv := validateInput_timed hax h4 hq htd.length
    simp only [State.transformQuaternions, State.transformQuaternionsCore, hts, hta, hv,
      bind, Except.bind, e1, e2, e3, q1, q2, q3, q4, q5, Pure.pure, Except.pure, pyReturn_eq, hun]
    rfl
  · simp only [ND.swapaxes, e6]; rw [hback]
  · intro i k τ hi hk
    refine ⟨T τ, (hT τ (List.mem_of_getElem? hi)).1, fun idx hv => ?_⟩
    rw [quat4_swap (X := R.swapaxes 0 q) (Y := R) (d := v.ndim) (fun y hy => rfl) hv.length hq.1 hax.1 hp0 hpq,
      quat4_swap (X := v) (Y := v.swapaxes 0 q) (d := v.ndim) (fun y hy => by
        simp only [ND.swapaxes]; rw [swapL_swapL (by rw [hy]; have := hq.1; omega) (by rw [hy]; exact hq.1)])
        hv.length hq.1 hax.1 hp0 hpq]
    exact hR i k τ _ hi hk (valid_swap_tail htd hsh hv)

end RBM.Props
