import Verif.Lemmas.TransformCore

namespace RBM

open Spec

theorem swap_set_at {x : List ℕ} {m p c : ℕ} (hm : m < x.length) (hp : p < x.length) :
    swapL m p (x.set p c) = (swapL m p x).set m c := by
  apply list_ext_getD (by simp)
  intro j hj
  rw [swapL_getD (by simpa) (by simpa), getD_set hp, getD_set hp, getD_set hp, getD_set (by simpa), swapL_getD hm hp]
  by_cases h1 : j = p
  · subst h1
    by_cases h2 : m = j
    · simp [h2]
    · simp [h2, Ne.symm h2]
  · by_cases h2 : j = m
    · subst h2; simp [h1]
    · simp [h1, h2]

theorem dropLast_snoc_set {x : List ℕ} {d c : ℕ} (h : x.length = d) (hd : 0 < d) :
    x.set (d - 1) c = x.dropLast ++ [c] := by
  have hne : x ≠ [] := by rintro rfl; simp at h; omega
  conv_lhs => rw [← List.dropLast_append_getLast hne]
  rw [List.set_append_right _ _ (by simp; omega)]
  simp [h]

/-- Reading quaternions along an axis. -/
theorem quat_read (w : ND ℝ) {axis : ℤ} {p : ℕ} (hax : AxisIs axis w.ndim p) (h4 : w.shape.getD p 0 = 4) :
    ∃ w2 Q, w.swapaxesZ axis (-1) = .ok w2 ∧ asQuatArray w2 = .ok Q ∧
      Q.shape = (swapL (w.ndim - 1) p w.shape).dropLast ∧
      ∀ idx, idx.length = w.ndim → Q.get (swapL (w.ndim - 1) p idx).dropLast = quat4 w p idx := by
  have hp := hax.1
  have hd : 0 < w.ndim := by omega
  have e : swapL p (w.ndim - 1) w.shape = swapL (w.ndim - 1) p w.shape :=
    swapL_comm hp (by simp only [ND.ndim] at hd ⊢; omega)
  have hlast : (swapL p (w.ndim - 1) w.shape).getLast? = some 4 := by
    rw [List.getLast?_eq_getElem?]
    have hl : (swapL p (w.ndim - 1) w.shape).length = w.ndim := by simp [ND.ndim]
    have : (swapL p (w.ndim - 1) w.shape).getD (w.ndim - 1) 0 = 4 := by
      rw [swapL_getD hp (by simp only [ND.ndim] at hd ⊢; omega), if_pos rfl, h4]
    rw [hl]
    rw [List.getD_eq_getElem?_getD] at this
    cases hx : (swapL p (w.ndim - 1) w.shape)[w.ndim - 1]? with
    | none => rw [hx] at this; simp at this
    | some y => rw [hx] at this; simp at this; rw [this]
  refine ⟨w.swapaxes p (w.ndim - 1), ⟨(swapL p (w.ndim - 1) w.shape).dropLast, fun idx =>
    ⟨(w.swapaxes p (w.ndim - 1)).get (idx ++ [0]), (w.swapaxes p (w.ndim - 1)).get (idx ++ [1]),
     (w.swapaxes p (w.ndim - 1)).get (idx ++ [2]), (w.swapaxes p (w.ndim - 1)).get (idx ++ [3])⟩⟩, ?_, ?_, ?_, ?_⟩
  · simp only [ND.swapaxesZ, axisIs_norm hax, normAxis_neg_one hd]
  · simp only [asQuatArray, ND.swapaxes, hlast]
  · rw [e]
  · intro idx hl
    have key : ∀ c, (w.swapaxes p (w.ndim - 1)).get ((swapL (w.ndim - 1) p idx).dropLast ++ [c]) = w.get (idx.set p c) := by
      intro c
      rw [← dropLast_snoc_set (by simpa) hd, ← swap_set_at (by omega) (by omega)]
      simp only [ND.swapaxes]
      rw [swapL_comm (i := p) (by simp; omega) (by simp; omega), swapL_swapL (by simp; omega) (by simp; omega)]
    simp only [key, quat4]
    rfl

/-- Writing quaternions back along an axis. -/
theorem quat_write (w : ND ℝ) {axis : ℤ} {p : ℕ} (hax : AxisIs axis w.ndim p) (h4 : w.shape.getD p 0 = 4)
    (P : ND Quat) (hP : P.shape = (swapL (w.ndim - 1) p w.shape).dropLast) :
    ∃ out, (asFloatArray P).swapaxesZ (-1) axis = .ok out ∧ out.shape = w.shape ∧
      ∀ idx, idx.length = w.ndim → quat4 out p idx = P.get (swapL (w.ndim - 1) p idx).dropLast := by
  have hp := hax.1
  have hd : 0 < w.ndim := by omega
  have hs : (asFloatArray P).shape = swapL (w.ndim - 1) p w.shape := by
    simp only [asFloatArray, hP]
    have hl : (swapL (w.ndim - 1) p w.shape).length = w.ndim := by simp [ND.ndim]
    rw [← dropLast_snoc_set hl hd]
    apply list_ext_getD (by simp)
    intro j hj
    rw [getD_set (by rw [hl]; omega)]
    split
    · rename_i h; rw [h, swapL_getD (by simp only [ND.ndim] at hd ⊢; omega) hp]
      split
      · rename_i h; rw [h, h4]
      · rw [if_pos rfl, h4]
    · rfl
  have hnd : (asFloatArray P).ndim = w.ndim := by rw [ND.ndim, hs]; simp [ND.ndim]
  refine ⟨(asFloatArray P).swapaxes (w.ndim - 1) p, ?_, ?_, ?_⟩
  · simp only [ND.swapaxesZ, hnd, axisIs_norm hax, normAxis_neg_one hd]
  · simp only [ND.swapaxes, hs]
    exact swapL_swapL (by simp only [ND.ndim] at hd ⊢; omega) hp
  · intro idx hl
    have key : ∀ c, ((asFloatArray P).swapaxes (w.ndim - 1) p).get (idx.set p c) =
        qcomp (P.get (swapL (w.ndim - 1) p idx).dropLast) c := by
      intro c
      simp only [ND.swapaxes]
      rw [swap_set_at (by omega) (by omega), dropLast_snoc_set (by simpa) hd]
      simp [asFloatArray]
    simp only [quat4, key, qcomp]
    rfl

theorem valid_read {w : ND ℝ} {p : ℕ} (hp : p < w.ndim) {idx : List ℕ} (hv : Valid w.shape idx) :
    Valid (swapL (w.ndim - 1) p w.shape).dropLast (swapL (w.ndim - 1) p idx).dropLast := by
  have h1 : w.ndim - 1 < w.shape.length := by simp only [ND.ndim] at hp ⊢; omega
  have := valid_swapL h1 hp hv
  have hne : swapL (w.ndim - 1) p w.shape ≠ [] := by
    intro h; have := congrArg List.length h; simp only [swapL_length, List.length_nil] at this; omega
  rw [← List.dropLast_append_getLast hne] at this
  obtain ⟨i, k, hi, h2, h3⟩ := valid_snoc this
  rw [hi, List.dropLast_concat]
  exact h2

theorem asQuat_one (q : Quat) (d : ℕ) : ∃ Q, asQuatArray (expandSingletonAxes (ND.ofQuats (.one q)) d) = .ok Q ∧
    Q.shape = [] ∧ ∀ idx, Q.get idx = q ∨ idx ≠ [] := by
  have e : expandSingletonAxes (ND.ofQuats (.one q)) d = ND.ofQuats (.one q) := by
    simp [expandSingletonAxes, ND.ndim, ND.ofQuats]
  rw [e]
  refine ⟨?Q, ?h1, ?h2, ?h3⟩
  case h1 => simp only [ND.ofQuats, asQuatArray]; rfl
  case h2 => rfl
  case h3 =>
    intro idx
    by_cases h : idx = []
    · subst h; left; rfl
    · exact .inr h

theorem asQuat_many (l : List Quat) (d : ℕ) :
    ∃ Q, asQuatArray (expandSingletonAxes (ND.ofQuats (.many l)) d) = .ok Q ∧
      Q.shape = l.length :: List.replicate (d - 2) 1 ∧
      ∀ i js, js.length = d - 2 → Q.get (i :: js) = l.getD i 0 := by
  obtain ⟨h1, h2⟩ := expand_iter (ND.ofQuats (.many l)) (n := l.length) (rest := [4]) rfl (d - 2)
  have e : expandSingletonAxes (ND.ofQuats (.many l)) d = (ND.expandDims1)^[d - 2] (ND.ofQuats (.many l)) := by
    simp [expandSingletonAxes, ND.ndim, ND.ofQuats]
  rw [e]
  set X := (ND.expandDims1)^[d - 2] (ND.ofQuats (.many l)) with hX
  have hlast : X.shape.getLast? = some 4 := by rw [h1, ← List.cons_append, List.getLast?_concat]
  refine ⟨⟨X.shape.dropLast, fun idx => ⟨X.get (idx ++ [0]), X.get (idx ++ [1]), X.get (idx ++ [2]), X.get (idx ++ [3])⟩⟩,
    ?h1, ?h2, ?h3⟩
  case h1 => simp only [asQuatArray, hlast]
  case h2 => simp only [h1, ← List.cons_append, List.dropLast_concat]
  case h3 =>
    intro i js hj
    have key : ∀ k : ℕ, X.get (i :: js ++ [k]) = qcomp (l.getD i 0) k := by
      intro k
      rw [List.cons_append, h2 i js [k] hj]
      simp [ND.ofQuats]
    simp only [key]
    rfl

/-- Multiplication by a single quaternion from the left. -/
theorem quat_mul_one (q : Quat) (w : ND ℝ) {axis : ℤ} {p : ℕ} (hax : AxisIs axis w.ndim p) (h4 : w.shape.getD p 0 = 4) (d : ℕ) :
    ∃ w2 rq aq P out, w.swapaxesZ axis (-1) = .ok w2 ∧
      asQuatArray (expandSingletonAxes (ND.ofQuats (.one q)) d) = .ok rq ∧ asQuatArray w2 = .ok aq ∧
      ND.bop (fun x y => x * y) rq aq = .ok P ∧ (asFloatArray P).swapaxesZ (-1) axis = .ok out ∧
      out.shape = w.shape ∧ ∀ idx, Valid w.shape idx → quat4 out p idx = q * quat4 w p idx := by
  obtain ⟨w2, aq, e1, e2, hs, hg⟩ := quat_read w hax h4
  obtain ⟨rq, e3, rs, rg⟩ := asQuat_one q d
  have hb : ND.bshape rq.shape aq.shape = some aq.shape := by
    rw [rs]
    apply bshape_pad
    simpa using bcast_ones aq.shape
  obtain ⟨out, e4, e5, e6⟩ := quat_write w hax h4 ⟨aq.shape, fun idx => rq.bget idx * aq.bget idx⟩ hs
  refine ⟨w2, rq, aq, _, out, e1, e3, e2, by simp only [ND.bop, hb], e4, e5, ?_⟩
  intro idx hv
  rw [e6 idx hv.length]
  have hv' := valid_read hax.1 hv
  rw [← hs] at hv'
  simp only
  rw [bget_valid aq hv', hg idx hv.length]
  congr 1
  simp only [ND.bget, ND.ndim, rs, List.length_nil, Nat.sub_zero, List.drop_length]
  rcases rg [] with h | h
  · simpa [ND.bidx] using h
  · exact absurd rfl h

/-- Multiplication by a series of quaternions from the left, one per first index. -/
theorem quat_mul_many (l : List Quat) (w : ND ℝ) {axis : ℤ} {p : ℕ} (hax : AxisIs axis w.ndim p) (h4 : w.shape.getD p 0 = 4)
    (hp0 : p ≠ 0) (h0 : w.shape.getD 0 0 = l.length) :
    ∃ w2 rq aq P out, w.swapaxesZ axis (-1) = .ok w2 ∧
      asQuatArray (expandSingletonAxes (ND.ofQuats (.many l)) w.ndim) = .ok rq ∧ asQuatArray w2 = .ok aq ∧
      ND.bop (fun x y => x * y) rq aq = .ok P ∧ (asFloatArray P).swapaxesZ (-1) axis = .ok out ∧
      out.shape = w.shape ∧ ∀ idx, Valid w.shape idx → quat4 out p idx = l.getD (idx.getD 0 0) 0 * quat4 w p idx := by
  obtain ⟨w2, aq, e1, e2, hs, hg⟩ := quat_read w hax h4
  have hp := hax.1
  have hd : 2 ≤ w.ndim := by omega
  obtain ⟨rq, e3, rs, rg⟩ := asQuat_many l w.ndim
  have hfirst : ∀ (sh : List ℕ), sh.length = w.ndim → ∃ y, (swapL (w.ndim - 1) p sh).dropLast = sh.getD 0 0 :: y ∧ y.length = w.ndim - 2 := by
    intro sh hsl
    have hl : (swapL (w.ndim - 1) p sh).dropLast.length = w.ndim - 1 := by simp [hsl]
    cases hx : (swapL (w.ndim - 1) p sh).dropLast with
    | nil => rw [hx] at hl; simp at hl; omega
    | cons x y =>
      refine ⟨y, ?_, by rw [hx] at hl; simp at hl; omega⟩
      have h1 : (swapL (w.ndim - 1) p sh).getD 0 0 = sh.getD 0 0 := by
        rw [swapL_getD (by omega) (by omega), if_neg (Ne.symm hp0), if_neg (by omega)]
      have h2 : (swapL (w.ndim - 1) p sh).dropLast.getD 0 0 = (swapL (w.ndim - 1) p sh).getD 0 0 := by
        simp only [List.getD_eq_getElem?_getD, List.getElem?_dropLast]
        rw [if_pos (by simp; omega)]
      rw [hx, h1] at h2
      simp only [List.getD_cons_zero] at h2
      rw [h2]
  obtain ⟨ys, hys, hyl⟩ := hfirst w.shape rfl
  rw [h0] at hys
  have hb : Bcast rq.shape aq.shape := by
    rw [rs, hs, hys, ← hyl]
    exact .cons (.inl rfl) (bcast_ones ys)
  obtain ⟨out, e4, e5, e6⟩ := quat_write w hax h4 ⟨aq.shape, fun idx => rq.bget idx * aq.bget idx⟩ hs
  refine ⟨w2, rq, aq, _, out, e1, e3, e2, bop_left _ rq aq hb, e4, e5, ?_⟩
  intro idx hv
  rw [e6 idx hv.length]
  have hv' := valid_read hp hv
  rw [← hs] at hv'
  simp only
  rw [bget_valid aq hv', hg idx hv.length]
  congr 1
  obtain ⟨zs, hzs, hzl⟩ := hfirst idx hv.length
  have hi : idx.getD 0 0 < l.length := by
    rw [← h0]; exact (valid_iff.mp hv).2 0 (by simp only [ND.ndim] at hd; omega)
  rw [hzs, bget_same rq (by simp [ND.ndim, rs, hzl]), rs]
  simp only [ND.bidx]
  rw [← hzl, bidx_ones, rg _ _ (by simp [hzl])]
  congr 1
  split <;> omega

end RBM

namespace RBM

open Spec

theorem quat4_of_resampled {w w' : ND ℝ} {p i k : ℕ} {js : List ℕ} (hp0 : p ≠ 0)
    (h : ∀ r, w'.get (i :: r) = w.get (k :: r)) : quat4 w' p (i :: js) = quat4 w p (k :: js) := by
  obtain ⟨p, rfl⟩ : ∃ p', p = p' + 1 := ⟨p - 1, by omega⟩
  simp only [quat4, List.set_cons_succ, h]
  rfl

/-- Orientations of a timestamped array, time axis first. -/
theorem quatCore_timed (sq : SquadFn) (hsq : SquadLaw sq) {s : State} (h : WF s) {a b : ℕ} (ha : a < s.size)
    (hb : b < s.size) (hp : PathAll s a b (FrameOk true s)) {l : List ℕ} (hl : Route s a b l)
    (w : ND ℝ) {rest : List ℕ} {ats : List ℝ} (hs : w.shape = ats.length :: rest) (h2 : 2 ≤ ats.length)
    (hinc : StrictlyIncreasing ats) {axis : ℤ} {p : ℕ} (hax : AxisIs axis w.ndim p) (hp0 : p ≠ 0)
    (h4 : w.shape.getD p 0 = 4)
    (hres : w.shape.getLast? ≠ some 4 ∨ (rest = [4] ∧ ∀ i < ats.length, IsUnitQ (quat4 w 1 [i, 0]))) :
    let ts := commonStamps ats (ats :: l.filterMap (stampsOf s false))
    ∃ (fs : List MFrame) (T : ℝ → Pose) (t : Arr Vec) (r : Arr Quat) (w' w2 : ND ℝ) (rq aq P : ND Quat) (R : ND ℝ),
      s.getMatcher a (.byObj b) [⟨w, some ats⟩] = .ok ⟨fs, [⟨w, some ats⟩]⟩ ∧
      (⟨fs, [⟨w, some ats⟩]⟩ : Matcher).getTransformation sq = .ok (t, r, some ts) ∧
      (⟨fs, [⟨w, some ats⟩]⟩ : Matcher).getArray1 sq (some ts) = .ok w' ∧
      w'.swapaxesZ axis (-1) = .ok w2 ∧
      asQuatArray (expandSingletonAxes (ND.ofQuats r) w'.ndim) = .ok rq ∧ asQuatArray w2 = .ok aq ∧
      ND.bop (fun x y => x * y) rq aq = .ok P ∧ (asFloatArray P).swapaxesZ (-1) axis = .ok R ∧
      R.shape = ts.length :: rest ∧ (∀ τ ∈ ts, IsTransformAt sq s a b τ (T τ) ∧ IsUnitQ (T τ).r) ∧
      ∀ (i k : ℕ) τ js, ts[i]? = some τ → ats[k]? = some τ → Valid rest js →
        quat4 R p (i :: js) = (T τ).r * quat4 w p (k :: js) := by
  intro ts
  obtain ⟨fs, T, e1, hT, hg⟩ := core_timed sq hsq h ha hb hp hl w hs rfl (by rintro rfl; simp at h2) hinc.nonDecreasing
  obtain ⟨w', e2, hw's, hw'⟩ : ∃ w', resampleArray sq ⟨w, some ats⟩ (some ts) = .ok w' ∧ w'.shape = ts.length :: rest ∧
      ∀ (i k : ℕ) τ js, ts[i]? = some τ → ats[k]? = some τ → Valid rest js →
        quat4 w' p (i :: js) = quat4 w p (k :: js) := by
    rcases hres with hres | ⟨rfl, hu⟩
    · obtain ⟨w', e2, hw's, hw'⟩ := resample_knots sq w hs (by rw [← hs]; exact hres) rfl h2 hinc
        (ts := ts) commonStamps_sub
      exact ⟨w', e2, hw's, fun i k τ js hi hk hj => quat4_of_resampled hp0 (fun r => hw' i k τ r hi hk)⟩
    · obtain ⟨w', e2, hw's, hw'⟩ := resample_squad sq hsq w hs rfl h2 hu hinc (ts := ts)
      refine ⟨w', e2, hw's, fun i k τ js hi hk hj => ?_⟩
      have hp1 : p = 1 := by have := hax.1; simp [ND.ndim, hs] at this; omega
      subst hp1
      match js, hj with
      | [j], hj =>
        simp only [quat4, List.set_cons_succ, List.set_cons_zero, hw' i k τ _ (by norm_num : (0:ℕ) < 4) hi hk,
          hw' i k τ _ (by norm_num : (1:ℕ) < 4) hi hk, hw' i k τ _ (by norm_num : (2:ℕ) < 4) hi hk,
          hw' i k τ _ (by norm_num : (3:ℕ) < 4) hi hk]
        rfl
  have hnd : w'.ndim = w.ndim := by simp [ND.ndim, hw's, hs]
  have hax' : AxisIs axis w'.ndim p := by rw [hnd]; exact hax
  obtain ⟨p, rfl⟩ : ∃ p', p = p' + 1 := ⟨p - 1, by omega⟩
  have h4' : w'.shape.getD (p + 1) 0 = 4 := by
    rw [hs] at h4; rw [hw's]; simpa using h4
  rcases hg with hg | ⟨rfl, hid, hg⟩
  · obtain ⟨w2, rq, aq, P, R, q1, q2, q3, q4, q5, q6, q7⟩ := quat_mul_many (ts.map fun τ => (T τ).r) w' hax' h4' hp0
      (by rw [hw's]; simp)
    refine ⟨fs, T, _, _, w', w2, rq, aq, P, R, e1, hg, getArray1_of e2, q1, q2, q3, q4, q5, q6.trans hw's, hT, ?_⟩
    intro i k τ js hi hk hj
    have hv : Valid w'.shape (i :: js) := by rw [hw's]; exact ⟨(List.getElem?_eq_some_iff.mp hi).1, hj⟩
    rw [q7 _ hv, hw' i k τ js hi hk hj]
    congr 1
    simp [List.getD_eq_getElem?_getD, hi]
  · obtain ⟨w2, rq, aq, P, R, q1, q2, q3, q4, q5, q6, q7⟩ := quat_mul_one 1 w' hax' h4' w'.ndim
    refine ⟨fs, T, _, _, w', w2, rq, aq, P, R, e1, hg, getArray1_of e2, q1, q2, q3, q4, q5, q6.trans hw's, hT, ?_⟩
    intro i k τ js hi hk hj
    have hv : Valid w'.shape (i :: js) := by rw [hw's]; exact ⟨(List.getElem?_eq_some_iff.mp hi).1, hj⟩
    rw [q7 _ hv, hw' i k τ js hi hk hj, hid]
    rfl

end RBM
