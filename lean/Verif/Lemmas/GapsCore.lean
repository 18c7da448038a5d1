import Verif.Lemmas.GapsTransform
import Verif.Spec.GapsTransform

namespace RBM

open Matrix Spec

theorem vecIs_at {v : ND (Option ℝ)} {p : ℕ} {idx : List ℕ} {w : Vec} : VecIs v p idx w ↔ v.vecAtGaps p idx = fun k => some (w k) :=
  ⟨fun h => funext h, fun h c => congrFun h c⟩

theorem vecMissing_at {v : ND (Option ℝ)} {p : ℕ} {idx : List ℕ} : VecMissing v p idx ↔ ∃ k, v.vecAtGaps p idx k = none :=
  ⟨fun ⟨c, hc, h⟩ => ⟨⟨c, hc⟩, h⟩, fun ⟨k, h⟩ => ⟨k, k.2, h⟩⟩

/-- Entries of a rotated array decide which vectors are missing. -/
theorem gone_of_rot {R : ND (Option ℝ)} {p : ℕ} {idx : List ℕ} {q : Quat} {u : Fin 3 → Option ℝ}
    (h : ∀ c : Fin 3, R.get (idx.set p c) = rotNan q u c) :
    ((∃ k, u k = none) → VecGone R p idx) ∧ ∀ w : Vec, (u = fun k => some (w k)) → VecIs R p idx (rot q w) := by
  constructor
  · intro hu c hc
    rw [h ⟨c, hc⟩, rotNan_none q hu]
  · rintro w rfl c
    rw [h c, rotNan_some]

theorem ofNat_set {idx : List ℕ} {p : ℕ} (hp : p < idx.length) (c : Fin 3) : Fin.ofNat 3 ((idx.set p c.val).getD p 0) = c := by
  have e : (idx.set p c.val).getD p 0 = c.val := by simp [List.getD_eq_getElem?_getD, hp]
  rw [e]; ext; simp

theorem validateInputGaps_static {v : ND (Option ℝ)} {axis : ℤ} {p k : ℕ} (h : AxisIs axis v.ndim p) (hk : v.shape.getD p 0 = k)
    (ta : Option ℤ) : validateInputGaps v axis k none ta = .ok (v, none) := by
  simp only [validateInputGaps, pyShape_ok (axisIs_norm h), bind, Except.bind, hk]
  simp [Pure.pure, Except.pure]

theorem validateInputGaps_timed {v : ND (Option ℝ)} {axis : ℤ} {p k : ℕ} (h : AxisIs axis v.ndim p) (hk : v.shape.getD p 0 = k)
    {ta : ℤ} {q : ℕ} (hq : AxisIs ta v.ndim q) {ats : List ℝ} (hl : v.shape.getD q 0 = ats.length) :
    validateInputGaps v axis k (some (ofList ats)) (some ta) = .ok (v.swapaxes 0 q, some ats) := by
  have h0 : 0 < v.ndim := by have := h.1; omega
  simp only [validateInputGaps, pyShape_ok (axisIs_norm h), bind, Except.bind, hk]
  simp only [ofList, Pure.pure, Except.pure]
  simp only [pyShape_ok (axisIs_norm hq), hl, ND.swapaxesZ, normAxis_zero h0, axisIs_norm hq]
  have := ofList_range ats
  simp only [ofList] at this
  simpa using this

theorem getArray1Gaps_of {sq : SquadFn} {m : Matcher} {a R : ND (Option ℝ)} {ats : Option (List ℝ)} {ts : List ℝ}
    (h : resampleArrayGaps sq a ats (some ts) = .ok R) : m.getArray1Gaps sq a ats (some ts) = .ok R := by
  simp [Matcher.getArray1Gaps, h, bind, Except.bind, Pure.pure, Except.pure]

/-- See `vectorsCore_timed`. -/
theorem vectorsCoreGaps_timed (sq : SquadFn) (hsq : SquadLaw sq) {s : State} (h : WF s) {a b : ℕ} (ha : a < s.size)
    (hb : b < s.size) (hp : PathAll s a b (FrameOk true s)) {l : List ℕ} (hl : Route s a b l)
    (w : ND (Option ℝ)) {rest : List ℕ} {ats : List ℝ} (hs : w.shape = ats.length :: rest) (h2 : 2 ≤ ats.length)
    (hinc : StrictlyIncreasing ats) {axis : ℤ} {p : ℕ} (hax : AxisIs axis w.ndim p) (hp0 : p ≠ 0)
    (h3 : w.shape.getD p 0 = 3) (h4 : w.shape.getLast? ≠ some 4) :
    let ts := commonStamps ats (ats :: l.filterMap (stampsOf s false))
    ∃ (fs : List MFrame) (T : ℝ → Pose) (t : Arr Vec) (r : Arr Quat) (w' R : ND (Option ℝ)),
      s.getMatcher a (.byObj b) [⟨w.fill, some ats⟩] = .ok ⟨fs, [⟨w.fill, some ats⟩]⟩ ∧
      (⟨fs, [⟨w.fill, some ats⟩]⟩ : Matcher).getTransformation sq = .ok (t, r, some ts) ∧
      (⟨fs, [⟨w.fill, some ats⟩]⟩ : Matcher).getArray1Gaps sq w (some ats) (some ts) = .ok w' ∧
      rotateVectorsFGaps (expandSingletonAxes (ND.ofQuats r) w'.ndim) w' axis = .ok R ∧
      w'.shape = ts.length :: rest ∧
      R.shape = ts.length :: rest ∧ (∀ τ ∈ ts, IsTransformAt sq s a b τ (T τ) ∧ IsUnitQ (T τ).r) ∧
      (t = .many (ts.map fun τ => (T τ).t) ∨ (t = .many [0] ∧ ∀ τ, (T τ).t = 0)) ∧
      ∀ (i k : ℕ) τ js, ts[i]? = some τ → ats[k]? = some τ → Valid rest js →
        ((VecMissing w p (k :: js) ∨ VecMissing w p (before k :: js)) → VecGone R p (i :: js)) ∧
        ∀ u, VecIs w p (k :: js) u → ¬ VecMissing w p (before k :: js) → VecIs R p (i :: js) (rot (T τ).r u) := by
  intro ts
  obtain ⟨fs, T, e1, hT, hg⟩ := core_timed sq hsq h ha hb hp hl w.fill hs rfl (by rintro rfl; simp at h2) hinc.nonDecreasing
  obtain ⟨w', e2, hw's, hw'⟩ := resampleGaps_knots sq w hs (by rw [← hs]; exact h4) rfl h2 hinc
    (ts := ts) commonStamps_sub
  have hnd : w'.ndim = w.ndim := by simp [ND.ndim, hw's, hs]
  have hax' : normAxis axis w'.ndim = some p := by rw [hnd]; exact axisIs_norm hax
  obtain ⟨p, rfl⟩ : ∃ p', p = p' + 1 := ⟨p - 1, by omega⟩
  have hpl := hax.1
  simp only [ND.ndim, hs, List.length_cons] at hpl
  have h3' : w'.shape.getD (p + 1) 0 = 3 := by
    rw [hs] at h3; rw [hw's]; simpa using h3
  -- what the resampled array has at a sample
  have hvec : ∀ (i k : ℕ) τ js, ts[i]? = some τ → ats[k]? = some τ →
      ((VecMissing w (p + 1) (k :: js) ∨ VecMissing w (p + 1) (before k :: js)) → ∃ c, w'.vecAtGaps (p + 1) (i :: js) c = none) ∧
      ∀ u : Vec, VecIs w (p + 1) (k :: js) u → ¬ VecMissing w (p + 1) (before k :: js) →
        w'.vecAtGaps (p + 1) (i :: js) = fun c => some (u c) := by
    intro i k τ js hi hk
    constructor
    · rintro (⟨c, hc, h⟩ | ⟨c, hc, h⟩)
      · exact ⟨⟨c, hc⟩, (hw' i k τ (js.set p c) hi hk).1 (.inl h)⟩
      · exact ⟨⟨c, hc⟩, (hw' i k τ (js.set p c) hi hk).1 (.inr h)⟩
    · intro u hu hn
      funext c
      have h1 : w.get (k :: js.set p c) = some (u c) := hu c
      have := (hw' i k τ (js.set p c) hi hk).2 (by rw [h1]; simp) (fun hx => hn ⟨c, c.2, hx⟩)
      exact this.trans h1
  have hval : ∀ (i : ℕ) τ js, ts[i]? = some τ → Valid rest js → ∀ c < 3, Valid w'.shape ((i :: js).set (p + 1) c) := by
    intro i τ js hi hj c hc
    rw [hw's] at h3' ⊢
    apply valid_set (p := p + 1) (k := c)
    · exact ⟨(List.getElem?_eq_some_iff.mp hi).1, hj⟩
    · rw [h3']; exact hc
  rcases hg with hg | ⟨rfl, hid, hg⟩
  · obtain ⟨R, r1, r2, r3⟩ := rotateFGaps_many (ts.map fun τ => (T τ).r) (by
      intro q hq
      obtain ⟨τ, hτ, rfl⟩ := List.mem_map.mp hq
      exact (hT τ hτ).2) w' hax' (by omega) h3' (by rw [hw's]; simp)
    refine ⟨fs, T, _, _, w', R, e1, hg, getArray1Gaps_of e2, r1, hw's, r2.trans hw's, hT, .inl rfl, ?_⟩
    intro i k τ js hi hk hj
    have hjl := hj.length
    have hent : ∀ c : Fin 3, R.get ((i :: js).set (p + 1) c) = rotNan (T τ).r (w'.vecAtGaps (p + 1) (i :: js)) c := by
      intro c
      rw [r3 _ (hval i τ js hi hj c c.2), vecAtGaps_set, ofNat_set (by simp; omega)]
      congr 1
      simp [List.getD_eq_getElem?_getD, hi]
    obtain ⟨g1, g2⟩ := gone_of_rot hent
    obtain ⟨k1, k2⟩ := hvec i k τ js hi hk
    exact ⟨fun hm => g1 (k1 hm), fun u hu hn => g2 u (k2 u hu hn)⟩
  · obtain ⟨R, r1, r2, r3⟩ := rotateFGaps_one 1 one_ne_zero w'.ndim w' hax' h3'
    refine ⟨fs, T, _, _, w', R, e1, hg, getArray1Gaps_of e2, r1, hw's, r2.trans hw's, hT, .inr ⟨rfl, fun τ => by rw [hid]; rfl⟩, ?_⟩
    intro i k τ js hi hk hj
    have hjl := hj.length
    have hent : ∀ c : Fin 3, R.get ((i :: js).set (p + 1) c) = rotNan (T τ).r (w'.vecAtGaps (p + 1) (i :: js)) c := by
      intro c
      rw [r3, vecAtGaps_set, ofNat_set (by simp; omega), hid]
      rfl
    obtain ⟨g1, g2⟩ := gone_of_rot hent
    obtain ⟨k1, k2⟩ := hvec i k τ js hi hk
    exact ⟨fun hm => g1 (k1 hm), fun u hu hn => g2 u (k2 u hu hn)⟩

/-! ### adding translations -/

/-- See `add_one_vec`. -/
theorem addGaps_one_vec (R : ND (Option ℝ)) {sh : List ℕ} (hs : R.shape = sh ++ [3]) (t : Vec) :
    ∃ S, ND.bop (fun (x : Option ℝ) (y : ℝ) => x.map fun x => x + y) R (ND.ofVecs (.one t)) = .ok S ∧ S.shape = R.shape ∧
      ∀ i k, Valid sh i → k < 3 → S.get (i ++ [k]) = (R.get (i ++ [k])).map fun x => x + t (Fin.ofNat 3 k) := by
  have hb : Bcast (List.replicate (R.shape.length - [3].length) 1 ++ [3]) R.shape := by
    rw [hs]
    simp only [List.length_append, List.length_singleton, Nat.add_sub_cancel]
    exact (bcast_ones sh).append (.cons (.inl rfl) .nil)
  refine ⟨⟨R.shape, fun idx => (R.bget idx).map fun x => x + (ND.ofVecs (.one t)).bget idx⟩, ?_, rfl, ?_⟩
  · simp only [ND.bop]
    rw [show (ND.ofVecs (.one t)).shape = [3] from rfl, bshape_pad' hb]
  · intro i k hi hk
    have hv : Valid R.shape (i ++ [k]) := by rw [hs]; exact valid_snoc_mk hi hk
    simp only
    rw [bget_valid R hv]
    congr 1
    funext x
    simp [ND.bget, ND.ofVecs, ND.ndim, ND.bidx]

/-- See `add_many_vec`. -/
theorem addGaps_many_vec (R : ND (Option ℝ)) {n : ℕ} {sh : List ℕ} (hs : R.shape = n :: (sh ++ [3])) (tl : List Vec)
    (hl : tl.length = n ∨ tl.length = 1) :
    ∃ S, ND.bop (fun (x : Option ℝ) (y : ℝ) => x.map fun x => x + y) R (expandSingletonAxes (ND.ofVecs (.many tl)) R.ndim) = .ok S ∧
      S.shape = R.shape ∧
      ∀ i js k, i < n → Valid sh js → k < 3 → S.get (i :: (js ++ [k])) = (R.get (i :: (js ++ [k]))).map fun x => x +
        tl.getD (if tl.length = 1 then 0 else i) 0 (Fin.ofNat 3 k) := by
  have hd : R.ndim = sh.length + 2 := by simp [ND.ndim, hs]
  obtain ⟨h1, h2⟩ := expand_iter (ND.ofVecs (.many tl)) (n := tl.length) (rest := [3]) rfl (R.ndim - 2)
  have e : expandSingletonAxes (ND.ofVecs (.many tl)) R.ndim = (ND.expandDims1)^[R.ndim - 2] (ND.ofVecs (.many tl)) := by
    simp [expandSingletonAxes, ND.ndim, ND.ofVecs]
  rw [e]
  set X := (ND.expandDims1)^[R.ndim - 2] (ND.ofVecs (.many tl))
  have hr : R.ndim - 2 = sh.length := by omega
  rw [hr] at h1 h2
  have hb : Bcast X.shape R.shape := by
    rw [h1, hs]
    exact .cons hl ((bcast_ones sh).append (.cons (.inl rfl) .nil))
  refine ⟨_, bop_right _ R X hb, rfl, ?_⟩
  intro i js k hi hj hk
  have hv : Valid R.shape (i :: (js ++ [k])) := by rw [hs]; exact ⟨hi, valid_snoc_mk hj hk⟩
  simp only
  rw [bget_valid R hv, bget_same X (by simp [ND.ndim, h1, hj.length]), h1]
  congr 1
  funext x
  congr 1
  simp only [ND.bidx]
  rw [bidx_append (by simp [hj.length]), ← hj.length, bidx_ones]
  rw [h2 _ _ _ (by simp [hj.length])]
  simp [ND.ofVecs, ND.bidx]

end RBM
