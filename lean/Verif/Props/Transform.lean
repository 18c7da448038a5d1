import Verif.Lemmas.TransformCore

/-!
Transforming arrays of points, vectors and orientations (C11, C15-C17, C20, C21, C28, C30-C33).
-/

namespace RBM.Props

open RBM Spec

theorem split_last {sh : List ℕ} {p k : ℕ} (h : p + 1 = sh.length) (hk : sh.getD p 0 = k) :
    sh = sh.dropLast ++ [k] := by
  have hne : sh ≠ [] := by rintro rfl; simp at h
  obtain rfl : p = sh.length - 1 := by omega
  have : sh.getLast hne = k := by
    rw [List.getLast_eq_getElem, ← hk, getD_eq (by omega)]
  conv_lhs => rw [← List.dropLast_append_getLast hne, this]

/-- The value of a call that honours `return_timestamps`. -/
def returned (withTimestamps : Bool) (out : ND ℝ) (ts : Option (List ℝ)) : PyRet :=
  if withTimestamps then .withTs out ts else .single out

theorem pyReturn_eq (b : Bool) (out : ND ℝ) (ts : Option (List ℝ)) : pyReturn b out ts = returned b out ts := by
  cases b <;> rfl

/-! ### C15: static arrays through static frames -/

/-- Time axis arguments that leave an untimed array alone (see C33 for the others). -/
def NoSwap (ta : Option ℤ) (n : ℕ) : Prop := ∀ t, ta = some t → AxisIs t n 0

theorem undo_noSwap {R : ND ℝ} {ta : Option ℤ} (h : NoSwap ta R.ndim) :
    ∃ out, undoTimeSwap R ta = .ok out ∧ out.shape = R.shape ∧ ∀ idx, idx.length = R.ndim → out.get idx = R.get idx := by
  cases ta with
  | none => exact ⟨R, rfl, rfl, fun _ _ => rfl⟩
  | some t =>
    have hz := h t rfl
    have h0 := hz.1
    refine ⟨R.swapaxes 0 0, ?_, ?_, ?_⟩
    · simp only [undoTimeSwap, ND.swapaxesZ, normAxis_zero h0, axisIs_norm hz]
    · exact swapL_self h0
    · intro idx hi
      simp only [ND.swapaxes]
      rw [swapL_self (by rw [hi]; exact h0)]

/-- `transform_vectors` of an array of any shape (spatial axis anywhere) on a path of static frames:
every vector is rotated by the looked-up rotation, and the array keeps its shape. -/
theorem C15_vectors_static (sq : SquadFn) {s : State} {h : List Event} (hr : Reachable s h) {a b : ℕ}
    (ha : a < s.size) (hb : b < s.size) (hp : PathAll s a b (FrameOk false s)) (v : ND ℝ) (o : TArgs) {p : ℕ}
    (hax : AxisIs o.axis v.ndim p) (h3 : v.shape.getD p 0 = 3) (hts : o.timestamps = none)
    (hta : NoSwap o.timeAxis v.ndim) :
    ∃ A out, (∀ τ, IsTransformAt sq s a b τ A) ∧
      s.lookupTransform sq a (.byObj b) = .ok (.one A.t, .one A.r, none) ∧
      s.transformVectors sq a v (.byObj b) o = .ok (returned o.returnTimestamps out none) ∧
      out.shape = v.shape ∧ ∀ idx, Valid v.shape idx → vec3 out p idx = rot A.r (vec3 v p idx) := by
  obtain ⟨A, m, h1, h2, h4, h5, h6, h7⟩ := core_static sq hr.wf ha hb hp v
  obtain ⟨R, r1, r2, r3⟩ := rotateF_one A.r h2 v.ndim v (axisIs_norm hax) h3
  obtain ⟨out, o1, o2, o3⟩ := undo_noSwap (R := R) (ta := o.timeAxis) (by simpa [ND.ndim, r2] using hta)
  refine ⟨A, out, h1, h7, ?_, o2.trans r2, ?_⟩
  · simp only [State.transformVectors, State.transformVectorsCore, hts, validateInput_static hax h3,
      bind, Except.bind, h4, h5, h6, r1, Pure.pure, Except.pure, o1, pyReturn_eq]
  · intro idx hv
    have hl : p < idx.length := by rw [hv.length]; exact hax.1
    apply vec3_of_entries hl
    intro c
    rw [o3 _ (by simp [hv.length, ND.ndim, r2]), r3, ← vec3_eq, vec3_set]

/-- `transform_points`, spatial axis last: every point is mapped by the looked-up rigid motion. -/
theorem C15_points_static (sq : SquadFn) {s : State} {h : List Event} (hr : Reachable s h) {a b : ℕ}
    (ha : a < s.size) (hb : b < s.size) (hp : PathAll s a b (FrameOk false s)) (v : ND ℝ) (o : TArgs) {p : ℕ}
    (hax : AxisIs o.axis v.ndim p) (hlast : p + 1 = v.ndim) (h3 : v.shape.getD p 0 = 3) (hts : o.timestamps = none)
    (hta : NoSwap o.timeAxis v.ndim) :
    ∃ A out, (∀ τ, IsTransformAt sq s a b τ A) ∧
      s.lookupTransform sq a (.byObj b) = .ok (.one A.t, .one A.r, none) ∧
      s.transformPoints sq a v (.byObj b) o = .ok (returned o.returnTimestamps out none) ∧
      out.shape = v.shape ∧ ∀ idx, Valid v.shape idx → vec3 out p idx = A.act (vec3 v p idx) := by
  obtain ⟨A, m, h1, h2, h4, h5, h6, h7⟩ := core_static sq hr.wf ha hb hp v
  obtain ⟨R, r1, r2, r3⟩ := rotateF_one A.r h2 v.ndim v (axisIs_norm hax) h3
  have hpl := hax.1
  have hsplit := split_last hlast h3
  obtain ⟨S, s1, s2, s3⟩ := add_one_vec R (r2.trans hsplit) A.t
  obtain ⟨out, o1, o2, o3⟩ := undo_noSwap (R := S) (ta := o.timeAxis) (by simpa [ND.ndim, s2, r2] using hta)
  have eone : expandSingletonAxes (ND.ofVecs (.one A.t)) v.ndim = ND.ofVecs (.one A.t) := by
    simp [expandSingletonAxes, ND.ndim, ND.ofVecs]
  refine ⟨A, out, h1, h7, ?_, o2.trans (s2.trans r2), ?_⟩
  · simp only [State.transformPoints, State.transformPointsCore, hts, validateInput_static hax h3,
      bind, Except.bind, h4, h5, h6, r1, eone, s1, Pure.pure, Except.pure, o1, pyReturn_eq]
  · intro idx hv
    have hl : p < idx.length := by rw [hv.length]; exact hax.1
    apply vec3_of_entries hl
    intro c
    rw [hsplit] at hv
    obtain ⟨i, k, rfl, hi, hk⟩ := valid_snoc hv
    have hil : i.length = p := by rw [hi.length]; simp only [ND.ndim] at hlast; simp; omega
    have e1 : (i ++ [k]).set p c.val = i ++ [c.val] := by
      rw [← hil, List.set_append_right _ _ (le_refl _)]; simp
    rw [o3 _ (by have := hv.length; rw [← hsplit] at this; simp only [List.length_set]; rw [this]; simp [ND.ndim, s2, r2]), e1,
      s3 i c hi c.2, r3]
    simp only [Pose.act, Pi.add_apply]
    rw [← vec3_eq, ← e1, vec3_set]
    congr 2
    simp [hil]

/-! ### C15: timestamped arrays through static or moving frames -/

/-- The timestamps at which a timestamped array can be transformed: those that lie in the time
ranges of all continuous frames on the route `l` (C20). -/
noncomputable def outStamps (s : State) (l : List ℕ) (ats : List ℝ) : List ℝ :=
  commonStamps ats (ats :: l.filterMap (stampsOf s false))

theorem swapped_last {v : ND ℝ} {p q : ℕ} {k : ℕ} (hq : q < v.ndim) (hp0 : p ≠ 0) (hpq : p ≠ q) (hk : k ≠ 4)
    (h3 : v.shape.getD p 0 = k) (hl : p + 1 = v.ndim ∨ 4 ∉ v.shape) : (v.swapaxes 0 q).shape.getLast? ≠ some 4 := by
  simp only [ND.ndim] at hq hl
  intro h
  have hlen : (v.swapaxes 0 q).shape.length = v.shape.length := by simp [ND.swapaxes]
  rw [List.getLast?_eq_getElem?, hlen] at h
  have e : (swapL 0 q v.shape).getD (v.shape.length - 1) 0 = 4 := by
    rw [List.getD_eq_getElem?_getD]
    simp only [ND.swapaxes] at h
    rw [h]; rfl
  rcases hl with hl | hl
  · rw [← hl, Nat.add_sub_cancel, swap_getD_other hq hp0 hpq, h3] at e
    exact hk e
  · rw [swapL_getD (by omega) hq] at e
    apply hl
    have key : ∀ j, v.shape.getD j 0 = 4 → 4 ∈ v.shape := by
      intro j hj
      rw [List.getD_eq_getElem?_getD] at hj
      cases hx : v.shape[j]? with
      | none => rw [hx] at hj; simp at hj
      | some y => rw [hx] at hj; simp at hj; subst hj; exact List.mem_of_getElem? hx
    split at e
    · exact key _ e
    · split at e
      · exact key _ e
      · exact key _ e

/-- `transform_vectors` of a timestamped array of any rank through static and moving frames, with
any time axis: the result is sampled at the timestamps of the array that lie in the ranges of all
frames, in the same layout, and each vector is rotated into the target frame as it is oriented at
the time of the vector. -/
theorem C15_vectors_timed (sq : SquadFn) (hsq : SquadLaw sq) {s : State} {h : List Event} (hr : Reachable s h)
    {a b : ℕ} (ha : a < s.size) (hb : b < s.size) (hp : PathAll s a b (FrameOk true s)) {l : List ℕ}
    (hl : Route s a b l) (v : ND ℝ) (o : TArgs) {p q : ℕ} {ta : ℤ} {ats : List ℝ}
    (hax : AxisIs o.axis v.ndim p) (h3 : v.shape.getD p 0 = 3) (hta : o.timeAxis = some ta)
    (hq : AxisIs ta v.ndim q) (hts : o.timestamps = some (ofList ats)) (htd : TimedArray v q ats)
    (hp0 : p ≠ 0) (hpq : p ≠ q) (h4 : p + 1 = v.ndim ∨ 4 ∉ v.shape) :
    ∃ out, s.transformVectors sq a v (.byObj b) o =
        .ok (returned o.returnTimestamps out (some (outStamps s l ats))) ∧
      out.shape = v.shape.set q (outStamps s l ats).length ∧
      ∀ (i k : ℕ) τ, (outStamps s l ats)[i]? = some τ → ats[k]? = some τ →
        ∃ A, IsTransformAt sq s a b τ A ∧ ∀ idx, Valid v.shape idx →
          vec3 out p (idx.set q i) = rot A.r (vec3 v p (idx.set q k)) := by
  obtain ⟨rest, hsh, hrl, hback⟩ := swapShape htd
  have hwd : (v.swapaxes 0 q).ndim = v.ndim := by simp [ND.ndim, ND.swapaxes]
  obtain ⟨fs, T, t, r, w', R, e1, e2, e3, e4, e5, e6, hT, ht, hR⟩ := vectorsCore_timed sq hsq hr.wf ha hb hp hl
    (v.swapaxes 0 q) (rest := rest) (ats := ats) hsh htd.two htd.sorted (axis := o.axis) (p := p) (by rw [hwd]; exact hax) hp0
    (by simp only [ND.swapaxes]; rw [swap_getD_other htd.axis hp0 hpq]; exact h3)
    (swapped_last hq.1 hp0 hpq (by norm_num) h3 h4)
  set ts := outStamps s l ats with hts'
  change (∀ τ ∈ ts, _) at hT
  change R.shape = ts.length :: rest at e6
  have hRd : R.ndim = v.ndim := by simp [ND.ndim, e6] at hrl ⊢; omega
  have hun : undoTimeSwap R o.timeAxis = .ok (R.swapaxes 0 q) := by
    rw [hta]
    simp only [undoTimeSwap, ND.swapaxesZ, hRd, axisIs_norm hq, normAxis_zero (show 0 < v.ndim by have := hq.1; omega)]
  refine ⟨R.swapaxes 0 q, ?_, ?_, ?_⟩
  · have hv := validateInput_timed hax h3 hq htd.length
    simp only [State.transformVectors, State.transformVectorsCore, hts, hta, hv,
      bind, Except.bind, e1, e2, e3, e4, Pure.pure, Except.pure, pyReturn_eq]
    rw [hta] at hun
    simp only [hun]
    rfl
  · simp only [ND.swapaxes, e6]; rw [hback]
  · intro i k τ hi hk
    refine ⟨T τ, (hT τ (List.mem_of_getElem? hi)).1, fun idx hv => ?_⟩
    rw [vec3_swap (X := R.swapaxes 0 q) (Y := R) (d := v.ndim) (fun y hy => rfl) hv.length hq.1 hax.1 hp0 hpq,
      vec3_swap (X := v) (Y := v.swapaxes 0 q) (d := v.ndim) (fun y hy => by
        simp only [ND.swapaxes]; rw [swapL_swapL (by rw [hy]; have := hq.1; omega) (by rw [hy]; exact hq.1)])
        hv.length hq.1 hax.1 hp0 hpq]
    exact hR i k τ _ hi hk (valid_swap_tail htd hsh hv)

/-- `transform_points` of a timestamped array, spatial axis last, through static and moving frames. -/
theorem C15_points_timed (sq : SquadFn) (hsq : SquadLaw sq) {s : State} {h : List Event} (hr : Reachable s h)
    {a b : ℕ} (ha : a < s.size) (hb : b < s.size) (hp : PathAll s a b (FrameOk true s)) {l : List ℕ}
    (hl : Route s a b l) (v : ND ℝ) (o : TArgs) {p q : ℕ} {ta : ℤ} {ats : List ℝ}
    (hax : AxisIs o.axis v.ndim p) (h3 : v.shape.getD p 0 = 3) (hta : o.timeAxis = some ta)
    (hq : AxisIs ta v.ndim q) (hts : o.timestamps = some (ofList ats)) (htd : TimedArray v q ats)
    (hp0 : p ≠ 0) (hpq : p ≠ q) (hlast : p + 1 = v.ndim) :
    ∃ out, s.transformPoints sq a v (.byObj b) o =
        .ok (returned o.returnTimestamps out (some (outStamps s l ats))) ∧
      out.shape = v.shape.set q (outStamps s l ats).length ∧
      ∀ (i k : ℕ) τ, (outStamps s l ats)[i]? = some τ → ats[k]? = some τ →
        ∃ A, IsTransformAt sq s a b τ A ∧ ∀ idx, Valid v.shape idx →
          vec3 out p (idx.set q i) = A.act (vec3 v p (idx.set q k)) := by
  obtain ⟨rest, hsh, hrl, hback⟩ := swapShape htd
  have hwd : (v.swapaxes 0 q).ndim = v.ndim := by simp [ND.ndim, ND.swapaxes]
  obtain ⟨fs, T, t, r, w', R, e1, e2, e3, e4, e5, e6, hT, ht, hR⟩ := vectorsCore_timed sq hsq hr.wf ha hb hp hl
    (v.swapaxes 0 q) (rest := rest) (ats := ats) hsh htd.two htd.sorted (axis := o.axis) (p := p) (by rw [hwd]; exact hax) hp0
    (by simp only [ND.swapaxes]; rw [swap_getD_other htd.axis hp0 hpq]; exact h3)
    (swapped_last hq.1 hp0 hpq (by norm_num) h3 (.inl hlast))
  set ts := outStamps s l ats with hts'
  change (∀ τ ∈ ts, _) at hT
  change (_ = Arr.many (ts.map _) ∨ _) at ht
  change w'.shape = ts.length :: rest at e5
  change R.shape = ts.length :: rest at e6
  obtain ⟨p, rfl⟩ : ∃ p', p = p' + 1 := ⟨p - 1, by omega⟩
  have h3r : rest.getD p 0 = 3 := by
    have := swap_getD_other (x := v.shape) htd.axis hp0 hpq
    rw [hsh, h3] at this; simpa using this
  have hsplit := split_last (sh := rest) (p := p) (by omega) h3r
  have hRs : R.shape = ts.length :: (rest.dropLast ++ [3]) := by rw [e6, ← hsplit]
  obtain ⟨tl, rfl, htl⟩ : ∃ tl : List Vec, t = .many tl ∧ (tl.length = ts.length ∨ tl.length = 1) ∧
      ∀ (i : ℕ) τ, ts[i]? = some τ → tl.getD (if tl.length = 1 then 0 else i) 0 = (T τ).t := by
    rcases ht with ht | ⟨ht, h0⟩
    · refine ⟨_, ht, .inl (by simp), ?_⟩
      intro i τ hi
      have hil := (List.getElem?_eq_some_iff.mp hi).1
      have : (if (ts.map fun τ => (T τ).t).length = 1 then 0 else i) = i := by
        split
        · rename_i h1; simp at h1; omega
        · rfl
      rw [this, List.getD_eq_getElem?_getD, List.getElem?_map, hi]; rfl
    · exact ⟨[0], ht, .inr rfl, fun i τ _ => by simp [h0]⟩
  obtain ⟨S, s1, s2, s3⟩ := add_many_vec R hRs tl htl.1
  have hdd : w'.ndim = R.ndim := by simp [ND.ndim, e5, e6]
  have hSd : S.ndim = v.ndim := by simp [ND.ndim, s2, e6] at hrl ⊢; omega
  have hun : undoTimeSwap S (some ta) = .ok (S.swapaxes 0 q) := by
    simp only [undoTimeSwap, ND.swapaxesZ, hSd, axisIs_norm hq, normAxis_zero (show 0 < v.ndim by have := hq.1; omega)]
  refine ⟨S.swapaxes 0 q, ?_, ?_, ?_⟩
  · have hv := validateInput_timed hax h3 hq htd.length
    rw [← hdd] at s1
    simp only [State.transformPoints, State.transformPointsCore, hts, hta, hv,
      bind, Except.bind, e1, e2, e3, e4, s1, Pure.pure, Except.pure, pyReturn_eq, hun]
    rfl
  · simp only [ND.swapaxes, s2, e6]; rw [hback]
  · intro i k τ hi hk
    refine ⟨T τ, (hT τ (List.mem_of_getElem? hi)).1, fun idx hv => ?_⟩
    rw [vec3_swap (X := S.swapaxes 0 q) (Y := S) (d := v.ndim) (fun y hy => rfl) hv.length hq.1 hax.1 hp0 hpq,
      vec3_swap (X := v) (Y := v.swapaxes 0 q) (d := v.ndim) (fun y hy => by
        simp only [ND.swapaxes]; rw [swapL_swapL (by rw [hy]; have := hq.1; omega) (by rw [hy]; exact hq.1)])
        hv.length hq.1 hax.1 hp0 hpq]
    have hvt := valid_swap_tail htd hsh hv
    have hRv := hR i k τ _ hi hk hvt
    simp only [Pose.act]
    rw [← hRv]
    generalize (swapL 0 q idx).tail = js at *
    rw [hsplit] at hvt
    obtain ⟨js, c0, rfl, hj, _⟩ := valid_snoc hvt
    have hjl : js.length = p := by rw [hj.length]; simp; simp only [ND.ndim] at *; omega
    have e7 : ∀ c, (i :: (js ++ [c0])).set (p + 1) c = i :: (js ++ [c]) := by
      intro c; rw [List.set_cons_succ, ← hjl, List.set_append_right _ _ (le_refl _)]; simp
    have hil := (List.getElem?_eq_some_iff.mp hi).1
    funext c
    have hgo : ∀ c : Fin 3, S.get (i :: (js ++ [c.val])) = R.get (i :: (js ++ [c.val])) + (T τ).t c := by
      intro c
      rw [s3 i js c hil hj c.2, htl.2 i τ hi]
      congr 2
      ext; simp
    simp only [vec3_eq, ND.vecAt, Pi.add_apply, e7, hgo]

end RBM.Props
