import Verif.Lemmas.TransformLaws
import Verif.Props.TransformQuat
import Verif.Props.Lookup

/-!
Laws relating the transform functions with each other and with `lookup_transform`
(C11, C15, C16, C17, C20, C21, C28).
-/

namespace RBM.Props

open RBM Spec

theorem valid_getD_lt {sh idx : List ℕ} (h : Valid sh idx) {p : ℕ} (hp : p < sh.length) : idx.getD p 0 < sh.getD p 0 :=
  (valid_iff.mp h).2 p hp

/-! ### C15: agreement with `lookup_transform` -/

/-- What `lookup_transform` gives at time `τ` is the change of coordinates that `transform_points`
and `transform_vectors` apply at time `τ` (C15_points_*, C15_vectors_*): it satisfies the same
specification, and that determines it. -/
theorem C15_lookup_agrees (sq : SquadFn) {mv : Bool} (hsq : mv = true → SquadLaw sq) {s : State} {h : List Event}
    (hr : Reachable s h) {a b : ℕ} (ha : a < s.size) (hb : b < s.size) (hp : PathAll s a b (FrameOk mv s))
    {τ : ℝ} {A : Pose} (hA : GivesAt (s.lookupTransform sq a (.byObj b)) τ A) :
    IsTransformAt sq s a b τ A ∧ ∀ B, IsTransformAt sq s a b τ B → B = A := by
  have h1 := givesAt_isTransformAt hr.wf hsq ha hb hp hA
  exact ⟨h1, fun B hB => isTransformAt_unique hr.wf hsq hp hB h1⟩

/-- The example path has a lookup result at time 1. -/
example : ∃ A, GivesAt (Ex.m3.lookupTransform Ex.holdSquad 1 (.byObj 1)) 1 A :=
  ⟨⟨0, 1⟩, .inl (C11_self_lookup _ Ex.reachM (by rw [Ex.m3_eq]; norm_num))⟩

/-- Entrywise difference of two arrays of the same shape. -/
def subND (v w : ND ℝ) : ND ℝ := ⟨v.shape, fun idx => v.get idx - w.get idx⟩

theorem vec3_sub (v w : ND ℝ) (p : ℕ) (idx : List ℕ) : vec3 (subND v w) p idx = vec3 v p idx - vec3 w p idx := by
  funext k; fin_cases k <;> simp [vec3, subND]

theorem act_sub (A : Pose) (p q : Vec) : A.act p - A.act q = rot A.r (p - q) := by
  rw [rot_sub]; simp only [Pose.act]; abel

/-- The difference of two transformed points is the transformed vector between them (static). -/
theorem C15_difference_static (sq : SquadFn) {s : State} {h : List Event} (hr : Reachable s h) {a b : ℕ}
    (ha : a < s.size) (hb : b < s.size) (hp : PathAll s a b (FrameOk false s)) (v w : ND ℝ) (hvw : w.shape = v.shape)
    (h3 : v.shape.getLast? = some 3) :
    ∃ ov ow od, s.transformPoints sq a v (.byObj b) {} = .ok (.single ov) ∧
      s.transformPoints sq a w (.byObj b) {} = .ok (.single ow) ∧
      s.transformVectors sq a (subND v w) (.byObj b) {} = .ok (.single od) ∧
      ND.Same od (subND ov ow) := by
  have hpos : 0 < v.shape.length := by
    cases hs : v.shape with
    | nil => rw [hs] at h3; simp at h3
    | cons => simp
  have hax : AxisIs (-1) v.ndim (v.ndim - 1) := ⟨by simp only [ND.ndim]; omega, .inr (by simp only [ND.ndim]; omega)⟩
  have hg : v.shape.getD (v.ndim - 1) 0 = 3 := by
    rw [List.getLast?_eq_getElem?] at h3
    simp only [ND.ndim]
    rw [List.getD_eq_getElem?_getD, h3]; rfl
  have hz : NoSwap (some 0) v.ndim := by
    intro t ht; cases ht; exact ⟨hpos, .inl rfl⟩
  have hnd : w.ndim = v.ndim := by simp [ND.ndim, hvw]
  obtain ⟨A, ov, a1, _, a2, a3, a4⟩ := C15_points_static sq hr ha hb hp v {} hax (by simp only [ND.ndim]; omega) hg rfl hz
  obtain ⟨B, ow, b1, _, b2, b3, b4⟩ := C15_points_static sq hr ha hb hp w {} (by rw [hnd]; exact hax)
    (by rw [hnd]; simp only [ND.ndim]; omega) (by rw [hvw]; exact hg) rfl (by rw [hnd]; exact hz)
  obtain ⟨C, od, c1, _, c2, c3, c4⟩ := C15_vectors_static sq hr ha hb hp (subND v w) {} (p := v.ndim - 1) hax hg rfl hz
  have e1 := isTransformAt_unique hr.wf (mv := false) (by simp) hp (b1 0) (a1 0)
  have e2 := isTransformAt_unique hr.wf (mv := false) (by simp) hp (c1 0) (a1 0)
  subst e1 e2
  refine ⟨ov, ow, od, by simpa [returned] using a2, by simpa [returned] using b2, by simpa [returned] using c2,
    by rw [c3, subND, subND, a3], fun idx hv => ?_⟩
  rw [c3] at hv
  have hl : v.ndim - 1 < v.shape.length := by simp only [ND.ndim]; omega
  apply get_eq_of_vec3 (p := v.ndim - 1) (by rw [hv.length]; exact hl)
    (by have := valid_getD_lt hv hl; simp only [subND, hg] at this; exact this)
  rw [c4 idx hv, vec3_sub, vec3_sub, a4 idx hv, b4 idx (by rw [hvw]; exact hv), act_sub]

/-- Non-vacuous: the example tree, two points. -/
example : ∃ ov ow od, Ex.s4.transformPoints Ex.holdSquad 2 (Ex.arr1 [1, 2, 3]) (.byObj 3) {} = .ok (.single ov) ∧
      Ex.s4.transformPoints Ex.holdSquad 2 (Ex.arr1 [0, 5, 3]) (.byObj 3) {} = .ok (.single ow) ∧
      Ex.s4.transformVectors Ex.holdSquad 2 (subND (Ex.arr1 [1, 2, 3]) (Ex.arr1 [0, 5, 3])) (.byObj 3) {} = .ok (.single od) ∧
      ND.Same od (subND ov ow) :=
  C15_difference_static _ Ex.reach4 (by rw [Ex.s4_eq]; norm_num) (by rw [Ex.s4_eq]; norm_num) ex_pathAll_static _ _ rfl rfl

/-! ### C16 -/

/-- The numpy array of one vector. -/
def ofVec (w : Vec) : ND ℝ := ⟨[3], fun idx => w (Fin.ofNat 3 (idx.getD 0 0))⟩

theorem vec3_ofVec (w : Vec) : vec3 (ofVec w) 0 [0] = w := by
  funext k; fin_cases k <;> rfl

/-- Rotating a vector `w` by the transformed orientation is the same as rotating it by the original
orientation and transforming the result with `transform_vectors`. -/
theorem C16_compatible (sq : SquadFn) {s : State} {h : List Event} (hr : Reachable s h) {a b : ℕ}
    (ha : a < s.size) (hb : b < s.size) (hp : PathAll s a b (FrameOk false s)) (v : ND ℝ) (o : TArgs) {p : ℕ}
    (hax : AxisIs o.axis v.ndim p) (h4 : v.shape.getD p 0 = 4) (hts : o.timestamps = none)
    (hta : NoSwap o.timeAxis v.ndim) :
    ∃ out, s.transformQuaternions sq a v (.byObj b) o = .ok (returned o.returnTimestamps out none) ∧
      ∀ idx, Valid v.shape idx → quat4 v p idx ≠ 0 → ∀ w : Vec,
        ∃ ow, s.transformVectors sq a (ofVec (rot (quat4 v p idx) w)) (.byObj b) {} = .ok (.single ow) ∧
          vec3 ow 0 [0] = rot (quat4 out p idx) w := by
  obtain ⟨A, out, h1, _, h2, _, h3⟩ := C16_orientations_static sq hr ha hb hp v o hax h4 hts hta
  refine ⟨out, h2, fun idx hv hne w => ?_⟩
  have hA := isTransformAt_ne hr.wf (mv := false) (by simp) hp (h1 0)
  obtain ⟨B, ow, b1, _, b2, _, b4⟩ := C15_vectors_static sq hr ha hb hp (ofVec (rot (quat4 v p idx) w)) {} (p := 0)
    ⟨by simp [ND.ndim, ofVec], .inr (by simp [ND.ndim, ofVec])⟩ rfl rfl
    (by intro t ht; cases ht; exact ⟨by simp [ND.ndim, ofVec], .inl rfl⟩)
  have e := isTransformAt_unique hr.wf (mv := false) (by simp) hp (b1 0) (h1 0)
  subst e
  refine ⟨ow, by simpa [returned] using b2, ?_⟩
  rw [b4 [0] ⟨by norm_num, trivial⟩, vec3_ofVec, h3 idx hv, rot_mul _ _ hA hne]

/-- Along unit rotations the norm of every orientation is preserved (static or moving path, any
change of coordinates `A` as in C16_orientations_static / C16_orientations_timed). -/
theorem C16_norm (sq : SquadFn) (hsq : SquadLaw sq) {s : State} {h : List Event} (hr : Reachable s h) {a b : ℕ}
    (hp : PathAll s a b (FrameOk true s)) {τ : ℝ} {A : Pose} (hA : IsTransformAt sq s a b τ A) (q : Quat) :
    nsq (A.r * q) = nsq q := by
  rw [nsq_mul, isTransformAt_unit hr.wf hsq hp hA, one_mul]

example : ∃ out, Ex.s4.transformQuaternions Ex.holdSquad 2 (Ex.arr1 [0, 1, 0, 0]) (.byObj 3) {} =
      .ok (returned false out none) ∧
    ∀ idx, Valid [4] idx → quat4 (Ex.arr1 [0, 1, 0, 0]) 0 idx ≠ 0 → ∀ w : Vec,
        ∃ ow, Ex.s4.transformVectors Ex.holdSquad 2 (ofVec (rot (quat4 (Ex.arr1 [0, 1, 0, 0]) 0 idx) w)) (.byObj 3) {} = .ok (.single ow) ∧
          vec3 ow 0 [0] = rot (quat4 out 0 idx) w :=
  C16_compatible _ Ex.reach4 (by rw [Ex.s4_eq]; norm_num) (by rw [Ex.s4_eq]; norm_num) ex_pathAll_static _ {}
    ⟨by simp [ND.ndim, Ex.arr1], .inr (by simp [ND.ndim, Ex.arr1])⟩ rfl rfl
    (by intro t ht; cases ht; exact ⟨by simp [ND.ndim, Ex.arr1], .inl rfl⟩)

/-! ### C17 -/

/-- Vectors: there and back again, any shape and spatial axis. -/
theorem C17_vectors_static (sq : SquadFn) {s : State} {h : List Event} (hr : Reachable s h) {a b : ℕ}
    (ha : a < s.size) (hb : b < s.size) (hp : PathAll s a b (FrameOk false s)) (v : ND ℝ) (o : TArgs) {p : ℕ}
    (hax : AxisIs o.axis v.ndim p) (h3 : v.shape.getD p 0 = 3) (hts : o.timestamps = none)
    (hta : NoSwap o.timeAxis v.ndim) :
    ∃ out back, s.transformVectors sq a v (.byObj b) o = .ok (returned o.returnTimestamps out none) ∧
      s.transformVectors sq b out (.byObj a) o = .ok (returned o.returnTimestamps back none) ∧ ND.Same back v := by
  obtain ⟨A, out, a1, _, a2, a3, a4⟩ := C15_vectors_static sq hr ha hb hp v o hax h3 hts hta
  have hnd : out.ndim = v.ndim := by simp [ND.ndim, a3]
  obtain ⟨B, back, b1, _, b2, b3, b4⟩ := C15_vectors_static sq hr hb ha (pathAll_symm hp) out o (p := p)
    (by rw [hnd]; exact hax) (by rw [a3]; exact h3) hts (by rw [hnd]; exact hta)
  refine ⟨out, back, a2, b2, b3.trans a3, fun idx hv => ?_⟩
  rw [b3, a3] at hv
  apply get_eq_of_vec3 (p := p) (by rw [hv.length]; exact hax.1) (by have := valid_getD_lt hv hax.1; omega)
  rw [b4 idx (by rw [a3]; exact hv), a4 idx hv, (isTransformAt_back hr.wf (mv := false) (by simp) hp (a1 0) (b1 0)).2.1]

/-- Points, spatial axis last. -/
theorem C17_points_static (sq : SquadFn) {s : State} {h : List Event} (hr : Reachable s h) {a b : ℕ}
    (ha : a < s.size) (hb : b < s.size) (hp : PathAll s a b (FrameOk false s)) (v : ND ℝ) (o : TArgs) {p : ℕ}
    (hax : AxisIs o.axis v.ndim p) (hlast : p + 1 = v.ndim) (h3 : v.shape.getD p 0 = 3) (hts : o.timestamps = none)
    (hta : NoSwap o.timeAxis v.ndim) :
    ∃ out back, s.transformPoints sq a v (.byObj b) o = .ok (returned o.returnTimestamps out none) ∧
      s.transformPoints sq b out (.byObj a) o = .ok (returned o.returnTimestamps back none) ∧ ND.Same back v := by
  obtain ⟨A, out, a1, _, a2, a3, a4⟩ := C15_points_static sq hr ha hb hp v o hax hlast h3 hts hta
  have hnd : out.ndim = v.ndim := by simp [ND.ndim, a3]
  obtain ⟨B, back, b1, _, b2, b3, b4⟩ := C15_points_static sq hr hb ha (pathAll_symm hp) out o (p := p)
    (by rw [hnd]; exact hax) (by rw [hnd]; exact hlast) (by rw [a3]; exact h3) hts (by rw [hnd]; exact hta)
  refine ⟨out, back, a2, b2, b3.trans a3, fun idx hv => ?_⟩
  rw [b3, a3] at hv
  apply get_eq_of_vec3 (p := p) (by rw [hv.length]; exact hax.1) (by have := valid_getD_lt hv hax.1; omega)
  rw [b4 idx (by rw [a3]; exact hv), a4 idx hv, (isTransformAt_back hr.wf (mv := false) (by simp) hp (a1 0) (b1 0)).1]

/-- Orientations, any shape and axis. -/
theorem C17_quaternions_static (sq : SquadFn) {s : State} {h : List Event} (hr : Reachable s h) {a b : ℕ}
    (ha : a < s.size) (hb : b < s.size) (hp : PathAll s a b (FrameOk false s)) (v : ND ℝ) (o : TArgs) {p : ℕ}
    (hax : AxisIs o.axis v.ndim p) (h4 : v.shape.getD p 0 = 4) (hts : o.timestamps = none)
    (hta : NoSwap o.timeAxis v.ndim) :
    ∃ out back, s.transformQuaternions sq a v (.byObj b) o = .ok (returned o.returnTimestamps out none) ∧
      s.transformQuaternions sq b out (.byObj a) o = .ok (returned o.returnTimestamps back none) ∧ ND.Same back v := by
  obtain ⟨A, out, a1, _, a2, a3, a4⟩ := C16_orientations_static sq hr ha hb hp v o hax h4 hts hta
  have hnd : out.ndim = v.ndim := by simp [ND.ndim, a3]
  obtain ⟨B, back, b1, _, b2, b3, b4⟩ := C16_orientations_static sq hr hb ha (pathAll_symm hp) out o (p := p)
    (by rw [hnd]; exact hax) (by rw [a3]; exact h4) hts (by rw [hnd]; exact hta)
  refine ⟨out, back, a2, b2, b3.trans a3, fun idx hv => ?_⟩
  rw [b3, a3] at hv
  apply get_eq_of_quat4 (p := p) (by rw [hv.length]; exact hax.1) (by have := valid_getD_lt hv hax.1; omega)
  rw [b4 idx (by rw [a3]; exact hv), a4 idx hv, (isTransformAt_back hr.wf (mv := false) (by simp) hp (a1 0) (b1 0)).2.2]

/-- Non-vacuous: a `(2, 3)` array of points in the example tree. -/
example : ∃ out back, Ex.s4.transformPoints Ex.holdSquad 2 (Ex.arr2 3 [[1, 2, 3], [4, 5, 6]]) (.byObj 3) {} =
      .ok (returned false out none) ∧
    Ex.s4.transformPoints Ex.holdSquad 3 out (.byObj 2) {} = .ok (returned false back none) ∧
    ND.Same back (Ex.arr2 3 [[1, 2, 3], [4, 5, 6]]) :=
  C17_points_static _ Ex.reach4 (by rw [Ex.s4_eq]; norm_num) (by rw [Ex.s4_eq]; norm_num) ex_pathAll_static _ {} (p := 1)
    ⟨by simp [ND.ndim, Ex.arr2], .inr (by simp [ND.ndim, Ex.arr2])⟩ rfl rfl rfl
    (by intro t ht; cases ht; exact ⟨by simp [ND.ndim, Ex.arr2], .inl rfl⟩)

/-! ### C17 for timestamped arrays and moving frames -/

theorem valid_set_set {sh idx : List ℕ} {q i n : ℕ} (h : Valid sh idx) (hi : i < n) : Valid (sh.set q n) (idx.set q i) := by
  obtain ⟨h1, h2⟩ := valid_iff.mp h
  refine valid_iff.mpr ⟨by simp [h1], fun k hk => ?_⟩
  simp at hk
  by_cases hq : q < sh.length
  · rw [getD_set (by omega), getD_set hq]
    split
    · exact hi
    · exact h2 k hk
  · rw [List.set_eq_of_length_le (by omega), List.set_eq_of_length_le (by omega)]
    exact h2 k hk

theorem outStamps_sorted {s : State} {l : List ℕ} {ats : List ℝ} (h : StrictlyIncreasing ats) :
    StrictlyIncreasing (outStamps s l ats) := h.sublist List.filter_sublist

theorem mem_outStamps {s : State} {l : List ℕ} {ats : List ℝ} {τ : ℝ} : τ ∈ outStamps s l ats ↔
    τ ∈ ats ∧ InRange ats τ ∧ ∀ i ∈ l, ∀ y, stampsOf s false i = some y → InRange y τ := by
  simp only [outStamps, commonStamps, List.mem_filter, decide_eq_true_eq, List.forall_mem_cons, List.mem_filterMap]
  constructor
  · rintro ⟨h1, h2, h3⟩; exact ⟨h1, h2, fun i hi y hy => h3 y ⟨i, hi, hy⟩⟩
  · rintro ⟨h1, h2, h3⟩; exact ⟨h1, h2, fun y ⟨i, hi, hy⟩ => h3 i hi y hy⟩

theorem inRange_mem {l : List ℝ} (h : StrictlyIncreasing l) {τ : ℝ} (hτ : τ ∈ l) : InRange l τ := by
  obtain ⟨k, hk⟩ := List.mem_iff_getElem?.mp hτ
  exact ⟨StrictlyIncreasing.head_le h hk, StrictlyIncreasing.le_last h hk⟩

theorem outStamps_idem {s : State} {l l' : List ℕ} {ats : List ℝ} (h : StrictlyIncreasing ats) (hl : ∀ i ∈ l', i ∈ l) :
    outStamps s l' (outStamps s l ats) = outStamps s l ats := by
  rw [outStamps, commonStamps, List.filter_eq_self]
  intro τ hτ
  simp only [decide_eq_true_eq, List.forall_mem_cons]
  refine ⟨inRange_mem (outStamps_sorted h) hτ, fun y hy => ?_⟩
  obtain ⟨i, hi, hy⟩ := List.mem_filterMap.mp hy
  exact (mem_outStamps.mp hτ).2.2 i (hl i hi) y hy

theorem timed_out {s : State} {l : List ℕ} {v out : ND ℝ} {q : ℕ} {ats : List ℝ} (htd : TimedArray v q ats)
    (h2 : 2 ≤ (outStamps s l ats).length) (hsh : out.shape = v.shape.set q (outStamps s l ats).length) :
    TimedArray out q (outStamps s l ats) ∧ out.ndim = v.ndim ∧ ∀ p, p ≠ q → out.shape.getD p 0 = v.shape.getD p 0 := by
  have hn : out.ndim = v.ndim := by simp [ND.ndim, hsh]
  refine ⟨⟨by rw [hn]; exact htd.axis, ?_, h2, outStamps_sorted htd.sorted⟩, hn, fun p hp => ?_⟩
  · rw [hsh, getD_set htd.axis]; simp
  · rw [hsh, getD_set htd.axis, if_neg hp]

/-- Timestamped vectors, through moving frames: there and back gives, at every common timestamp,
the original vectors. -/
theorem C17_vectors_timed (sq : SquadFn) (hsq : SquadLaw sq) {s : State} {h : List Event} (hr : Reachable s h)
    {a b : ℕ} (ha : a < s.size) (hb : b < s.size) (hp : PathAll s a b (FrameOk true s)) {l : List ℕ}
    (hl : Route s a b l) (v : ND ℝ) (o o' : TArgs) {p q : ℕ} {ta : ℤ} {ats : List ℝ}
    (hax : AxisIs o.axis v.ndim p) (h3 : v.shape.getD p 0 = 3) (hta : o.timeAxis = some ta)
    (hq : AxisIs ta v.ndim q) (hts : o.timestamps = some (ofList ats)) (htd : TimedArray v q ats)
    (hp0 : p ≠ 0) (hpq : p ≠ q) (h4 : p + 1 = v.ndim)
    (h2 : 2 ≤ (outStamps s l ats).length) (ho' : o' = { o with timestamps := some (ofList (outStamps s l ats)) }) :
    ∃ out back, s.transformVectors sq a v (.byObj b) o =
        .ok (returned o.returnTimestamps out (some (outStamps s l ats))) ∧
      s.transformVectors sq b out (.byObj a) o' =
        .ok (returned o.returnTimestamps back (some (outStamps s l ats))) ∧
      back.shape = out.shape ∧
      ∀ (i k : ℕ) τ, (outStamps s l ats)[i]? = some τ → ats[k]? = some τ → ∀ idx, Valid v.shape idx →
          vec3 back p (idx.set q i) = vec3 v p (idx.set q k) := by
  obtain ⟨out, e1, e2, e3⟩ := C15_vectors_timed sq hsq hr ha hb hp hl v o hax h3 hta hq hts htd hp0 hpq (.inl h4)
  obtain ⟨t1, t2, t3⟩ := timed_out htd h2 e2
  obtain ⟨back, f1, f2, f3⟩ := C15_vectors_timed sq hsq hr hb ha (pathAll_symm hp) (route_symm hl) out o' (p := p) (q := q) (ta := ta)
    (by rw [t2, ho']; exact hax) (by rw [t3 p hpq]; exact h3) (by rw [ho']; exact hta) (by rw [t2]; exact hq) (by rw [ho']) t1 hp0 hpq (by rw [t2]; exact .inl h4)
  rw [outStamps_idem htd.sorted (by simp)] at f1 f2 f3
  rw [show o'.returnTimestamps = o.returnTimestamps by rw [ho']] at f1
  refine ⟨out, back, e1, f1, by rw [f2, e2]; simp, fun i k τ hi hk idx hv => ?_⟩
  obtain ⟨A, hA, e3⟩ := e3 i k τ hi hk
  obtain ⟨B, hB, f3⟩ := f3 i i τ hi hi
  have := f3 (idx.set q i) (by rw [e2]; exact valid_set_set hv (List.getElem?_eq_some_iff.mp hi).1)
  simp only [List.set_set] at this
  rw [this, e3 idx hv, (isTransformAt_back hr.wf (mv := true) (fun _ => hsq) hp hA hB).2.1]

/-- Timestamped points. -/
theorem C17_points_timed (sq : SquadFn) (hsq : SquadLaw sq) {s : State} {h : List Event} (hr : Reachable s h)
    {a b : ℕ} (ha : a < s.size) (hb : b < s.size) (hp : PathAll s a b (FrameOk true s)) {l : List ℕ}
    (hl : Route s a b l) (v : ND ℝ) (o o' : TArgs) {p q : ℕ} {ta : ℤ} {ats : List ℝ}
    (hax : AxisIs o.axis v.ndim p) (h3 : v.shape.getD p 0 = 3) (hta : o.timeAxis = some ta)
    (hq : AxisIs ta v.ndim q) (hts : o.timestamps = some (ofList ats)) (htd : TimedArray v q ats)
    (hp0 : p ≠ 0) (hpq : p ≠ q) (h4 : p + 1 = v.ndim)
    (h2 : 2 ≤ (outStamps s l ats).length) (ho' : o' = { o with timestamps := some (ofList (outStamps s l ats)) }) :
    ∃ out back, s.transformPoints sq a v (.byObj b) o =
        .ok (returned o.returnTimestamps out (some (outStamps s l ats))) ∧
      s.transformPoints sq b out (.byObj a) o' =
        .ok (returned o.returnTimestamps back (some (outStamps s l ats))) ∧
      back.shape = out.shape ∧
      ∀ (i k : ℕ) τ, (outStamps s l ats)[i]? = some τ → ats[k]? = some τ → ∀ idx, Valid v.shape idx →
          vec3 back p (idx.set q i) = vec3 v p (idx.set q k) := by
  obtain ⟨out, e1, e2, e3⟩ := C15_points_timed sq hsq hr ha hb hp hl v o hax h3 hta hq hts htd hp0 hpq h4
  obtain ⟨t1, t2, t3⟩ := timed_out htd h2 e2
  obtain ⟨back, f1, f2, f3⟩ := C15_points_timed sq hsq hr hb ha (pathAll_symm hp) (route_symm hl) out o' (p := p) (q := q) (ta := ta)
    (by rw [t2, ho']; exact hax) (by rw [t3 p hpq]; exact h3) (by rw [ho']; exact hta) (by rw [t2]; exact hq) (by rw [ho']) t1 hp0 hpq (by rw [t2]; exact h4)
  rw [outStamps_idem htd.sorted (by simp)] at f1 f2 f3
  rw [show o'.returnTimestamps = o.returnTimestamps by rw [ho']] at f1
  refine ⟨out, back, e1, f1, by rw [f2, e2]; simp, fun i k τ hi hk idx hv => ?_⟩
  obtain ⟨A, hA, e3⟩ := e3 i k τ hi hk
  obtain ⟨B, hB, f3⟩ := f3 i i τ hi hi
  have := f3 (idx.set q i) (by rw [e2]; exact valid_set_set hv (List.getElem?_eq_some_iff.mp hi).1)
  simp only [List.set_set] at this
  rw [this, e3 idx hv, (isTransformAt_back hr.wf (mv := true) (fun _ => hsq) hp hA hB).1]

/-- Timestamped unit orientations `(n, 4)`. -/
theorem C17_quaternions_timed (sq : SquadFn) (hsq : SquadLaw sq) {s : State} {h : List Event} (hr : Reachable s h)
    {a b : ℕ} (ha : a < s.size) (hb : b < s.size) (hp : PathAll s a b (FrameOk true s)) {l : List ℕ}
    (hl : Route s a b l) (v : ND ℝ) (o o' : TArgs) {ats : List ℝ} (hsh : v.shape = [ats.length, 4])
    (hoa : o.axis = -1) (hta : o.timeAxis = some 0) (hts : o.timestamps = some (ofList ats)) (hat : 2 ≤ ats.length)
    (hinc : StrictlyIncreasing ats) (hu : ∀ i < ats.length, IsUnitQ (quat4 v 1 [i, 0]))
    (h2 : 2 ≤ (outStamps s l ats).length) (ho' : o' = { o with timestamps := some (ofList (outStamps s l ats)) }) :
    ∃ out back, s.transformQuaternions sq a v (.byObj b) o =
        .ok (returned o.returnTimestamps out (some (outStamps s l ats))) ∧
      s.transformQuaternions sq b out (.byObj a) o' =
        .ok (returned o.returnTimestamps back (some (outStamps s l ats))) ∧
      back.shape = out.shape ∧
      ∀ (i k : ℕ) τ, (outStamps s l ats)[i]? = some τ → ats[k]? = some τ →
          quat4 back 1 [i, 0] = quat4 v 1 [k, 0] := by
  have hnd : v.ndim = 2 := by simp [ND.ndim, hsh]
  have htd : TimedArray v 0 ats := ⟨by omega, by simp [hsh], hat, hinc⟩
  have hax : AxisIs o.axis v.ndim 1 := by rw [hoa, hnd]; exact ⟨by norm_num, .inr (by norm_num)⟩
  have hq : AxisIs 0 v.ndim 0 := by rw [hnd]; exact ⟨by norm_num, .inl rfl⟩
  obtain ⟨out, e1, e2, e3⟩ := C16_orientations_timed sq hsq hr ha hb hp hl v o hax (by simp [hsh]) hta hq hts htd
    (by norm_num) (by norm_num) (.inl ⟨hnd, hu⟩)
  obtain ⟨t1, t2, t3⟩ := timed_out htd h2 e2
  have hv0 : Valid v.shape [0, 0] := by rw [hsh]; exact ⟨by omega, by norm_num, trivial⟩
  have huo : ∀ i < (outStamps s l ats).length, IsUnitQ (quat4 out 1 [i, 0]) := by
    intro i hi
    have hi' := List.getElem?_eq_getElem hi
    obtain ⟨k, hk⟩ := List.mem_iff_getElem?.mp (mem_outStamps.mp (List.mem_of_getElem? hi')).1
    obtain ⟨A, hA, e3⟩ := e3 i k _ hi' hk
    have := e3 [0, 0] hv0
    simp only [List.set_cons_zero] at this
    rw [this]
    exact (isTransformAt_unit hr.wf hsq hp hA).mul (hu k (List.getElem?_eq_some_iff.mp hk).1)
  obtain ⟨back, f1, f2, f3⟩ := C16_orientations_timed sq hsq hr hb ha (pathAll_symm hp) (route_symm hl) out o' (p := 1) (q := 0) (ta := 0)
    (by rw [t2, ho']; exact hax) (by rw [t3 1 (by norm_num)]; simp [hsh]) (by rw [ho']; exact hta) (by rw [t2]; exact hq) (by rw [ho']) t1
    (by norm_num) (by norm_num) (.inl ⟨by rw [t2, hnd], huo⟩)
  rw [outStamps_idem htd.sorted (by simp)] at f1 f2 f3
  rw [show o'.returnTimestamps = o.returnTimestamps by rw [ho']] at f1
  refine ⟨out, back, e1, f1, by rw [f2, e2]; simp, fun i k τ hi hk => ?_⟩
  obtain ⟨A, hA, e3⟩ := e3 i k τ hi hk
  obtain ⟨B, hB, f3⟩ := f3 i i τ hi hi
  have g1 := f3 [i, 0] (by
    rw [e2, hsh]; exact ⟨(List.getElem?_eq_some_iff.mp hi).1, by norm_num, trivial⟩)
  have g2 := e3 [0, 0] hv0
  simp only [List.set_cons_zero] at g1 g2
  rw [g1, g2, (isTransformAt_back hr.wf (mv := true) (fun _ => hsq) hp hA hB).2.2]

theorem ex_route_moving : Route Ex.m3 1 2 [1, 2] := by
  have e := Ex.m3_eq
  have p1 : Ex.m3.parent 1 = some 0 := by rw [e]; simp
  have p2 : Ex.m3.parent 2 = some 0 := by rw [e]; simp
  have p0 : Ex.m3.parent 0 = none := by rw [e]; simp
  refine ⟨0, [1], [2], ⟨.single p1, .single p2, ?_⟩, .up (by simp) p1 .here, .up (by simp) p2 .here, rfl⟩
  intro d h1 h2
  rcases Relation.ReflTransGen.cases_head h1 with rfl | ⟨z, hz, h3⟩
  · rcases Relation.ReflTransGen.cases_head h2 with h | ⟨z, hz, h3⟩
    · exact absurd h (by norm_num)
    · rw [ParentOf, p2] at hz; cases hz
      rcases Relation.ReflTransGen.cases_head h3 with h | ⟨z, hz, h3⟩
      · exact absurd h (by norm_num)
      · rw [ParentOf, p0] at hz; simp at hz
  · rw [ParentOf, p1] at hz; cases hz; exact h3

theorem ex_outStamps : outStamps Ex.m3 [1, 2] [-1, 0, 1] = [0, 1] := by
  have e : [1, 2].filterMap (stampsOf Ex.m3 false) = [[0, 1, 2]] := by
    rw [Ex.m3_eq]; simp [stampsOf, Ex.dataM, Ex.dataD]
  rw [outStamps, e, commonStamps]
  simp [List.filter_cons, InRange]

/-- Non-vacuous: points with timestamps `[-1, 0, 1]`, of which two lie in the range of the moving
frame. -/
example : ∃ out back, Ex.m3.transformPoints Ex.holdSquad 1 (Ex.arr2 3 [[1, 2, 3], [4, 5, 6], [7, 8, 9]]) (.byObj 2)
        { timestamps := some (ofList [-1, 0, 1]) } = .ok (returned false out (some [0, 1])) ∧
      Ex.m3.transformPoints Ex.holdSquad 2 out (.byObj 1) { timestamps := some (ofList [0, 1]) } =
        .ok (returned false back (some [0, 1])) ∧
      back.shape = out.shape ∧
      ∀ (i k : ℕ) τ, ([0, 1] : List ℝ)[i]? = some τ → ([-1, 0, 1] : List ℝ)[k]? = some τ → ∀ idx, Valid [3, 3] idx →
          vec3 back 1 (idx.set 0 i) = vec3 (Ex.arr2 3 [[1, 2, 3], [4, 5, 6], [7, 8, 9]]) 1 (idx.set 0 k) := by
  have := C17_points_timed Ex.holdSquad Ex.holdSquad_law Ex.reachM (by rw [Ex.m3_eq]; norm_num) (by rw [Ex.m3_eq]; norm_num)
    ex_pathAll_moving ex_route_moving (Ex.arr2 3 [[1, 2, 3], [4, 5, 6], [7, 8, 9]]) { timestamps := some (ofList [-1, 0, 1]) }
    { timestamps := some (ofList [0, 1]) } (p := 1) (q := 0) (ta := 0) (ats := [-1, 0, 1])
    ⟨by simp [ND.ndim, Ex.arr2], .inr (by simp [ND.ndim, Ex.arr2])⟩ rfl rfl ⟨by simp [ND.ndim, Ex.arr2], .inl rfl⟩ rfl
    ⟨by simp [ND.ndim, Ex.arr2], rfl, by simp, by simp [StrictlyIncreasing]⟩ (by norm_num) (by norm_num) rfl
    (by rw [ex_outStamps]; simp) (by rw [ex_outStamps])
  rw [ex_outStamps] at this
  exact this

/-! ### C11 for arrays -/

/-- Transforming a static array from a frame to itself returns the array: vectors, points,
orientations. -/
theorem C11_vectors (sq : SquadFn) {s : State} {h : List Event} (hr : Reachable s h) {a : ℕ}
    (ha : a < s.size) (v : ND ℝ) (o : TArgs) {p : ℕ}
    (hax : AxisIs o.axis v.ndim p) (h3 : v.shape.getD p 0 = 3) (hts : o.timestamps = none)
    (hta : NoSwap o.timeAxis v.ndim) :
    ∃ out, s.transformVectors sq a v (.byObj a) o = .ok (returned o.returnTimestamps out none) ∧ ND.Same out v := by
  obtain ⟨A, out, a1, _, a2, a3, a4⟩ := C15_vectors_static sq hr ha ha pathAll_self v o hax h3 hts hta
  have e := isTransformAt_self hr.wf (a1 0)
  subst e
  refine ⟨out, a2, a3, fun idx hv => ?_⟩
  rw [a3] at hv
  apply get_eq_of_vec3 (p := p) (by rw [hv.length]; exact hax.1) (by have := valid_getD_lt hv hax.1; omega)
  rw [a4 idx hv]; simp [Pose.id]

theorem C11_points (sq : SquadFn) {s : State} {h : List Event} (hr : Reachable s h) {a : ℕ}
    (ha : a < s.size) (v : ND ℝ) (o : TArgs) {p : ℕ}
    (hax : AxisIs o.axis v.ndim p) (hlast : p + 1 = v.ndim) (h3 : v.shape.getD p 0 = 3) (hts : o.timestamps = none)
    (hta : NoSwap o.timeAxis v.ndim) :
    ∃ out, s.transformPoints sq a v (.byObj a) o = .ok (returned o.returnTimestamps out none) ∧ ND.Same out v := by
  obtain ⟨A, out, a1, _, a2, a3, a4⟩ := C15_points_static sq hr ha ha pathAll_self v o hax hlast h3 hts hta
  have e := isTransformAt_self hr.wf (a1 0)
  subst e
  refine ⟨out, a2, a3, fun idx hv => ?_⟩
  rw [a3] at hv
  apply get_eq_of_vec3 (p := p) (by rw [hv.length]; exact hax.1) (by have := valid_getD_lt hv hax.1; omega)
  rw [a4 idx hv]; simp [Pose.id, Pose.act]

theorem C11_quaternions (sq : SquadFn) {s : State} {h : List Event} (hr : Reachable s h) {a : ℕ}
    (ha : a < s.size) (v : ND ℝ) (o : TArgs) {p : ℕ}
    (hax : AxisIs o.axis v.ndim p) (h4 : v.shape.getD p 0 = 4) (hts : o.timestamps = none)
    (hta : NoSwap o.timeAxis v.ndim) :
    ∃ out, s.transformQuaternions sq a v (.byObj a) o = .ok (returned o.returnTimestamps out none) ∧ ND.Same out v := by
  obtain ⟨A, out, a1, _, a2, a3, a4⟩ := C16_orientations_static sq hr ha ha pathAll_self v o hax h4 hts hta
  have e := isTransformAt_self hr.wf (a1 0)
  subst e
  refine ⟨out, a2, a3, fun idx hv => ?_⟩
  rw [a3] at hv
  apply get_eq_of_quat4 (p := p) (by rw [hv.length]; exact hax.1) (by have := valid_getD_lt hv hax.1; omega)
  rw [a4 idx hv]; simp [Pose.id]

open Classical in
theorem outStamps_nil {s : State} {ats : List ℝ} (h : StrictlyIncreasing ats) : outStamps s [] ats = ats := by
  rw [outStamps, commonStamps, List.filter_eq_self]
  intro τ hτ
  simp only [decide_eq_true_eq]
  intro y hy
  simp only [List.filterMap_nil, List.mem_singleton] at hy
  exact hy ▸ inRange_mem h hτ

/-- Timestamped arrays of points come back unchanged too, with their own timestamps. -/
theorem C11_points_timed (sq : SquadFn) (hsq : SquadLaw sq) {s : State} {h : List Event} (hr : Reachable s h)
    {a : ℕ} (ha : a < s.size) (v : ND ℝ) (o : TArgs) {p q : ℕ} {ta : ℤ} {ats : List ℝ}
    (hax : AxisIs o.axis v.ndim p) (h3 : v.shape.getD p 0 = 3) (hta : o.timeAxis = some ta)
    (hq : AxisIs ta v.ndim q) (hts : o.timestamps = some (ofList ats)) (htd : TimedArray v q ats)
    (hp0 : p ≠ 0) (hpq : p ≠ q) (hlast : p + 1 = v.ndim) :
    ∃ out, s.transformPoints sq a v (.byObj a) o = .ok (returned o.returnTimestamps out (some ats)) ∧ ND.Same out v := by
  obtain ⟨out, e1, e2, e3⟩ := C15_points_timed sq hsq hr ha ha pathAll_self route_self v o hax h3 hta hq hts htd hp0 hpq hlast
  rw [outStamps_nil htd.sorted] at e1 e2 e3
  have hsh : out.shape = v.shape := by rw [e2, ← htd.length]; exact set_getD_self
  refine ⟨out, e1, hsh, fun idx hv => ?_⟩
  rw [hsh] at hv
  apply get_eq_of_vec3 (p := p) (by rw [hv.length]; exact hax.1) (by have := valid_getD_lt hv hax.1; omega)
  have hk := valid_getD_lt hv htd.axis
  rw [htd.length] at hk
  have hk' := List.getElem?_eq_getElem hk
  obtain ⟨A, hA, e3⟩ := e3 _ _ _ hk' hk'
  have := e3 idx hv
  rw [set_getD_self, isTransformAt_self hr.wf hA] at this
  rw [this]; simp [Pose.id, Pose.act]

example : ∃ out, Ex.m3.transformPoints Ex.holdSquad 1 (Ex.arr1 [1, 2, 3]) (.byObj 1) {} = .ok (returned false out none) ∧
    ND.Same out (Ex.arr1 [1, 2, 3]) :=
  C11_points _ Ex.reachM (by rw [Ex.m3_eq]; norm_num) _ {} (p := 0)
    ⟨by simp [ND.ndim, Ex.arr1], .inr (by simp [ND.ndim, Ex.arr1])⟩ rfl rfl rfl
    (by intro t ht; cases ht; exact ⟨by simp [ND.ndim, Ex.arr1], .inl rfl⟩)

end RBM.Props
