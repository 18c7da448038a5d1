import Verif.Props.TransformStatic

/-!
Axis arguments of `rotate_vectors` and the transform functions (C31, C32, C33), and
`return_timestamps` (C34).
-/

namespace RBM.Props

open RBM Spec

/-! ### C31 -/

/-- `rotate_vectors(q, v, axis)` with one unit quaternion per vector, the spatial axis being the last
or the second to last: every vector is rotated by the quaternion at its own position. The full
statement (any spatial axis) is false, see C31_rotate_is_false. -/
theorem C31_rotate_partial (q : ND Quat) (v : ND ℝ) {axis : ℤ} {p : ℕ} (hax : AxisIs axis v.ndim p)
    (h3 : v.shape.getD p 0 = 3) (hlast : p + 1 = v.ndim ∨ p + 2 = v.ndim) (hq : q.shape = v.shape.eraseIdx p)
    (hnd : q.shape ≠ []) (hu : ∀ idx, Valid q.shape idx → IsUnitQ (q.get idx)) :
    ∃ R, rotateVectorsQ q v axis = .ok R ∧ R.shape = v.shape ∧ ∀ idx, Valid v.shape idx →
      vec3 R p idx = rot (q.get (idx.eraseIdx p)) (vec3 v p idx) := by
  have hb : Bcast q.shape (v.shape.eraseIdx p) := by rw [hq]; exact Bcast.refl _
  have hs : SwapOk q.shape v.shape p := by
    rcases hlast with h | h
    · exact swapOk_last h hb
    · have hl : p + 2 = v.shape.length := h
      have hpl := hax.1
      simp only [ND.ndim] at hpl
      have e : v.shape = v.shape.take p ++ [v.shape.getD p 0, v.shape.getD (p + 1) 0] := by
        apply list_ext_getD
        · simp; omega
        · intro k hk
          simp only [List.getD_eq_getElem?_getD, List.getElem?_append, List.length_take, List.getElem?_take,
            Nat.min_eq_left (le_of_lt hpl)]
          split
          · rfl
          · have : k = p ∨ k = p + 1 := by omega
            rcases this with rfl | rfl <;> simp [Nat.add_sub_cancel_left]
      have hlt : (v.shape.take p).length = p := by simp; omega
      have := swapOk_penult (qsh := q.shape) (w := v.shape.take p) (x := v.shape.getD p 0) (b := v.shape.getD (p + 1) 0) (by
        rw [hq]
        have : v.shape.eraseIdx p = v.shape.take p ++ [v.shape.getD (p + 1) 0] := by
          conv_lhs => rw [e]
          rw [List.eraseIdx_append_of_length_le (by omega)]
          simp [hlt]
        rw [this]; exact Bcast.refl _)
      rw [← e, hlt] at this
      exact this
  obtain ⟨R, r1, r2, r3⟩ := rotateVectorsQ_array q v (axisIs_norm hax) h3 hb hs (by
    simp only [ND.ndim]; intro h; exact hnd (List.length_eq_zero_iff.mp h)) (fun idx hi => (hu idx hi).ne_zero)
  refine ⟨R, r1, r2, fun idx hv => ?_⟩
  have hl : p < idx.length := by rw [hv.length]; exact hax.1
  have hve := (valid_eraseIdx hax.1 hv).1
  rw [← hq] at hve
  apply vec3_of_entries hl
  intro c
  rw [r3 _ (valid_set hv (by rw [h3]; exact c.2)), eraseIdx_set, vecAt_set, bidx_valid hve,
    crossForm_eq_rot _ (hu _ hve), vec3_eq]

/-- Non-vacuous: two vectors in the columns of a `(3, 2)` array. -/
example : ∃ R, rotateVectorsQ ⟨[2], fun _ => ⟨0, 0, 0, 1⟩⟩ (Ex.arr2 2 [[1, 2], [3, 4], [5, 6]]) 0 = .ok R ∧ R.shape = [3, 2] ∧
    ∀ idx, Valid [3, 2] idx → vec3 R 0 idx = rot ⟨0, 0, 0, 1⟩ (vec3 (Ex.arr2 2 [[1, 2], [3, 4], [5, 6]]) 0 idx) :=
  C31_rotate_partial ⟨[2], fun _ => ⟨0, 0, 0, 1⟩⟩ (Ex.arr2 2 [[1, 2], [3, 4], [5, 6]]) (p := 0)
    ⟨by simp [ND.ndim, Ex.arr2], .inl rfl⟩ rfl (.inr rfl) rfl (by simp) (fun _ _ => by simp [IsUnitQ, nsq])

/-- Quaternions of the counterexample: the rotation by 180° about z at `(0, 1)`, identity elsewhere. -/
noncomputable def exQ : ND Quat := ⟨[2, 2], fun idx => if idx = [0, 1] then ⟨0, 0, 0, 1⟩ else 1⟩
/-- Vectors of the counterexample: unit vectors along x, spatial axis first. -/
noncomputable def exV : ND ℝ := ⟨[3, 2, 2], fun idx => if idx.getD 0 0 = 0 then 1 else 0⟩

set_option linter.unusedSimpArgs false in
theorem exQV_value : ∃ R, rotateVectorsQ exQ exV 0 = .ok R ∧ R.get [1, 0, 1] = 2 := by
  classical
  have hz : ¬ ∃ idx, Valid exQ.shape idx ∧ exQ.get idx = 0 := by
    rintro ⟨idx, _, h⟩
    by_cases hi : idx = [0, 1]
    · have := congrArg QuaternionAlgebra.imK h; simp [exQ, hi] at this
    · simp [exQ, hi] at h
  have hnm : nonmatching exQ.shape [2, 2] = false := by simp [exQ, nonmatching]
  have key : ∃ R, rotateArrayFormula exQ exV 0 = .ok R ∧ R.get [1, 0, 1] = 2 := by
    refine ⟨_, rfl, ?_⟩
    simp [ND.map, cross_apply, Matrix.vecHead, Matrix.vecTail, ND.bget, ND.bidx, exQ, exV, ND.moveaxis, moveL, swapL, ND.swapaxes, ND.ndim, qcomp]
    rfl
  obtain ⟨R, e1, e2⟩ := key
  refine ⟨R, ?_, e2⟩
  have h1 : exQ.ndim = 2 := rfl
  have h2 : exV.ndim = 3 := rfl
  have h3 : exV.shape = [3, 2, 2] := rfl
  simp only [rotateVectorsQ, h1, h2]
  simp [normAxis, e1, hz, hnm, h3]


/-- C31 is false in general: with the spatial axis first of three, the scalar parts and norms of the
quaternions are read at transposed positions, although every quaternion is a unit quaternion. -/
theorem C31_rotate_is_false : ¬ ∀ (q : ND Quat) (v : ND ℝ) (axis : ℤ) (p : ℕ), AxisIs axis v.ndim p →
    v.shape.getD p 0 = 3 → q.shape = v.shape.eraseIdx p → (∀ idx, Valid q.shape idx → IsUnitQ (q.get idx)) →
    ∃ R, rotateVectorsQ q v axis = .ok R ∧ ∀ idx, Valid v.shape idx →
      vec3 R p idx = rot (q.get (idx.eraseIdx p)) (vec3 v p idx) := by
  intro hall
  obtain ⟨R, h1, h2⟩ := hall exQ exV 0 0 ⟨by simp [ND.ndim, exV], .inl rfl⟩ rfl rfl (by
    intro idx _
    by_cases hi : idx = [0, 1]
    · simp [exQ, hi, IsUnitQ, nsq]
    · simp [exQ, hi, IsUnitQ, nsq])
  obtain ⟨R', h3, h4⟩ := exQV_value
  rw [h1] at h3
  cases h3
  have h5 := congrFun (h2 [1, 0, 1] (by simp [exV, Valid])) 1
  simp only [vec3, List.set_cons_zero] at h5
  rw [show ((![R.get [0, 0, 1], R.get [1, 0, 1], R.get [2, 0, 1]] : Vec) 1) = R.get [1, 0, 1] from rfl, h4] at h5
  obtain ⟨k, ek⟩ : ∃ k : Quat, k = ⟨0, 0, 0, 1⟩ := ⟨_, rfl⟩
  have e : exQ.get ([1, 0, 1].eraseIdx 0) = k := by rw [ek]; simp [exQ]; rfl
  have k1 : k.re = 0 := by rw [ek]
  have k2 : k.imI = 0 := by rw [ek]
  have k3 : k.imJ = 0 := by rw [ek]
  have k4 : k.imK = 1 := by rw [ek]
  have e2 : (![exV.get [0, 0, 1], exV.get [1, 0, 1], exV.get [2, 0, 1]] : Vec) = ![1, 0, 0] := by
    simp [exV]
  rw [e, e2, ← crossForm_eq_rot _ (by simp [IsUnitQ, nsq, k1, k2, k3, k4])] at h5
  norm_num [rotateCrossForm, imVec, k1, k2, k3, k4, cross_apply, Matrix.vecHead, Matrix.vecTail] at h5

/-- `transform_vectors` on a path of static frames respects the spatial axis at any position of an
array of any rank. -/
theorem C31_transform_static (sq : SquadFn) {s : State} {h : List Event} (hr : Reachable s h) {a b : ℕ}
    (ha : a < s.size) (hb : b < s.size) (hp : PathAll s a b (FrameOk false s)) (v : ND ℝ) {axis : ℤ} {p : ℕ}
    (hax : AxisIs axis v.ndim p) (h3 : v.shape.getD p 0 = 3) :
    ∃ A out, (∀ τ, IsTransformAt sq s a b τ A) ∧
      s.transformVectors sq a v (.byObj b) { axis := axis } = .ok (.single out) ∧ out.shape = v.shape ∧
      ∀ idx, Valid v.shape idx → vec3 out p idx = rot A.r (vec3 v p idx) := by
  obtain ⟨A, out, h1, _, h2⟩ := C15_vectors_static sq hr ha hb hp v { axis := axis } hax h3 rfl (by
    intro t ht; cases ht; exact ⟨by have := hax.1; omega, .inl rfl⟩)
  exact ⟨A, out, h1, h2⟩

/-- Timestamped arrays with the spatial axis first, `(3, n)` with `axis=0, time_axis=1`, cannot be
transformed unless there happen to be three output timestamps: the time axis is swapped to the front
while `axis` still says 0. So C31 is also violated by `transform_vectors`. -/
theorem C31_space_first_fails (sq : SquadFn) (hsq : SquadLaw sq) {s : State} {h : List Event} (hr : Reachable s h)
    {a b : ℕ} (ha : a < s.size) (hb : b < s.size) (hp : PathAll s a b (FrameOk true s)) {l : List ℕ}
    (hl : Route s a b l) (v : ND ℝ) {ats : List ℝ} (hv : v.shape = [3, ats.length]) (htd : TimedArray v 1 ats)
    (hne : (outStamps s l ats).length ≠ 3) (rt : Bool) :
    s.transformVectors sq a v (.byObj b) ⟨0, some 1, some (ofList ats), rt⟩ = .error .valueError := by
  have hws : (v.swapaxes 0 1).shape = [ats.length, 3] := by simp [ND.swapaxes, hv, swapL]
  obtain ⟨fs, T, t, r, w', R, e1, e2, e3, e4, e5, e6, _⟩ := vectorsCore_timed sq hsq hr.wf ha hb hp hl
    (v.swapaxes 0 1) (rest := [3]) (ats := ats) hws htd.two htd.sorted (axis := -1) (p := 1)
    ⟨by simp [ND.ndim, hws], .inr (by simp [ND.ndim, hws])⟩ one_ne_zero (by simp [hws]) (by simp [hws])
  have hax : AxisIs 0 v.ndim 0 := ⟨by simp [ND.ndim, hv], .inl rfl⟩
  have hq : AxisIs 1 v.ndim 1 := ⟨by simp [ND.ndim, hv], .inl rfl⟩
  have hval := validateInput_timed hax (show v.shape.getD 0 0 = 3 by simp [hv]) hq htd.length
  set ts := outStamps s l ats with hts'
  change w'.shape = ts.length :: [3] at e5
  have hnd : w'.ndim = 2 := by simp [ND.ndim, e5]
  have hrot : rotateVectorsF (expandSingletonAxes (ND.ofQuats r) w'.ndim) w' 0 = .error .valueError := by
    simp only [rotateVectorsF] at e4 ⊢
    cases hsw : (expandSingletonAxes (ND.ofQuats r) w'.ndim).swapaxesZ (-1) (-1) with
    | error e => rw [hsw] at e4; simp [bind, Except.bind] at e4
    | ok X =>
      rw [hsw] at e4
      simp only [bind, Except.bind] at e4 ⊢
      cases hsq' : asQuatArray X with
      | error e => rw [hsq'] at e4; simp at e4
      | ok Q =>
        simp only
        simp only [rotateVectorsQ, hnd]
        split
        · simp only [quatRv, hnd, show normAxis 0 2 = some 0 by simp [normAxis], e5]
          simp [hne]
        · simp only [show normAxis 0 2 = some 0 by simp [normAxis], e5]
          simp [hne]
  simp only [State.transformVectors, State.transformVectorsCore, hval, bind, Except.bind, e1, e2, e3]
  simp only [hrot]

/-- Non-vacuous: three components in rows, timestamps `[-1, 0, 1]`, two of them in range. -/
example : Ex.m3.transformVectors Ex.holdSquad 1 (Ex.arr2 3 [[1, 2, 3], [4, 5, 6], [7, 8, 9]]) (.byObj 2)
    ⟨0, some 1, some (ofList [-1, 0, 1]), false⟩ = .error .valueError :=
  C31_space_first_fails Ex.holdSquad Ex.holdSquad_law Ex.reachM (by rw [Ex.m3_eq]; norm_num) (by rw [Ex.m3_eq]; norm_num)
    ex_pathAll_moving ex_route_moving (Ex.arr2 3 [[1, 2, 3], [4, 5, 6], [7, 8, 9]]) (ats := [-1, 0, 1]) rfl
    ⟨by simp [ND.ndim, Ex.arr2], rfl, by simp, by simp [StrictlyIncreasing]⟩ (by rw [ex_outStamps]; simp) false

/-! ### C32 -/

/-- Entry of the vector `w` with index `k` (the index is below 3). -/
def comp (w : Vec) (k : ℕ) : ℝ := w (Fin.ofNat 3 k)

/-- What `transform_points` computes on a static path for any spatial axis `p` of an array whose last
axis has length 3: the rotation acts along axis `p`, but the translation is always added along the
last axis. -/
theorem C32_exact (sq : SquadFn) {s : State} {h : List Event} (hr : Reachable s h) {a b : ℕ}
    (ha : a < s.size) (hb : b < s.size) (hp : PathAll s a b (FrameOk false s)) (v : ND ℝ) (o : TArgs) {p : ℕ}
    (hax : AxisIs o.axis v.ndim p) (h3 : v.shape.getD p 0 = 3) (hl3 : v.shape.getD (v.ndim - 1) 0 = 3)
    (hts : o.timestamps = none) (hta : NoSwap o.timeAxis v.ndim) :
    ∃ A out, (∀ τ, IsTransformAt sq s a b τ A) ∧
      s.transformPoints sq a v (.byObj b) o = .ok (returned o.returnTimestamps out none) ∧
      out.shape = v.shape ∧ ∀ idx, Valid v.shape idx →
        out.get idx = comp (rot A.r (vec3 v p idx)) (idx.getD p 0) + comp A.t (idx.getD (v.ndim - 1) 0) := by
  obtain ⟨A, m, h1, h2, h4, h5, h6, h7⟩ := core_static sq hr.wf ha hb hp v
  obtain ⟨R, r1, r2, r3⟩ := rotateF_one A.r h2 v.ndim v (axisIs_norm hax) h3
  have hpl := hax.1
  have hsplit := split_last (p := v.ndim - 1) (by simp only [ND.ndim] at *; omega) hl3
  obtain ⟨S, s1, s2, s3⟩ := add_one_vec R (r2.trans hsplit) A.t
  obtain ⟨out, o1, o2, o3⟩ := undo_noSwap (R := S) (ta := o.timeAxis) (by simpa [ND.ndim, s2, r2] using hta)
  have eone : expandSingletonAxes (ND.ofVecs (.one A.t)) v.ndim = ND.ofVecs (.one A.t) := by
    simp [expandSingletonAxes, ND.ndim, ND.ofVecs]
  refine ⟨A, out, h1, ?_, o2.trans (s2.trans r2), ?_⟩
  · simp only [State.transformPoints, State.transformPointsCore, hts, validateInput_static hax h3,
      bind, Except.bind, h4, h5, h6, r1, eone, s1, Pure.pure, Except.pure, o1, pyReturn_eq]
  · intro idx hv
    have hlen := hv.length
    rw [hsplit] at hv
    obtain ⟨i, k, rfl, hi, hk⟩ := valid_snoc hv
    rw [o3 _ (by simp only [ND.ndim, s2, r2]; exact hlen), s3 i k hi hk, r3, vec3_eq]
    simp only [comp]
    congr 3
    have : v.ndim - 1 = i.length := by simp only [ND.ndim, ← hlen]; simp
    rw [this]; simp

/-- With a last axis that is neither 3 nor 1 long, `transform_points` along another axis raises. -/
theorem C32_shape_error (sq : SquadFn) {s : State} {h : List Event} (hr : Reachable s h) {a b : ℕ}
    (ha : a < s.size) (hb : b < s.size) (hp : PathAll s a b (FrameOk false s)) (v : ND ℝ) (o : TArgs) {p : ℕ}
    (hax : AxisIs o.axis v.ndim p) (h3 : v.shape.getD p 0 = 3) (hl3 : v.shape.getD (v.ndim - 1) 0 ≠ 3)
    (hl1 : v.shape.getD (v.ndim - 1) 0 ≠ 1) (hts : o.timestamps = none) :
    s.transformPoints sq a v (.byObj b) o = .error .valueError := by
  obtain ⟨A, m, h1, h2, h4, h5, h6, h7⟩ := core_static sq hr.wf ha hb hp v
  obtain ⟨R, r1, r2, r3⟩ := rotateF_one A.r h2 v.ndim v (axisIs_norm hax) h3
  have eone : expandSingletonAxes (ND.ofVecs (.one A.t)) v.ndim = ND.ofVecs (.one A.t) := by
    simp [expandSingletonAxes, ND.ndim, ND.ofVecs]
  have hpl := hax.1
  have hsplit := split_last (p := v.ndim - 1) (k := v.shape.getD (v.ndim - 1) 0) (by simp only [ND.ndim] at *; omega) rfl
  set k := v.shape.getD (v.ndim - 1) 0
  have hsnoc : ∀ (x y : List ℕ), ND.bshapeEq (x ++ [k]) (y ++ [3]) = none := by
    intro x
    induction x with
    | nil =>
      intro y
      match y with
      | [] => simp [ND.bshapeEq, hl3, hl1]
      | y :: ys => cases ys <;> simp [ND.bshapeEq]
    | cons x xs ih =>
      intro y
      match y with
      | [] => cases xs <;> simp [ND.bshapeEq]
      | y :: ys => simp only [List.cons_append, ND.bshapeEq, ih]
  have hadd : ND.bop (fun x y => x + y) R (ND.ofVecs (.one A.t)) = .error .valueError := by
    simp only [ND.bop, r2, show (ND.ofVecs (.one A.t)).shape = [3] from rfl, ND.bshape]
    rw [show ND.padShape [3].length v.shape = v.shape.dropLast ++ [k] by
      conv_lhs => rw [hsplit]
      simp [ND.padShape], show ND.padShape v.shape.length [3] = List.replicate (v.shape.length - 1) 1 ++ [3] by
      simp [ND.padShape], hsnoc]
  simp only [State.transformPoints, State.transformPointsCore, hts, validateInput_static hax h3,
      bind, Except.bind, h4, h5, h6, r1, eone, hadd]

/-- Proved part of C32: with the spatial axis last, every point is mapped by the rigid motion. -/
theorem C32_axis_last_partial (sq : SquadFn) {s : State} {h : List Event} (hr : Reachable s h) {a b : ℕ}
    (ha : a < s.size) (hb : b < s.size) (hp : PathAll s a b (FrameOk false s)) (v : ND ℝ) {axis : ℤ} {p : ℕ}
    (hax : AxisIs axis v.ndim p) (hlast : p + 1 = v.ndim) (h3 : v.shape.getD p 0 = 3) :
    ∃ A out, (∀ τ, IsTransformAt sq s a b τ A) ∧
      s.transformPoints sq a v (.byObj b) { axis := axis } = .ok (.single out) ∧ out.shape = v.shape ∧
      ∀ idx, Valid v.shape idx → vec3 out p idx = A.act (vec3 v p idx) := by
  obtain ⟨A, out, h1, _, h2⟩ := C15_points_static sq hr ha hb hp v { axis := axis } hax hlast h3 rfl (by
    intro t ht; cases ht; exact ⟨by have := hax.1; omega, .inl rfl⟩)
  exact ⟨A, out, h1, h2⟩

/-- Non-vacuous for C32_shape_error: two points in the columns of a `(3, 2)` array. -/
example : Ex.s4.transformPoints Ex.holdSquad 2 (Ex.arr2 2 [[1, 2], [3, 4], [5, 6]]) (.byObj 3) { axis := 0 } = .error .valueError :=
  C32_shape_error _ Ex.reach4 (by rw [Ex.s4_eq]; norm_num) (by rw [Ex.s4_eq]; norm_num) ex_pathAll_static
    (Ex.arr2 2 [[1, 2], [3, 4], [5, 6]]) { axis := 0 } (p := 0) ⟨by simp [ND.ndim, Ex.arr2], .inl rfl⟩ rfl
    (by simp [ND.ndim, Ex.arr2]) (by simp [ND.ndim, Ex.arr2]) rfl

/-- C32 is false: a `(3, 3)` array with one point per column. -/
theorem C32_is_false (sq : SquadFn) : ¬ ∀ (s : State) (h : List Event), Reachable s h → ∀ (a b : ℕ), a < s.size → b < s.size →
    PathAll s a b (FrameOk false s) → ∀ (v : ND ℝ) (axis : ℤ) (p : ℕ), AxisIs axis v.ndim p → v.shape.getD p 0 = 3 →
    ∃ A out, (∀ τ, IsTransformAt sq s a b τ A) ∧
      s.transformPoints sq a v (.byObj b) { axis := axis } = .ok (.single out) ∧ out.shape = v.shape ∧
      ∀ idx, Valid v.shape idx → vec3 out p idx = A.act (vec3 v p idx) := by
  intro hall
  obtain ⟨A, out, _, h2, _⟩ := hall _ _ Ex.reach4 2 3 (by rw [Ex.s4_eq]; norm_num) (by rw [Ex.s4_eq]; norm_num)
    ex_pathAll_static (Ex.arr2 2 [[1, 2], [3, 4], [5, 6]]) 0 0 ⟨by simp [ND.ndim, Ex.arr2], .inl rfl⟩ rfl
  rw [C32_shape_error sq Ex.reach4 (by rw [Ex.s4_eq]; norm_num) (by rw [Ex.s4_eq]; norm_num) ex_pathAll_static
    (Ex.arr2 2 [[1, 2], [3, 4], [5, 6]]) { axis := 0 } (p := 0) ⟨by simp [ND.ndim, Ex.arr2], .inl rfl⟩ rfl
    (by simp [ND.ndim, Ex.arr2]) (by simp [ND.ndim, Ex.arr2]) rfl] at h2
  cases h2

/-! ### C33 -/

/-- With timestamps, the axis order of the result is that of the input: the time axis of the output
is at position `time_axis`. (`C15_points_timed`, `C16_orientations_timed` say the same for points and
orientations.) -/
theorem C33_layout_restored_partial (sq : SquadFn) (hsq : SquadLaw sq) {s : State} {h : List Event} (hr : Reachable s h)
    {a b : ℕ} (ha : a < s.size) (hb : b < s.size) (hp : PathAll s a b (FrameOk true s)) {l : List ℕ}
    (hl : Route s a b l) (v : ND ℝ) {axis ta : ℤ} {p q : ℕ} {ats : List ℝ}
    (hax : AxisIs axis v.ndim p) (h3 : v.shape.getD p 0 = 3) (hq : AxisIs ta v.ndim q) (htd : TimedArray v q ats)
    (hp0 : p ≠ 0) (hpq : p ≠ q) (h4 : p + 1 = v.ndim ∨ 4 ∉ v.shape) :
    ∃ out ts, s.transformVectors sq a v (.byObj b) ⟨axis, some ta, some (ofList ats), true⟩ = .ok (.withTs out (some ts)) ∧
      out.shape = v.shape.set q ts.length ∧
      ∀ (i k : ℕ) τ, ts[i]? = some τ → ats[k]? = some τ →
        ∃ A, IsTransformAt sq s a b τ A ∧ ∀ idx, Valid v.shape idx →
          vec3 out p (idx.set q i) = rot A.r (vec3 v p (idx.set q k)) := by
  obtain ⟨out, h1, h2, h5⟩ := C15_vectors_timed sq hsq hr ha hb hp hl v ⟨axis, some ta, some (ofList ats), true⟩ hax h3 rfl hq rfl
    htd hp0 hpq h4
  exact ⟨out, _, h1, h2, h5⟩

/-- Non-vacuous: time axis 1 of a `(2, 3, 3)` array. -/
example : ∃ out ts, Ex.m3.transformVectors Ex.holdSquad 1 ⟨[2, 3, 3], fun idx => idx.getD 1 0 + idx.getD 2 0⟩ (.byObj 2)
    ⟨-1, some 1, some (ofList [-1, 0, 1]), true⟩ = .ok (.withTs out (some ts)) ∧ out.shape = [2, ts.length, 3] := by
  obtain ⟨out, ts, h1, h2, _⟩ := C33_layout_restored_partial Ex.holdSquad Ex.holdSquad_law Ex.reachM
    (by rw [Ex.m3_eq]; norm_num) (by rw [Ex.m3_eq]; norm_num)
    ex_pathAll_moving ex_route_moving ⟨[2, 3, 3], fun idx => idx.getD 1 0 + idx.getD 2 0⟩ (axis := -1) (ta := 1) (p := 2) (q := 1)
    (ats := [-1, 0, 1]) ⟨by simp [ND.ndim], .inr (by simp [ND.ndim])⟩ rfl ⟨by simp [ND.ndim], .inl rfl⟩
    ⟨by simp [ND.ndim], rfl, by simp, by simp [StrictlyIncreasing]⟩ (by norm_num) (by norm_num) (.inl rfl)
  exact ⟨out, ts, h1, h2⟩

/-- Without timestamps, what `time_axis` does: the result is that of `time_axis=0` with axes 0 and
`time_axis` exchanged (the code undoes a swap it has not made). -/
theorem C33_untimed_exact (sq : SquadFn) (s : State) (a : ℕ) (v : ND ℝ) (dst : FrameRef) (axis ta : ℤ) {q : ℕ} {R : ND ℝ}
    (h0 : s.transformVectors sq a v dst { axis := axis, timeAxis := none } = .ok (.single R)) (hq : AxisIs ta R.ndim q) :
    ∃ out, s.transformVectors sq a v dst { axis := axis, timeAxis := some ta } = .ok (.single out) ∧
      out.shape = swapL 0 q R.shape ∧ ∀ idx, out.get idx = R.get (swapL 0 q idx) := by
  simp only [State.transformVectors, State.transformVectorsCore, validateInput, bind, Except.bind] at h0 ⊢
  refine ⟨R.swapaxes 0 q, ?_, rfl, fun _ => rfl⟩
  revert h0
  generalize pyShape v.shape axis = x
  cases x with
  | error e => intro h0; simp at h0
  | ok k =>
    simp only
    by_cases hk : k = 3
    · simp only [hk, ne_eq, not_true_eq_false, if_false, Pure.pure, Except.pure]
      generalize s.getMatcher a dst [⟨v, none⟩] = x
      cases x with
      | error e => intro h0; simp at h0
      | ok m =>
        simp only
        generalize m.getTransformation sq = x
        cases x with
        | error e => intro h0; simp at h0
        | ok w =>
          simp only
          generalize m.getArray1 sq w.2.2 = x
          cases x with
          | error e => intro h0; simp at h0
          | ok arr =>
            simp only
            generalize rotateVectorsF (expandSingletonAxes (ND.ofQuats w.2.1) arr.ndim) arr axis = x
            cases x with
            | error e => intro h0; simp at h0
            | ok out =>
              intro h0
              simp only [undoTimeSwap, pyReturn, Bool.not_false, if_true, Except.ok.injEq, PyRet.single.injEq] at h0
              subst h0
              simp only [undoTimeSwap, ND.swapaxesZ, axisIs_norm hq, normAxis_zero (show 0 < out.ndim by have := hq.1; omega), pyReturn]
              simp
    · simp only [ne_eq, hk, not_false_eq_true, if_true]
      intro h0; simp [throw, throwThe, MonadExceptOf.throw] at h0

/-- C33 is false without timestamps: with `time_axis=1` a `(2, 3)` array of vectors comes back as
`(3, 2)`. -/
theorem C33_untimed_is_false (sq : SquadFn) : ¬ ∀ (s : State) (h : List Event), Reachable s h → ∀ (a b : ℕ), a < s.size → b < s.size →
    PathAll s a b (FrameOk false s) → ∀ (v : ND ℝ) (ta : ℤ) (p q : ℕ), AxisIs (-1) v.ndim p → v.shape.getD p 0 = 3 →
    AxisIs ta v.ndim q → ∃ out, s.transformVectors sq a v (.byObj b) { timeAxis := some ta } = .ok (.single out) ∧ out.shape = v.shape := by
  intro hall
  have ha : (2 : ℕ) < Ex.s4.size := by rw [Ex.s4_eq]; norm_num
  have hb : (3 : ℕ) < Ex.s4.size := by rw [Ex.s4_eq]; norm_num
  let v := Ex.arr2 3 [[1, 2, 3], [4, 5, 6]]
  have hax : AxisIs (-1) v.ndim 1 := ⟨by simp [ND.ndim, v, Ex.arr2], .inr (by simp [ND.ndim, v, Ex.arr2])⟩
  obtain ⟨out, h1, h2⟩ := hall _ _ Ex.reach4 2 3 ha hb ex_pathAll_static v 1 1 1 hax rfl ⟨by simp [ND.ndim, v, Ex.arr2], .inl rfl⟩
  obtain ⟨A, R, _, _, h3, h4, _⟩ := C15_vectors_static sq Ex.reach4 ha hb ex_pathAll_static v { timeAxis := none } hax rfl rfl (by
    intro t ht; cases ht)
  obtain ⟨out', h5, h6, _⟩ := C33_untimed_exact sq Ex.s4 2 v (.byObj 3) (-1) 1 (q := 1) h3 ⟨by simp [ND.ndim, h4, v, Ex.arr2], .inl rfl⟩
  rw [h1] at h5
  cases h5
  rw [h2, h4] at h6
  simp [v, Ex.arr2, swapL] at h6

/-! ### C34 for the transform functions -/

theorem map_ret (x : Res (ND ℝ × Option (List ℝ))) (ta : Option ℤ) (rt : Bool) :
    (do let p ← x; let arr ← undoTimeSwap p.1 ta; return pyReturn rt arr p.2 : Res PyRet) =
      (do let p ← x; let arr ← undoTimeSwap p.1 ta; return (arr, p.2) : Res (ND ℝ × Option (List ℝ))).map
        fun p => returned rt p.1 p.2 := by
  cases x with
  | error e => rfl
  | ok p =>
    simp only [bind, Except.bind]
    cases undoTimeSwap p.1 ta with
    | error e => rfl
    | ok y => simp [Pure.pure, Except.pure, Except.map, pyReturn_eq]

/-- `transform_vectors`, `transform_points` and `transform_quaternions`: there is one outcome (an
error or an array with optional timestamps) that does not depend on `return_timestamps`; with `False`
the array alone is returned, with `True` the pair. -/
theorem C34_transform_partial (sq : SquadFn) (s : State) (a : ℕ) (v : ND ℝ) (dst : FrameRef) (o : TArgs) :
    (∃ r : Res (ND ℝ × Option (List ℝ)), ∀ rt, s.transformVectors sq a v dst { o with returnTimestamps := rt } =
      r.map fun p => returned rt p.1 p.2) ∧
    (∃ r : Res (ND ℝ × Option (List ℝ)), ∀ rt, s.transformPoints sq a v dst { o with returnTimestamps := rt } =
      r.map fun p => returned rt p.1 p.2) ∧
    (∃ r : Res (ND ℝ × Option (List ℝ)), ∀ rt, s.transformQuaternions sq a v dst { o with returnTimestamps := rt } =
      r.map fun p => returned rt p.1 p.2) :=
  ⟨⟨_, fun rt => map_ret (s.transformVectorsCore sq a v dst o) o.timeAxis rt⟩,
   ⟨_, fun rt => map_ret (s.transformPointsCore sq a v dst o) o.timeAxis rt⟩,
   ⟨_, fun rt => map_ret (s.transformQuaternionsCore sq a v dst o) o.timeAxis rt⟩⟩

end RBM.Props
