import Verif.Props.Axes
import Verif.Props.VelocityTransform
import Verif.Lemmas.AxisSame

/-!
C32 for a last axis of length one, C33 for points and orientations, C34 for velocities.
-/

namespace RBM.Props

open RBM.Spec

/-! ### C32 -/

theorem bshapeEq_one (sh : List ℕ) : ND.bshapeEq (sh ++ [1]) (List.replicate sh.length 1 ++ [3]) = some (sh ++ [3]) := by
  induction sh with
  | nil => rfl
  | cons n sh ih =>
    simp only [List.cons_append, List.length_cons, List.replicate_succ, ND.bshapeEq, ih]
    by_cases h : n = 1
    · simp [h]
    · simp [h]

theorem bidx_one {sh i : List ℕ} (h : Valid sh i) (k : ℕ) : ND.bidx (sh ++ [1]) (i ++ [k]) = i ++ [0] := by
  induction sh generalizing i with
  | nil => cases i with
    | nil => simp [ND.bidx]
    | cons => simp [Valid] at h
  | cons n sh ih => cases i with
    | nil => simp [Valid] at h
    | cons j i =>
      simp only [List.cons_append, ND.bidx, ih h.2, List.cons.injEq, and_true]
      have := h.1
      split_ifs <;> omega

theorem add_one_row (R : ND ℝ) {sh : List ℕ} (hs : R.shape = sh ++ [1]) (t : Vec) :
    ∃ S, ND.bop (fun x y => x + y) R (ND.ofVecs (.one t)) = .ok S ∧ S.shape = sh ++ [3] ∧
      ∀ i k, Valid sh i → k < 3 → S.get (i ++ [k]) = R.get (i ++ [0]) + t (Fin.ofNat 3 k) := by
  have hb : ND.bshape R.shape [3] = some (sh ++ [3]) := by
    simp only [ND.bshape, hs, ND.padShape]
    simp only [List.length_append, List.length_singleton, Nat.add_sub_cancel, show 1 - (sh.length + 1) = 0 by omega, List.replicate_zero, List.nil_append]
    exact bshapeEq_one sh
  refine ⟨⟨sh ++ [3], fun idx => R.bget idx + (ND.ofVecs (.one t)).bget idx⟩, ?_, rfl, ?_⟩
  · simp only [ND.bop]
    rw [show (ND.ofVecs (.one t)).shape = [3] from rfl, hb]
  · intro i k hi hk
    simp only
    rw [bget_same R (by simp [ND.ndim, hs, hi.length]), hs, bidx_one hi k]
    congr 1
    simp [ND.bget, ND.ofVecs, ND.ndim, ND.bidx]

/-- If the last axis has length one and is not the spatial axis, the result of `transform_points` is
three times as large: every rotated component is combined with every component of the translation. -/
theorem C32_last_one (sq : SquadFn) {s : State} {h : List Event} (hr : Reachable s h) {a b : ℕ}
    (ha : a < s.size) (hb : b < s.size) (hp : PathAll s a b (FrameOk false s)) (v : ND ℝ) (o : TArgs) {p : ℕ}
    (hax : AxisIs o.axis v.ndim p) (h3 : v.shape.getD p 0 = 3) (hl1 : v.shape.getD (v.ndim - 1) 0 = 1)
    (hts : o.timestamps = none) (hta : NoSwap o.timeAxis v.ndim) :
    ∃ A out, (∀ τ, IsTransformAt sq s a b τ A) ∧
      s.transformPoints sq a v (.byObj b) o = .ok (returned o.returnTimestamps out none) ∧
      out.shape = v.shape.dropLast ++ [3] ∧ ∀ i k, Valid v.shape (i ++ [0]) → k < 3 →
        out.get (i ++ [k]) = comp (rot A.r (vec3 v p (i ++ [0]))) (i.getD p 0) + comp A.t k := by
  obtain ⟨A, m, h1, h2, h4, h5, h6, h7⟩ := core_static sq hr.wf ha hb hp v
  obtain ⟨R, r1, r2, r3⟩ := rotateF_one A.r h2 v.ndim v (axisIs_norm hax) h3
  have hpl := hax.1
  have hsplit := split_last (p := v.ndim - 1) (k := 1) (by simp only [ND.ndim] at *; omega) hl1
  obtain ⟨S, s1, s2, s3⟩ := add_one_row R (r2.trans hsplit) A.t
  have hSn : S.ndim = v.ndim := by
    simp only [ND.ndim, s2]
    rw [hsplit]
    simp
  obtain ⟨out, o1, o2, o3⟩ := undo_noSwap (R := S) (ta := o.timeAxis) (by rw [hSn]; exact hta)
  have eone : expandSingletonAxes (ND.ofVecs (.one A.t)) v.ndim = ND.ofVecs (.one A.t) := by
    simp [expandSingletonAxes, ND.ndim, ND.ofVecs]
  refine ⟨A, out, h1, ?_, o2.trans s2, ?_⟩
  · simp only [State.transformPoints, State.transformPointsCore, hts, validateInput_static hax h3,
      bind, Except.bind, h4, h5, h6, r1, eone, s1, Pure.pure, Except.pure, o1, pyReturn_eq]
  · intro i k hv hk
    have hlen := hv.length
    rw [hsplit] at hv
    obtain ⟨i', k', e, hi, -⟩ := valid_snoc hv
    obtain ⟨rfl, -⟩ := List.append_inj' e rfl
    rw [o3 _ (by rw [hSn]; simp only [ND.ndim, ← hlen]; simp), s3 i k hi hk, r3, vec3_eq]
    simp only [comp]
    congr 3
    have hpi : p < i.length := by
      rcases Nat.lt_or_ge p i.length with hlt | hge
      · exact hlt
      · exfalso
        have e1 : v.ndim = i.length + 1 := by simp only [ND.ndim, ← hlen]; simp
        have : p = v.ndim - 1 := by omega
        rw [this, hl1] at h3
        omega
    simp [List.getD_eq_getElem?_getD, List.getElem?_append_left hpi]

/-! ### C33 -/

/-- Without timestamps `time_axis` swaps the axes of the result of `transform_points`. -/
theorem C33_untimed_points (sq : SquadFn) (s : State) (a : ℕ) (v : ND ℝ) (dst : FrameRef) (axis ta : ℤ) {q : ℕ} {R : ND ℝ}
    (h0 : s.transformPoints sq a v dst { axis := axis, timeAxis := none } = .ok (.single R)) (hq : AxisIs ta R.ndim q) :
    ∃ out, s.transformPoints sq a v dst { axis := axis, timeAxis := some ta } = .ok (.single out) ∧
      out.shape = swapL 0 q R.shape ∧ ∀ idx, out.get idx = R.get (swapL 0 q idx) := by
  have hcore : s.transformPointsCore sq a v dst { axis := axis, timeAxis := some ta } = s.transformPointsCore sq a v dst { axis := axis, timeAxis := none } := rfl
  refine ⟨R.swapaxes 0 q, ?_, rfl, fun _ => rfl⟩
  simp only [State.transformPoints, hcore, bind] at h0 ⊢
  obtain ⟨p, hp, h0⟩ := bind_ok' h0
  cases h0
  rw [hp]
  simp only [Except.bind, undoTimeSwap, ND.swapaxesZ, axisIs_norm hq, normAxis_zero (show 0 < p.1.ndim by have := hq.1; omega), pyReturn]
  rfl

/-- Without timestamps `time_axis` swaps the axes of the result of `transform_quaternions`. -/
theorem C33_untimed_quaternions (sq : SquadFn) (s : State) (a : ℕ) (v : ND ℝ) (dst : FrameRef) (axis ta : ℤ) {q : ℕ} {R : ND ℝ}
    (h0 : s.transformQuaternions sq a v dst { axis := axis, timeAxis := none } = .ok (.single R)) (hq : AxisIs ta R.ndim q) :
    ∃ out, s.transformQuaternions sq a v dst { axis := axis, timeAxis := some ta } = .ok (.single out) ∧
      out.shape = swapL 0 q R.shape ∧ ∀ idx, out.get idx = R.get (swapL 0 q idx) := by
  have hcore : s.transformQuaternionsCore sq a v dst { axis := axis, timeAxis := some ta } = s.transformQuaternionsCore sq a v dst { axis := axis, timeAxis := none } := rfl
  refine ⟨R.swapaxes 0 q, ?_, rfl, fun _ => rfl⟩
  simp only [State.transformQuaternions, hcore, bind] at h0 ⊢
  obtain ⟨p, hp, h0⟩ := bind_ok' h0
  cases h0
  rw [hp]
  simp only [Except.bind, undoTimeSwap, ND.swapaxesZ, axisIs_norm hq, normAxis_zero (show 0 < p.1.ndim by have := hq.1; omega), pyReturn]
  rfl

/-! ### C34 -/

/-- One outcome, of which `return_timestamps` selects what is returned. -/
def OneOutcome (f : Bool → Res PyRet) : Prop :=
  ∃ r : Res (ND ℝ × Option (List ℝ)), ∀ rt, f rt = r.map fun p => returned rt p.1 p.2

theorem OneOutcome.bind {α : Type} (x : Res α) {f : α → Bool → Res PyRet} (h : ∀ a, OneOutcome (f a)) : OneOutcome fun rt => Except.bind x fun a => f a rt := by
  cases x with
  | error e => exact ⟨.error e, fun _ => rfl⟩
  | ok a => exact h a

theorem OneOutcome.error (e : PyErr) : OneOutcome fun _ => .error e := ⟨.error e, fun _ => rfl⟩

theorem OneOutcome.ret (a : ND ℝ) (ts : Option (List ℝ)) : OneOutcome fun rt => .ok (pyReturn rt a ts) :=
  ⟨.ok (a, ts), fun rt => congrArg Except.ok (pyReturn_eq _ _ _)⟩

theorem addAngular_outcome (ext : Ext) (s : State) (a : ℕ) (v : ND ℝ) (dst : FrameRef) (o : TArgs) (ang : ND ℝ) (angTs : Option (List ℝ)) :
    OneOutcome fun rt => s.addAngular ext a v dst { o with returnTimestamps := rt } ang angTs := by
  simp only [State.addAngular]
  refine OneOutcome.bind _ fun p => OneOutcome.bind _ fun m => ?_
  rcases m with ⟨l, ts⟩
  rcases l with _ | ⟨x, _ | ⟨y, _ | ⟨z, l⟩⟩⟩
  · exact .error _
  · exact .error _
  · exact OneOutcome.bind _ fun w => .ret w ts
  · exact .error _

theorem addLinear_outcome (ext : Ext) (s : State) (a : ℕ) (v : ND ℝ) (dst : FrameRef) (o : TArgs) (lin ang : ND ℝ) (linTs angTs : Option (List ℝ))
    (tr : Arr Vec) (trTs : Option (List ℝ)) :
    OneOutcome fun rt => s.addLinear ext a v dst { o with returnTimestamps := rt } lin ang linTs angTs tr trTs := by
  simp only [State.addLinear]
  refine OneOutcome.bind _ fun p => OneOutcome.bind _ fun p' => OneOutcome.bind _ fun m => ?_
  rcases m with ⟨l, ts⟩
  rcases l with _ | ⟨x1, _ | ⟨x2, _ | ⟨x3, _ | ⟨x4, _ | ⟨x5, l⟩⟩⟩⟩⟩
  · exact .error _
  · exact .error _
  · exact .error _
  · exact .error _
  · exact OneOutcome.bind _ fun w => OneOutcome.bind _ fun w' => OneOutcome.bind _ fun w'' => .ret w'' ts
  · exact .error _

/-- `transform_angular_velocity` and `transform_linear_velocity`: with `return_timestamps` also the
timestamps are returned, and nothing else changes. -/
theorem C34_velocity_transforms_partial (ext : Ext) (s : State) (a : ℕ) (v : ND ℝ) (dst : FrameRef) (what : String) (o : TArgs) (outlier cutoff : Option ℝ)
    (movingFrame referenceFrame : Option FrameRef) :
    (∃ r : Res (ND ℝ × Option (List ℝ)), ∀ rt, s.transformAngularVelocity ext a v dst what { o with returnTimestamps := rt } cutoff =
      r.map fun p => returned rt p.1 p.2) ∧
    (∃ r : Res (ND ℝ × Option (List ℝ)), ∀ rt, s.transformLinearVelocity ext a v dst what movingFrame referenceFrame { o with returnTimestamps := rt } outlier cutoff =
      r.map fun p => returned rt p.1 p.2) := by
  have hrep : OneOutcome fun rt => s.transformVectors ext.squad a v dst { o with returnTimestamps := rt } := (C34_transform_partial ext.squad s a v dst o).1
  constructor
  · change OneOutcome _
    unfold State.transformAngularVelocity
    by_cases h1 : what = "reference_frame"
    · simp only [if_pos h1]
      exact OneOutcome.bind _ fun p => addAngular_outcome ext s a v dst o p.1 p.2
    · simp only [if_neg h1]
      by_cases h2 : what = "moving_frame"
      · simp only [if_pos h2]
        exact OneOutcome.bind _ fun b => OneOutcome.bind _ fun p => addAngular_outcome ext s a v dst o p.1 p.2
      · simp only [if_neg h2]
        by_cases h3 : what = "representation_frame"
        · simp only [if_pos h3]; exact hrep
        · simp only [if_neg h3]; exact .error _
  · change OneOutcome _
    unfold State.transformLinearVelocity
    by_cases h1 : what = "reference_frame"
    · simp only [if_pos h1]
      exact OneOutcome.bind _ fun p => OneOutcome.bind _ fun m => OneOutcome.bind _ fun q => addLinear_outcome ext s a v dst o _ _ _ _ _ _
    · simp only [if_neg h1]
      by_cases h2 : what = "moving_frame"
      · simp only [if_pos h2]
        exact OneOutcome.bind _ fun b => OneOutcome.bind _ fun p => OneOutcome.bind _ fun p' => OneOutcome.bind _ fun q =>
          addLinear_outcome ext s a v (.byObj b) o _ _ _ _ _ _
      · simp only [if_neg h2]
        by_cases h3 : what = "representation_frame"
        · simp only [if_pos h3]; exact hrep
        · simp only [if_neg h3]; exact .error _

/-! ### Examples -/

/-- A `(3, 1)` array with the components along the first axis becomes `(3, 3)`. -/
example : ∃ A out, (∀ τ, IsTransformAt Ex.holdSquad Ex.s4 2 3 τ A) ∧
    Ex.s4.transformPoints Ex.holdSquad 2 (Ex.arr2 1 [[1], [2], [3]]) (.byObj 3) { axis := 0 } = .ok (returned false out none) ∧ out.shape = [3, 3] ∧
    out.get [0, 2] = comp (rot A.r (vec3 (Ex.arr2 1 [[1], [2], [3]]) 0 [0, 0])) 0 + comp A.t 2 := by
  obtain ⟨A, out, h1, h2, h3, h4⟩ := C32_last_one Ex.holdSquad Ex.reach4 (a := 2) (b := 3) (by rw [Ex.s4_eq]; norm_num) (by rw [Ex.s4_eq]; norm_num)
    ex_pathAll_static (Ex.arr2 1 [[1], [2], [3]]) { axis := 0 } (p := 0) ⟨by simp [ND.ndim, Ex.arr2], .inl rfl⟩ rfl rfl rfl
    (fun t ht => by cases ht; exact ⟨by simp [ND.ndim, Ex.arr2], .inl rfl⟩)
  exact ⟨A, out, h1, h2, h3, h4 [0] 2 (by simp [Valid, Ex.arr2]) (by norm_num)⟩

/-- A `(2, 3)` array of points without timestamps comes back as `(3, 2)` with `time_axis=1`. -/
example : ∃ out, Ex.s4.transformPoints Ex.holdSquad 2 (Ex.arr2 3 [[1, 2, 3], [4, 5, 6]]) (.byObj 3) { timeAxis := some 1 } = .ok (.single out) ∧ out.shape = [3, 2] := by
  obtain ⟨A, R, -, -, h1, h2, -⟩ := C15_points_static Ex.holdSquad Ex.reach4 (a := 2) (b := 3) (by rw [Ex.s4_eq]; norm_num) (by rw [Ex.s4_eq]; norm_num)
    ex_pathAll_static (Ex.arr2 3 [[1, 2, 3], [4, 5, 6]]) { timeAxis := none } (p := 1) ⟨by simp [ND.ndim, Ex.arr2], .inr (by simp [ND.ndim, Ex.arr2])⟩ rfl rfl rfl
    (fun t ht => by cases ht)
  have h1' : Ex.s4.transformPoints Ex.holdSquad 2 (Ex.arr2 3 [[1, 2, 3], [4, 5, 6]]) (.byObj 3) { axis := -1, timeAxis := none } = .ok (.single R) := h1
  obtain ⟨out, e1, e2, -⟩ := C33_untimed_points Ex.holdSquad Ex.s4 2 _ _ (-1) 1 (q := 1) h1' ⟨by simp [ND.ndim, h2, Ex.arr2], .inl rfl⟩
  exact ⟨out, e1, by rw [e2, h2]; rfl⟩

end RBM.Props
