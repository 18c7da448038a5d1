import Verif.Model.Coords
import Verif.Spec.Coords
import Verif.Props.Quaternions

/-!
Coordinate systems (C43).
-/

namespace RBM.Props

open RBM Spec

/-- `X` is an array without axis `p` that holds the values `f`. -/
structure Field (sh : List ℕ) (p : ℕ) (X : ND ℝ) (f : List ℕ → ℝ) : Prop where
  shape : X.shape = sh.eraseIdx p
  get : ∀ idx, Valid sh idx → X.get (idx.eraseIdx p) = f idx

variable {arr : ND ℝ} {axis : ℤ} {p n : ℕ}

theorem take_field (h : TupleAxis arr axis p n) {k : ℕ} (hk : k < n) :
    ∃ X, arr.take k axis = .ok X ∧ Field arr.shape p X (fun idx => entry arr p idx k) := by
  refine ⟨⟨arr.shape.eraseIdx p, fun idx => arr.get (idx.insertIdx p k)⟩, ?_, rfl, fun idx hv => ?_⟩
  · simp only [ND.take, axisIs_norm h.axis, h.len, if_pos hk]
  · simp only [entry]
    rw [insertIdx_eraseIdx (by rw [hv.length]; exact h.axis.1)]

theorem norm_field (h : TupleAxis arr axis p n) :
    ∃ X, arr.norm axis = .ok X ∧ Field arr.shape p X
      (fun idx => Real.sqrt (((List.range n).map fun k => entry arr p idx k ^ 2).sum)) := by
  refine ⟨_, by simp only [ND.norm, axisIs_norm h.axis]; rfl, rfl, fun idx hv => ?_⟩
  simp only [entry, h.len]
  congr 2
  apply List.map_congr_left
  intro k _
  rw [insertIdx_eraseIdx (by rw [hv.length]; exact h.axis.1)]

theorem map_field {sh : List ℕ} {X : ND ℝ} {f : List ℕ → ℝ} (h : Field sh p X f) (g : ℝ → ℝ) :
    Field sh p (X.map g) (fun idx => g (f idx)) :=
  ⟨h.shape, fun idx hv => by simp only [ND.map, h.get idx hv]⟩

theorem bop_field {sh : List ℕ} (hp : p < sh.length) {X Y : ND ℝ} {f g : List ℕ → ℝ} (hX : Field sh p X f) (hY : Field sh p Y g)
    (op : ℝ → ℝ → ℝ) : ∃ Z, ND.bop op X Y = .ok Z ∧ Field sh p Z (fun idx => op (f idx) (g idx)) := by
  have hb := bop_left op X Y (by rw [hX.shape, hY.shape]; exact Bcast.refl _)
  refine ⟨_, hb, hY.shape, fun idx hv => ?_⟩
  have hv' := (valid_eraseIdx hp hv).1
  simp only
  rw [bget_valid X (by rw [hX.shape]; exact hv'), bget_valid Y (by rw [hY.shape]; exact hv'), hX.get idx hv, hY.get idx hv]

theorem stack2_field (h : TupleAxis arr axis p 2) {X Y : ND ℝ} {f g : List ℕ → ℝ} (hX : Field arr.shape p X f) (hY : Field arr.shape p Y g) :
    ∃ out, ND.stack X [Y] axis = .ok out ∧ out.shape = arr.shape ∧
      ∀ idx, Valid arr.shape idx → entry out p idx 0 = f idx ∧ entry out p idx 1 = g idx := by
  have hp : p < arr.shape.length := h.axis.1
  have hnd : X.ndim + 1 = arr.ndim := by simp only [ND.ndim, hX.shape, List.length_eraseIdx_of_lt hp]; omega
  have hany : ([Y].any fun b => b.shape != X.shape) = false := by simp [hX.shape, hY.shape]
  refine ⟨⟨X.shape.insertIdx p 2, fun idx => ([X, Y].getD (idx.getD p 0) X).get (idx.eraseIdx p)⟩, ?_, ?_, fun idx hv => ?_⟩
  · simp only [ND.stack, hany, hnd, axisIs_norm h.axis, List.length_singleton]; rfl
  · simp only [hX.shape]
    rw [insertIdx_eraseIdx hp, ← h.len, set_getD_self]
  · have hl : p < idx.length := by rw [hv.length]; exact hp
    simp only [entry, getD_set hl, if_true, eraseIdx_set]
    exact ⟨hX.get idx hv, hY.get idx hv⟩

theorem stack3_field (h : TupleAxis arr axis p 3) {X Y Z : ND ℝ} {f g k : List ℕ → ℝ} (hX : Field arr.shape p X f)
    (hY : Field arr.shape p Y g) (hZ : Field arr.shape p Z k) :
    ∃ out, ND.stack X [Y, Z] axis = .ok out ∧ out.shape = arr.shape ∧
      ∀ idx, Valid arr.shape idx → entry out p idx 0 = f idx ∧ entry out p idx 1 = g idx ∧ entry out p idx 2 = k idx := by
  have hp : p < arr.shape.length := h.axis.1
  have hnd : X.ndim + 1 = arr.ndim := by simp only [ND.ndim, hX.shape, List.length_eraseIdx_of_lt hp]; omega
  have hany : ([Y, Z].any fun b => b.shape != X.shape) = false := by simp [hX.shape, hY.shape, hZ.shape]
  refine ⟨⟨X.shape.insertIdx p 3, fun idx => ([X, Y, Z].getD (idx.getD p 0) X).get (idx.eraseIdx p)⟩, ?_, ?_, fun idx hv => ?_⟩
  · simp only [ND.stack, hany, hnd, axisIs_norm h.axis, List.length_cons, List.length_nil]; rfl
  · simp only [hX.shape]
    rw [insertIdx_eraseIdx hp, ← h.len, set_getD_self]
  · have hl : p < idx.length := by rw [hv.length]; exact hp
    simp only [entry, getD_set hl, if_true, eraseIdx_set]
    exact ⟨hX.get idx hv, hY.get idx hv, hZ.get idx hv⟩

theorem check_ok (h : TupleAxis arr axis p n) : checkAxis arr axis n = .ok () := by
  simp only [checkAxis, pyShape]
  have := axisIs_norm h.axis
  simp only [ND.ndim] at this
  simp only [this, bind, Except.bind, h.len, if_true, Pure.pure, Except.pure]

/-! ### Values -/

theorem polar_values (x y : ℝ) : IsPolar x y (Real.sqrt (x ^ 2 + y ^ 2)) (arctan2 y x) := by
  have hn : ‖(⟨x, y⟩ : ℂ)‖ = Real.sqrt (x ^ 2 + y ^ 2) := by
    rw [Complex.norm_def, Complex.normSq_mk]; congr 1; ring
  have h1 := Complex.norm_mul_cos_arg ⟨x, y⟩
  have h2 := Complex.norm_mul_sin_arg ⟨x, y⟩
  rw [hn] at h1 h2
  refine ⟨h1.symm, h2.symm, Real.sqrt_nonneg _, Complex.neg_pi_lt_arg _, Complex.arg_le_pi _, fun h => ?_⟩
  rw [← hn, norm_eq_zero] at h
  simp [arctan2, h]

theorem arctan2_polar {r phi : ℝ} (hr : 0 < r) (h1 : -Real.pi < phi) (h2 : phi ≤ Real.pi) :
    arctan2 (r * Real.sin phi) (r * Real.cos phi) = phi := by
  have := Complex.arg_mul_cos_add_sin_mul_I hr ⟨h1, h2⟩
  refine Eq.trans ?_ this
  rw [arctan2]
  congr 1
  apply Complex.ext <;> simp [Complex.cos_ofReal_re, Complex.sin_ofReal_re, Complex.cos_ofReal_im, Complex.sin_ofReal_im]

theorem sqrt_polar {r phi : ℝ} (hr : 0 ≤ r) : Real.sqrt ((r * Real.cos phi) ^ 2 + (r * Real.sin phi) ^ 2) = r := by
  rw [show (r * Real.cos phi) ^ 2 + (r * Real.sin phi) ^ 2 = r ^ 2 * (Real.cos phi ^ 2 + Real.sin phi ^ 2) by ring,
    Real.cos_sq_add_sin_sq, mul_one, Real.sqrt_sq hr]

/-- Polar coordinates are unique. -/
theorem isPolar_unique {x y r phi : ℝ} (h : IsPolar x y r phi) : r = Real.sqrt (x ^ 2 + y ^ 2) ∧ phi = arctan2 y x := by
  obtain ⟨rfl, rfl, h3, h4, h5, h6⟩ := h
  refine ⟨(sqrt_polar h3).symm, ?_⟩
  rcases eq_or_lt_of_le h3 with h | h
  · subst h
    rw [h6 rfl]
    simp only [zero_mul, arctan2]
    exact Complex.arg_zero.symm
  · exact (arctan2_polar h h4 h5).symm

theorem spherical_values (x y z : ℝ) (h : Real.sqrt (x ^ 2 + y ^ 2 + z ^ 2) ≠ 0) :
    IsSpherical x y z (Real.sqrt (x ^ 2 + y ^ 2 + z ^ 2)) (Real.arccos (z / Real.sqrt (x ^ 2 + y ^ 2 + z ^ 2))) (arctan2 y x) := by
  set r := Real.sqrt (x ^ 2 + y ^ 2 + z ^ 2) with hr
  have hr0 : 0 < r := lt_of_le_of_ne (Real.sqrt_nonneg _) (Ne.symm h)
  have hr2 : r ^ 2 = x ^ 2 + y ^ 2 + z ^ 2 := Real.sq_sqrt (by positivity)
  have hz : |z| ≤ r := by
    apply abs_le_of_sq_le_sq _ hr0.le
    rw [hr2]; nlinarith [sq_nonneg x, sq_nonneg y]
  have hzr : -1 ≤ z / r ∧ z / r ≤ 1 := by
    rw [abs_le] at hz
    constructor
    · rw [le_div_iff₀ hr0]; linarith
    · rw [div_le_iff₀ hr0]; linarith
  have hsin : r * Real.sin (Real.arccos (z / r)) = Real.sqrt (x ^ 2 + y ^ 2) := by
    rw [Real.sin_arccos]
    have : Real.sqrt (x ^ 2 + y ^ 2) = Real.sqrt (r ^ 2 * (1 - (z / r) ^ 2)) := by
      congr 1
      field_simp
      rw [hr2]; ring
    rw [this, Real.sqrt_mul (by positivity), Real.sqrt_sq hr0.le]
  obtain ⟨p1, p2, p3, p4, p5, p6⟩ := polar_values x y
  refine ⟨by rw [hsin]; exact p1, by rw [hsin]; exact p2, ?_, hr0, Real.arccos_nonneg _, Real.arccos_le_pi _, p4, p5, fun hs => ?_⟩
  · rw [Real.cos_arccos hzr.1 hzr.2]; field_simp
  · apply p6; rw [← hsin, hs, mul_zero]

theorem sqrt_spherical {r theta phi : ℝ} (hr : 0 ≤ r) : Real.sqrt ((r * Real.sin theta * Real.cos phi) ^ 2 +
    (r * Real.sin theta * Real.sin phi) ^ 2 + (r * Real.cos theta) ^ 2) = r := by
  rw [show (r * Real.sin theta * Real.cos phi) ^ 2 + (r * Real.sin theta * Real.sin phi) ^ 2 + (r * Real.cos theta) ^ 2 =
    r ^ 2 * (Real.sin theta ^ 2 * (Real.cos phi ^ 2 + Real.sin phi ^ 2) + Real.cos theta ^ 2) by ring,
    Real.cos_sq_add_sin_sq, mul_one, Real.sin_sq_add_cos_sq, mul_one, Real.sqrt_sq hr]

/-- Spherical coordinates are unique. -/
theorem isSpherical_unique {x y z r theta phi : ℝ} (h : IsSpherical x y z r theta phi) :
    r = Real.sqrt (x ^ 2 + y ^ 2 + z ^ 2) ∧ theta = Real.arccos (z / Real.sqrt (x ^ 2 + y ^ 2 + z ^ 2)) ∧ phi = arctan2 y x := by
  obtain ⟨rfl, rfl, rfl, h4, h5, h6, h7, h8, h9⟩ := h
  rw [sqrt_spherical h4.le]
  refine ⟨rfl, ?_, ?_⟩
  · rw [mul_div_cancel_left₀ _ h4.ne', Real.arccos_cos h5 h6]
  · rcases eq_or_lt_of_le (Real.sin_nonneg_of_nonneg_of_le_pi h5 h6) with h | h
    · rw [h9 h.symm, ← h]; simp only [mul_zero, zero_mul, arctan2]; exact Complex.arg_zero.symm
    · exact (arctan2_polar (by positivity) h7 h8).symm

/-! ### The functions -/

theorem sum_range2 (f : ℕ → ℝ) : ((List.range 2).map f).sum = f 0 + f 1 := by simp [List.range_succ]
theorem sum_range3 (f : ℕ → ℝ) : ((List.range 3).map f).sum = f 0 + f 1 + f 2 := by simp [List.range_succ, add_assoc]

/-- `cartesian_to_polar` on an array of any shape with pairs along axis `p`: each pair is replaced by
its polar coordinates. -/
theorem C43_to_polar (h : TupleAxis arr axis p 2) :
    ∃ out, cartesianToPolar arr axis = .ok out ∧ out.shape = arr.shape ∧
      ∀ idx, Valid arr.shape idx → IsPolar (entry arr p idx 0) (entry arr p idx 1) (entry out p idx 0) (entry out p idx 1) := by
  have hp : p < arr.shape.length := h.axis.1
  obtain ⟨R, r1, r2⟩ := norm_field h
  obtain ⟨X, x1, x2⟩ := take_field h (k := 0) (by omega)
  obtain ⟨Y, y1, y2⟩ := take_field h (k := 1) (by omega)
  obtain ⟨F, f1, f2⟩ := bop_field hp y2 x2 arctan2
  obtain ⟨out, o1, o2, o3⟩ := stack2_field h r2 f2
  refine ⟨out, ?_, o2, fun idx hv => ?_⟩
  · simp only [cartesianToPolar, check_ok h, bind, Except.bind, r1, y1, x1, f1, o1]
  · rw [(o3 idx hv).1, (o3 idx hv).2, sum_range2]
    exact polar_values _ _

/-- `polar_to_cartesian`. -/
theorem C43_from_polar (h : TupleAxis arr axis p 2) :
    ∃ out, polarToCartesian arr axis = .ok out ∧ out.shape = arr.shape ∧
      ∀ idx, Valid arr.shape idx → entry out p idx 0 = entry arr p idx 0 * Real.cos (entry arr p idx 1) ∧
        entry out p idx 1 = entry arr p idx 0 * Real.sin (entry arr p idx 1) := by
  have hp : p < arr.shape.length := h.axis.1
  obtain ⟨R, r1, r2⟩ := take_field h (k := 0) (by omega)
  obtain ⟨F, f1, f2⟩ := take_field h (k := 1) (by omega)
  obtain ⟨X, x1, x2⟩ := bop_field hp r2 (map_field f2 Real.cos) (fun r c => r * c)
  obtain ⟨Y, y1, y2⟩ := bop_field hp r2 (map_field f2 Real.sin) (fun r c => r * c)
  obtain ⟨out, o1, o2, o3⟩ := stack2_field h x2 y2
  exact ⟨out, by simp only [polarToCartesian, check_ok h, bind, Except.bind, r1, f1, x1, y1, o1], o2, o3⟩

/-- `cartesian_to_spherical` away from the origin. -/
theorem C43_to_spherical (h : TupleAxis arr axis p 3)
    (hne : ∀ idx, Valid arr.shape idx → ¬ (entry arr p idx 0 = 0 ∧ entry arr p idx 1 = 0 ∧ entry arr p idx 2 = 0)) :
    ∃ out, cartesianToSpherical arr axis = .ok out ∧ out.shape = arr.shape ∧
      ∀ idx, Valid arr.shape idx → IsSpherical (entry arr p idx 0) (entry arr p idx 1) (entry arr p idx 2)
        (entry out p idx 0) (entry out p idx 1) (entry out p idx 2) := by
  have hp : p < arr.shape.length := h.axis.1
  have hnz : ∀ idx, Valid arr.shape idx → Real.sqrt (entry arr p idx 0 ^ 2 + entry arr p idx 1 ^ 2 + entry arr p idx 2 ^ 2) ≠ 0 := by
    intro idx hv h0
    rw [Real.sqrt_eq_zero (by positivity)] at h0
    exact hne idx hv ⟨by nlinarith [sq_nonneg (entry arr p idx 0), sq_nonneg (entry arr p idx 1), sq_nonneg (entry arr p idx 2)],
      by nlinarith [sq_nonneg (entry arr p idx 0), sq_nonneg (entry arr p idx 1), sq_nonneg (entry arr p idx 2)],
      by nlinarith [sq_nonneg (entry arr p idx 0), sq_nonneg (entry arr p idx 1), sq_nonneg (entry arr p idx 2)]⟩
  obtain ⟨R, r1, r2⟩ := norm_field h
  obtain ⟨X, x1, x2⟩ := take_field h (k := 0) (by omega)
  obtain ⟨Y, y1, y2⟩ := take_field h (k := 1) (by omega)
  obtain ⟨Z, z1, z2⟩ := take_field h (k := 2) (by omega)
  obtain ⟨W, w1, w2⟩ := bop_field hp z2 r2 (fun z r => z / r)
  obtain ⟨F, f1, f2⟩ := bop_field hp y2 x2 arctan2
  obtain ⟨out, o1, o2, o3⟩ := stack3_field h r2 (map_field w2 Real.arccos) f2
  have hno : ¬ ∃ idx, Valid R.shape idx ∧ R.get idx = 0 := by
    rintro ⟨i, hi, h0⟩
    rw [r2.shape] at hi
    have hl : i.length + 1 = arr.shape.length := by
      have := hi.length; rw [List.length_eraseIdx_of_lt hp] at this; omega
    have hi' : i = (i.insertIdx p 0).eraseIdx p := by rw [List.eraseIdx_insertIdx_self]
    have hv : Valid arr.shape (i.insertIdx p 0) := by
      rw [valid_iff] at hi ⊢
      refine ⟨by rw [List.length_insertIdx_of_le_length (by omega)]; omega, fun k hk => ?_⟩
      have h2 := hi.2
      rcases lt_trichotomy k p with hkp | hkp | hkp
      · have := h2 k (by rw [List.length_eraseIdx_of_lt hp]; omega)
        rw [List.getD_eq_getElem?_getD, List.getD_eq_getElem?_getD, List.getElem?_eraseIdx_of_lt hkp] at this
        rw [List.getD_eq_getElem?_getD, List.getD_eq_getElem?_getD, List.getElem?_insertIdx_of_lt hkp]
        exact this
      · subst hkp
        have := h.len
        rw [this, List.getD_eq_getElem?_getD, List.getElem?_insertIdx_self, if_pos (by omega)]
        simp
      · obtain ⟨m, rfl⟩ : ∃ m, k = m + 1 := ⟨k - 1, by omega⟩
        have := h2 m (by rw [List.length_eraseIdx_of_lt hp]; omega)
        rw [List.getD_eq_getElem?_getD, List.getD_eq_getElem?_getD, List.getElem?_eraseIdx_of_ge (by omega)] at this
        rw [List.getD_eq_getElem?_getD, List.getD_eq_getElem?_getD, List.getElem?_insertIdx_of_gt (by omega)]
        exact this
    rw [hi', r2.get _ hv, sum_range3] at h0
    exact hnz _ hv h0
  refine ⟨out, ?_, o2, fun idx hv => ?_⟩
  · simp only [cartesianToSpherical, check_ok h, bind, Except.bind, r1, z1, w1, if_neg hno, y1, x1, f1, o1, Pure.pure, Except.pure]
  · rw [(o3 idx hv).1, (o3 idx hv).2.1, (o3 idx hv).2.2, sum_range3]
    exact spherical_values _ _ _ (hnz idx hv)

/-- `spherical_to_cartesian`. -/
theorem C43_from_spherical (h : TupleAxis arr axis p 3) :
    ∃ out, sphericalToCartesian arr axis = .ok out ∧ out.shape = arr.shape ∧
      ∀ idx, Valid arr.shape idx →
        entry out p idx 0 = entry arr p idx 0 * Real.sin (entry arr p idx 1) * Real.cos (entry arr p idx 2) ∧
        entry out p idx 1 = entry arr p idx 0 * Real.sin (entry arr p idx 1) * Real.sin (entry arr p idx 2) ∧
        entry out p idx 2 = entry arr p idx 0 * Real.cos (entry arr p idx 1) := by
  have hp : p < arr.shape.length := h.axis.1
  obtain ⟨R, r1, r2⟩ := take_field h (k := 0) (by omega)
  obtain ⟨T, t1, t2⟩ := take_field h (k := 1) (by omega)
  obtain ⟨F, f1, f2⟩ := take_field h (k := 2) (by omega)
  obtain ⟨S, s1, s2⟩ := bop_field hp r2 (map_field t2 Real.sin) (fun r c => r * c)
  obtain ⟨X, x1, x2⟩ := bop_field hp s2 (map_field f2 Real.cos) (fun r c => r * c)
  obtain ⟨Y, y1, y2⟩ := bop_field hp s2 (map_field f2 Real.sin) (fun r c => r * c)
  obtain ⟨Z, z1, z2⟩ := bop_field hp r2 (map_field t2 Real.cos) (fun r c => r * c)
  obtain ⟨out, o1, o2, o3⟩ := stack3_field h x2 y2 z2
  exact ⟨out, by simp only [sphericalToCartesian, check_ok h, bind, Except.bind, r1, t1, f1, s1, x1, y1, z1, o1], o2, o3⟩

theorem tuple_of_shape (h : TupleAxis arr axis p n) {out : ND ℝ} (hs : out.shape = arr.shape) : TupleAxis out axis p n :=
  ⟨by simpa [ND.ndim, hs] using h.axis, by rw [hs]; exact h.len⟩

theorem same_of_entries (h : TupleAxis arr axis p n) {out : ND ℝ} (hs : out.shape = arr.shape)
    (he : ∀ idx, Valid arr.shape idx → ∀ k < n, entry out p idx k = entry arr p idx k) : ND.Same out arr := by
  refine ⟨hs, fun idx hv => ?_⟩
  rw [hs] at hv
  have hk := (valid_eraseIdx h.axis.1 hv).2
  rw [h.len] at hk
  have := he idx hv _ hk
  simpa only [entry, set_getD_self] using this

/-- Polar there and back, for every array. -/
theorem C43_cartesian_polar_cartesian (h : TupleAxis arr axis p 2) :
    ∃ mid out, cartesianToPolar arr axis = .ok mid ∧ polarToCartesian mid axis = .ok out ∧ ND.Same out arr := by
  obtain ⟨mid, m1, m2, m3⟩ := C43_to_polar h
  obtain ⟨out, o1, o2, o3⟩ := C43_from_polar (tuple_of_shape h m2)
  refine ⟨mid, out, m1, o1, same_of_entries h (o2.trans m2) fun idx hv k hk => ?_⟩
  obtain ⟨e1, e2⟩ := o3 idx (by rw [m2]; exact hv)
  obtain ⟨i1, i2, -⟩ := m3 idx hv
  interval_cases k
  · rw [e1]; exact i1.symm
  · rw [e2]; exact i2.symm

/-- Back and there, for every array of radii `r > 0` and angles `-π < phi ≤ π`. -/
theorem C43_polar_cartesian_polar (h : TupleAxis arr axis p 2)
    (hd : ∀ idx, Valid arr.shape idx → 0 < entry arr p idx 0 ∧ -Real.pi < entry arr p idx 1 ∧ entry arr p idx 1 ≤ Real.pi) :
    ∃ mid out, polarToCartesian arr axis = .ok mid ∧ cartesianToPolar mid axis = .ok out ∧ ND.Same out arr := by
  obtain ⟨mid, m1, m2, m3⟩ := C43_from_polar h
  obtain ⟨out, o1, o2, o3⟩ := C43_to_polar (tuple_of_shape h m2)
  refine ⟨mid, out, m1, o1, same_of_entries h (o2.trans m2) fun idx hv k hk => ?_⟩
  obtain ⟨d1, d2, d3⟩ := hd idx hv
  obtain ⟨e1, e2⟩ := m3 idx hv
  have hu := isPolar_unique (o3 idx (by rw [m2]; exact hv))
  have hu' := isPolar_unique (x := entry mid p idx 0) (y := entry mid p idx 1) (r := entry arr p idx 0) (phi := entry arr p idx 1)
    ⟨e1, e2, d1.le, d2, d3, fun h => absurd h d1.ne'⟩
  interval_cases k
  · rw [hu.1, ← hu'.1]
  · rw [hu.2, ← hu'.2]

/-- Spherical there and back, away from the origin. -/
theorem C43_cartesian_spherical_cartesian (h : TupleAxis arr axis p 3)
    (hne : ∀ idx, Valid arr.shape idx → ¬ (entry arr p idx 0 = 0 ∧ entry arr p idx 1 = 0 ∧ entry arr p idx 2 = 0)) :
    ∃ mid out, cartesianToSpherical arr axis = .ok mid ∧ sphericalToCartesian mid axis = .ok out ∧ ND.Same out arr := by
  obtain ⟨mid, m1, m2, m3⟩ := C43_to_spherical h hne
  obtain ⟨out, o1, o2, o3⟩ := C43_from_spherical (tuple_of_shape h m2)
  refine ⟨mid, out, m1, o1, same_of_entries h (o2.trans m2) fun idx hv k hk => ?_⟩
  obtain ⟨e1, e2, e3⟩ := o3 idx (by rw [m2]; exact hv)
  obtain ⟨i1, i2, i3, -⟩ := m3 idx hv
  interval_cases k
  · rw [e1]; exact i1.symm
  · rw [e2]; exact i2.symm
  · rw [e3]; exact i3.symm

/-- Back and there, for `r > 0`, `0 < theta < π`, `-π < phi ≤ π`. -/
theorem C43_spherical_cartesian_spherical (h : TupleAxis arr axis p 3)
    (hd : ∀ idx, Valid arr.shape idx → 0 < entry arr p idx 0 ∧ 0 < entry arr p idx 1 ∧ entry arr p idx 1 < Real.pi ∧
      -Real.pi < entry arr p idx 2 ∧ entry arr p idx 2 ≤ Real.pi) :
    ∃ mid out, sphericalToCartesian arr axis = .ok mid ∧ cartesianToSpherical mid axis = .ok out ∧ ND.Same out arr := by
  obtain ⟨mid, m1, m2, m3⟩ := C43_from_spherical h
  have hu' : ∀ idx, Valid arr.shape idx → IsSpherical (entry mid p idx 0) (entry mid p idx 1) (entry mid p idx 2)
      (entry arr p idx 0) (entry arr p idx 1) (entry arr p idx 2) := by
    intro idx hv
    obtain ⟨d1, d2, d3, d4, d5⟩ := hd idx hv
    obtain ⟨e1, e2, e3⟩ := m3 idx hv
    exact ⟨e1, e2, e3, d1, d2.le, d3.le, d4, d5, fun h => absurd h (Real.sin_pos_of_pos_of_lt_pi d2 d3).ne'⟩
  obtain ⟨out, o1, o2, o3⟩ := C43_to_spherical (tuple_of_shape h m2) (by
    rintro idx hv ⟨h0, h1, h2⟩
    rw [m2] at hv
    have hu := (isSpherical_unique (hu' idx hv)).1
    rw [h0, h1, h2] at hu
    simp at hu
    exact absurd hu (hd idx hv).1.ne')
  refine ⟨mid, out, m1, o1, same_of_entries h (o2.trans m2) fun idx hv k hk => ?_⟩
  have hu := isSpherical_unique (o3 idx (by rw [m2]; exact hv))
  have hu2 := isSpherical_unique (hu' idx hv)
  interval_cases k
  · rw [hu.1, ← hu2.1]
  · rw [hu.2.1, ← hu2.2.1]
  · rw [hu.2.2, ← hu2.2.2]

/-- An array containing the origin has no finite spherical coordinates. -/
theorem C43_origin (h : TupleAxis arr axis p 3) {idx : List ℕ} (hv : Valid arr.shape idx)
    (h0 : entry arr p idx 0 = 0 ∧ entry arr p idx 1 = 0 ∧ entry arr p idx 2 = 0) :
    cartesianToSpherical arr axis = .error .nonfinite := by
  have hp : p < arr.shape.length := h.axis.1
  obtain ⟨R, r1, r2⟩ := norm_field h
  obtain ⟨Z, z1, z2⟩ := take_field h (k := 2) (by omega)
  obtain ⟨W, w1, w2⟩ := bop_field hp z2 r2 (fun z r => z / r)
  have hex : ∃ idx, Valid R.shape idx ∧ R.get idx = 0 := by
    refine ⟨idx.eraseIdx p, by rw [r2.shape]; exact (valid_eraseIdx hp hv).1, ?_⟩
    rw [r2.get idx hv, sum_range3, h0.1, h0.2.1, h0.2.2]
    simp
  simp only [cartesianToSpherical, check_ok h, bind, Except.bind, r1, z1, w1, if_pos hex]; rfl

/-- Arrays whose axis has another length are refused. -/
theorem C43_wrong_length (hax : AxisIs axis arr.ndim p) :
    (arr.shape.getD p 0 ≠ 2 → cartesianToPolar arr axis = .error .valueError ∧ polarToCartesian arr axis = .error .valueError) ∧
    (arr.shape.getD p 0 ≠ 3 → cartesianToSpherical arr axis = .error .valueError ∧ sphericalToCartesian arr axis = .error .valueError) := by
  have hn := axisIs_norm hax
  simp only [ND.ndim] at hn
  have hc : ∀ n, arr.shape.getD p 0 ≠ n → checkAxis arr axis n = .error .valueError := by
    intro n h
    simp only [checkAxis, pyShape, hn, bind, Except.bind, if_neg h]; rfl
  refine ⟨fun h => ⟨?_, ?_⟩, fun h => ⟨?_, ?_⟩⟩
  · simp only [cartesianToPolar, hc _ h, bind, Except.bind]
  · simp only [polarToCartesian, hc _ h, bind, Except.bind]
  · simp only [cartesianToSpherical, hc _ h, bind, Except.bind]
  · simp only [sphericalToCartesian, hc _ h, bind, Except.bind]

/-- The radius is the Euclidean norm and in polar coordinates the points `r > 0` are hit exactly once: a
concrete case, the point (0, -2) has polar coordinates (2, -π/2). -/
example : ∃ out, cartesianToPolar ⟨[2], fun idx => if idx = [1] then -2 else 0⟩ = .ok out ∧ out.shape = [2] ∧
    out.get [0] = 2 ∧ out.get [1] = -(Real.pi / 2) := by
  obtain ⟨out, o1, o2, o3⟩ := C43_to_polar (arr := ⟨[2], fun idx => if idx = [1] then -2 else 0⟩) (axis := -1) (p := 0)
    ⟨by simp [AxisIs, ND.ndim], by simp⟩
  refine ⟨out, o1, o2, ?_⟩
  have h := isPolar_unique (o3 [0] (by simp [Valid]))
  have h2 := isPolar_unique (x := 0) (y := -2) (r := 2) (phi := -(Real.pi / 2))
    ⟨by simp, by simp, by norm_num, by linarith [Real.pi_pos], by linarith [Real.pi_pos], by norm_num⟩
  simp only [entry, List.set_cons_zero] at h
  simp at h h2
  exact ⟨h.1, h.2.trans h2.symm⟩

/-- Polar coordinates in the rows of a 2 × 2 array (`C43_from_polar`, `C43_polar_cartesian_polar`), and points along the first axis
(`C43_cartesian_polar_cartesian`). -/
example : (∃ mid out, polarToCartesian ⟨[2, 2], fun idx => idx.getD 0 0 + 1⟩ = .ok mid ∧ cartesianToPolar mid = .ok out ∧
      ND.Same out ⟨[2, 2], fun idx => idx.getD 0 0 + 1⟩) ∧
    ∃ mid out, cartesianToPolar ⟨[2, 5], fun idx => idx.getD 1 0 - 2⟩ 0 = .ok mid ∧ polarToCartesian mid 0 = .ok out ∧
      ND.Same out ⟨[2, 5], fun idx => idx.getD 1 0 - 2⟩ := by
  refine ⟨C43_polar_cartesian_polar (p := 1) ⟨⟨by simp [ND.ndim], .inr (by simp [ND.ndim])⟩, rfl⟩ ?_,
    C43_cartesian_polar_cartesian (p := 0) ⟨⟨by simp [ND.ndim], .inl (by simp)⟩, rfl⟩⟩
  intro idx hv
  have hpi := Real.two_le_pi
  rcases idx with _ | ⟨i, _ | ⟨j, _ | _⟩⟩ <;> simp [Valid] at hv
  have hi : (i : ℝ) ≤ 1 := by exact_mod_cast (by omega : i ≤ 1)
  have h0 : (0 : ℝ) ≤ i := Nat.cast_nonneg _
  simp only [entry, List.set_cons_succ, List.set_cons_zero, List.getD_cons_zero]
  exact ⟨by linarith, by linarith, by linarith⟩

/-- Spherical coordinates (`C43_spherical_cartesian_spherical`) and cartesian ones (`C43_to_spherical`, `C43_cartesian_spherical_cartesian`); the origin has
no angles (`C43_origin`); four coordinates are refused (`C43_wrong_length`). -/
example : (∃ mid out, sphericalToCartesian ⟨[3], fun _ => 1⟩ = .ok mid ∧ cartesianToSpherical mid = .ok out ∧ ND.Same out ⟨[3], fun _ => 1⟩) ∧
    (∃ mid out, cartesianToSpherical ⟨[2, 3], fun idx => idx.getD 0 0 + 1⟩ = .ok mid ∧ sphericalToCartesian mid = .ok out ∧
      ND.Same out ⟨[2, 3], fun idx => idx.getD 0 0 + 1⟩) ∧
    cartesianToSpherical ⟨[2, 3], fun idx => idx.getD 0 0⟩ = .error .nonfinite ∧
    cartesianToSpherical ⟨[2, 4], fun _ => 1⟩ = .error .valueError := by
  have hpi := Real.two_le_pi
  refine ⟨C43_spherical_cartesian_spherical (p := 0) ⟨⟨by simp [ND.ndim], .inr (by simp [ND.ndim])⟩, rfl⟩ ?_,
    C43_cartesian_spherical_cartesian (p := 1) ⟨⟨by simp [ND.ndim], .inr (by simp [ND.ndim])⟩, rfl⟩ ?_,
    C43_origin (p := 1) ⟨⟨by simp [ND.ndim], .inr (by simp [ND.ndim])⟩, rfl⟩ (idx := [0, 0]) (by simp [Valid]) (by simp [entry]),
    ((C43_wrong_length (p := 1) ⟨by simp [ND.ndim], .inr (by simp [ND.ndim])⟩).2 (by simp)).1⟩
  · intro idx _
    simp only [entry]
    exact ⟨by linarith, by linarith, by linarith, by linarith, by linarith⟩
  · intro idx hv h
    have := h.1
    rcases idx with _ | ⟨i, _ | ⟨j, _ | _⟩⟩ <;> simp [Valid] at hv
    simp only [entry, List.set_cons_succ, List.set_cons_zero, List.getD_cons_zero] at this
    have h0 : (0 : ℝ) ≤ i := Nat.cast_nonneg _
    linarith

end RBM.Props
