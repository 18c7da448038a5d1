import Verif.Model.Testing
import Verif.Spec.Testing
import Verif.Props.Broadcast
import Verif.Props.Euler

/-!
C75: `make_test_motion`.
-/

namespace RBM.Props

open RBM.Spec

theorem fromRot_axis (u : Vec) (hu : u 0 * u 0 + u 1 * u 1 + u 2 * u 2 = 1) (c : ℝ) : fromRotationVector (c • u) = axisAngle u c := by
  have e : Real.sqrt ((c • u) 0 / 2 * ((c • u) 0 / 2) + (c • u) 1 / 2 * ((c • u) 1 / 2) + (c • u) 2 / 2 * ((c • u) 2 / 2)) = |c / 2| := by
    rw [← Real.sqrt_mul_self_eq_abs]
    congr 1
    simp only [Pi.smul_apply, smul_eq_mul]
    linear_combination (c / 2) * (c / 2) * hu
  simp only [fromRotationVector, e]
  by_cases hx : |c / 2| = 0
  · have hc : c = 0 := by simpa using hx
    refine (if_pos hx).trans ?_
    subst hc
    simp only [axisAngle, zero_div, Real.cos_zero, Real.sin_zero, zero_mul]
    rfl
  · refine (if_neg hx).trans ?_
    have key : ∀ i, Real.sin |c / 2| / |c / 2| * ((c • u) i / 2) = Real.sin (c / 2) * u i := by
      intro i
      rw [← sinc_abs _ hx]
      simp only [Pi.smul_apply, smul_eq_mul]
      ring
    rw [Real.cos_abs, key, key, key]
    rfl

theorem axisAngle_unit (u : Vec) (hu : u 0 * u 0 + u 1 * u 1 + u 2 * u 2 = 1) (c : ℝ) : IsUnitQ (axisAngle u c) := by
  simp only [IsUnitQ, nsq, axisAngle]
  have := Real.sin_sq_add_cos_sq (c / 2)
  linear_combination (Real.sin (c / 2)) ^ 2 * hu + this

theorem fromRot_unit (v : Vec) : IsUnitQ (fromRotationVector v) := by
  have hN : 0 ≤ v 0 / 2 * (v 0 / 2) + v 1 / 2 * (v 1 / 2) + v 2 / 2 * (v 2 / 2) := by nlinarith [sq_nonneg (v 0), sq_nonneg (v 1), sq_nonneg (v 2)]
  have h2 := Real.mul_self_sqrt hN
  by_cases h : Real.sqrt (v 0 / 2 * (v 0 / 2) + v 1 / 2 * (v 1 / 2) + v 2 / 2 * (v 2 / 2)) = 0
  · have e : fromRotationVector v = ⟨1, 0, 0, 0⟩ := if_pos h
    rw [e]; simp [IsUnitQ, nsq]
  · have e : fromRotationVector v = _ := if_neg h
    rw [e]
    simp only [IsUnitQ, nsq]
    generalize Real.sqrt (v 0 / 2 * (v 0 / 2) + v 1 / 2 * (v 1 / 2) + v 2 / 2 * (v 2 / 2)) = N at h h2
    have := Real.sin_sq_add_cos_sq N
    have e : (Real.sin N / N) ^ 2 * (N * N) = Real.sin N ^ 2 := by field_simp
    rw [h2] at e
    linear_combination this + e

theorem thirdAxis_unit (n k : ℕ) : thirdAxis n k 0 * thirdAxis n k 0 + thirdAxis n k 1 * thirdAxis n k 1 + thirdAxis n k 2 * thirdAxis n k 2 = 1 := by
  simp only [thirdAxis]
  split_ifs <;> simp

/-- The angle at sample `k`. -/
noncomputable def motionAngle (o : MotionArgs) (k : ℕ) : ℝ := sine (if o.inverse then -o.maxAngle else o.maxAngle) o.freq o.fs k

theorem trajectory_get (o : MotionArgs) (k : ℕ) : o.trajectory[k]? = if k < o.n then some (motionAngle o k) else none := by
  simp only [MotionArgs.trajectory, List.getElem?_map, motionAngle, sine]
  by_cases h : k < o.n
  · rw [List.getElem?_range h, if_pos h, Option.map_some, mul_div_assoc]
  · rw [if_neg h, List.getElem?_eq_none (by simpa using h)]; rfl

theorem trajectory_length (o : MotionArgs) : o.trajectory.length = o.n := by simp [MotionArgs.trajectory]

theorem rows_stack (o : MotionArgs) (hs : o.stack = true) :
    o.rows.length = o.n ∧ ∀ k < o.n, o.rows[k]? = some (motionAngle o k • thirdAxis o.n k) := by
  have hl := trajectory_length o
  simp only [MotionArgs.rows, hs, if_true, arraySplit3, hl]
  set a := o.n / 3 + if 0 < o.n % 3 then 1 else 0 with ha
  set b := o.n / 3 + if 1 < o.n % 3 then 1 else 0 with hb
  have ea : a = (o.n + 2) / 3 := by rw [ha]; split_ifs <;> omega
  have eb : b = (o.n + 1) / 3 := by rw [hb]; split_ifs <;> omega
  clear_value a b
  have hx : ∀ c : ℝ, (![c * 1, c * 0, c * 0] : Vec) = c • ![1, 0, 0] := by intro c; funext i; fin_cases i <;> simp
  have hy : ∀ c : ℝ, (![c * 0, c * 1, c * 0] : Vec) = c • ![0, 1, 0] := by intro c; funext i; fin_cases i <;> simp
  have hz : ∀ c : ℝ, (![c * 0, c * 0, c * 1] : Vec) = c • ![0, 0, 1] := by intro c; funext i; fin_cases i <;> simp
  refine ⟨by simp [hl]; omega, fun k hk => ?_⟩
  simp only [thirdAxis]
  rw [List.append_assoc, List.getElem?_append]
  simp only [List.length_map, List.length_take, hl, List.getElem?_map]
  have hmin : min a o.n = a := by omega
  rw [hmin]
  split_ifs with h1 h2 h3 h4
  · rw [List.getElem?_take, if_pos h1, trajectory_get, if_pos hk]; simp [hx]
  · omega
  · omega
  · omega
  · rw [List.getElem?_append]
    simp only [List.length_map, List.length_take, List.length_drop, hl, List.getElem?_map]
    rw [if_pos (by omega), List.getElem?_take, if_pos (by omega), List.getElem?_drop, show a + (k - a) = k by omega, trajectory_get, if_pos hk]
    simp [hy]
  · rw [List.getElem?_append]
    simp only [List.length_map, List.length_take, List.length_drop, hl, List.getElem?_map]
    have hm : min b (o.n - a) = b := by omega
    rw [hm, if_neg (by omega), List.getElem?_drop, show a + b + (k - a - b) = k by omega, trajectory_get, if_pos hk]
    simp [hz]

theorem rows_tile (o : MotionArgs) (hs : o.stack = false) :
    o.rows.length = o.n ∧ ∀ k < o.n, o.rows[k]? = some ![motionAngle o k, motionAngle o k, motionAngle o k] := by
  have hl := trajectory_length o
  simp only [MotionArgs.rows, hs, Bool.false_eq_true, if_false, List.length_map, hl, true_and]
  intro k hk
  rw [List.getElem?_map, trajectory_get, if_pos hk]; rfl

/-- The contribution of the offset to the position at sample `k`. -/
noncomputable def offsetPart (o : MotionArgs) (q : Quat) : Vec :=
  match o.offset with
  | none => 0
  | some off => rot q ![off.getD 0 0, off.getD 1 0, off.getD 2 0]

theorem motion_core (dateRange : ℝ → ℕ → Res (List ℤ)) (o : MotionArgs) (hfs : o.fs ≠ 0) (hoff : ∀ off, o.offset = some off → off.length = 3)
    {ts : List ℤ} (hts : dateRange (1 / o.fs) o.n = .ok ts) (row : ℕ → Vec) (hlen : o.rows.length = o.n) (hrow : ∀ k < o.n, o.rows[k]? = some (row k))
    (hu : ∀ k < o.n, IsUnitQ (fromRotationVector (row k))) :
    ∃ T R, makeTestMotion dateRange o = .ok (T, R, ts) ∧ T.shape = [o.n, 3] ∧ R.shape = [o.n, 4] ∧ ∀ k < o.n,
      quat4 R 1 [k, 0] = fromRotationVector (row k) ∧ vec3 T 1 [k, 0] = row k + offsetPart o (fromRotationVector (row k)) := by
  set Q : ND Quat := ⟨[(o.rows.map fromRotationVector).length], fun idx => (o.rows.map fromRotationVector).getD (idx.getD 0 0) 0⟩ with hQ
  have hQs : Q.shape = [o.n] := by simp [hQ, hlen]
  have hQg : ∀ k < o.n, Q.get [k] = fromRotationVector (row k) := by
    intro k hk
    simp [hQ, List.getD_eq_getElem?_getD, hrow k hk]
  have hrows : ∀ k < o.n, ∀ j : Fin 3, (rowArray o.rows).get [k, j.val] = row k j := by
    intro k hk j
    have hj : Fin.ofNat 3 j.val = j := by simp
    simp [rowArray, List.getD_eq_getElem?_getD, hrow k hk]
  have hshape : (rowArray o.rows).shape = [o.n, 3] := by simp [rowArray, hlen]
  have hquat : ∀ k < o.n, quat4 (asFloatArray Q) 1 [k, 0] = fromRotationVector (row k) := by
    intro k hk
    rw [← hQg k hk]
    simp only [quat4, asFloatArray, List.set_cons_succ, List.set_cons_zero]
    rfl
  have htr : ∃ T, addOffset Q (rowArray o.rows) o.offset = .ok T ∧ T.shape = [o.n, 3] ∧ ∀ k < o.n,
        vec3 T 1 [k, 0] = row k + offsetPart o (fromRotationVector (row k)) := by
    cases ho : o.offset with
    | none =>
      refine ⟨_, rfl, hshape, fun k hk => ?_⟩
      rw [vec3_eq]
      funext j
      simp only [ND.vecAt, List.set_cons_succ, List.set_cons_zero, hrows k hk j, offsetPart, ho, add_zero]
    | some off =>
      have h3 := hoff off ho
      obtain ⟨r, r1, r2, r3⟩ := C72_broadcast Q ⟨[1, off.length], fun idx => off.getD (idx.getD 1 0) 0⟩ (axis := -1) (sv := [1]) (sh := [o.n])
        (by simp [h3]) ⟨by simp [ND.ndim], .inr (by simp [ND.ndim])⟩ (by simp [hQs]) (by rw [hQs]; exact .right o.n .nil) (by
          intro idx hv
          rw [hQs] at hv
          match idx, hv with
          | [k], hv => rw [hQg k hv.1]; exact hu k hv.1)
      have hb : Bcast (rowArray o.rows).shape r.shape := by rw [hshape, r2]; exact Bcast.refl _
      refine ⟨⟨r.shape, fun idx => (rowArray o.rows).bget idx + r.bget idx⟩, ?_, r2, fun k hk => ?_⟩
      · simp only [addOffset, r1, bind, Except.bind, bop_left _ _ _ hb]
      · have hr := r3 [k] ⟨hk, trivial⟩
        have hp : pickIdx Q.shape [k] = [k] := by
          rw [hQs]; simp only [pickIdx, List.zipWith_cons_cons, List.zipWith_nil_left]
          split_ifs
          · congr 1; omega
          · rfl
        rw [hp, hQg k hk] at hr
        have hv : ∀ j : Fin 3, Valid [o.n, 3] [k, j.val] := fun j => ⟨hk, j.2, trivial⟩
        rw [vec3_eq] at hr ⊢
        funext j
        have hrj := congrFun hr j
        simp only [ND.vecAt, List.length_singleton, List.cons_append, List.nil_append, List.set_cons_succ, List.set_cons_zero] at hrj ⊢
        rw [bget_valid _ (by rw [hshape]; exact hv j), bget_valid _ (by rw [r2]; exact hv j), hrows k hk j, hrj]
        simp only [Pi.add_apply, offsetPart, ho]
        rfl
  obtain ⟨T, t1, t2, t3⟩ := htr
  refine ⟨T, asFloatArray Q, ?_, t2, by simp [asFloatArray, hQs], fun k hk => ⟨hquat k hk, t3 k hk⟩⟩
  simp only [makeTestMotion]
  rw [← hQ, t1]
  simp only [bind, Except.bind, hfs, if_false, hts, Pure.pure, Except.pure]

/-- `stack=True`: at sample `k` the frame is displaced and turned by the same sine, along and about x in the first third of the samples, y in
the second, z in the last; with an offset the position is that of a point rigidly attached to the frame. -/
theorem C75_stacked (dateRange : ℝ → ℕ → Res (List ℤ)) (o : MotionArgs) (hs : o.stack = true) (hfs : o.fs ≠ 0)
    (hoff : ∀ off, o.offset = some off → off.length = 3) {ts : List ℤ} (hts : dateRange (1 / o.fs) o.n = .ok ts) :
    ∃ T R, makeTestMotion dateRange o = .ok (T, R, ts) ∧ T.shape = [o.n, 3] ∧ R.shape = [o.n, 4] ∧ ∀ k < o.n, ∀ θ,
      θ = sine (if o.inverse then -o.maxAngle else o.maxAngle) o.freq o.fs k →
        quat4 R 1 [k, 0] = axisAngle (thirdAxis o.n k) θ ∧
        (o.offset = none → vec3 T 1 [k, 0] = θ • thirdAxis o.n k) ∧
        (∀ x y z, o.offset = some [x, y, z] → vec3 T 1 [k, 0] = θ • thirdAxis o.n k + rot (axisAngle (thirdAxis o.n k) θ) ![x, y, z]) := by
  obtain ⟨h1, h2⟩ := rows_stack o hs
  obtain ⟨T, R, e1, e2, e3, e4⟩ := motion_core dateRange o hfs hoff hts (fun k => motionAngle o k • thirdAxis o.n k) h1 h2 (by
    intro k _
    rw [fromRot_axis _ (thirdAxis_unit _ _)]
    exact axisAngle_unit _ (thirdAxis_unit _ _) _)
  refine ⟨T, R, e1, e2, e3, fun k hk θ hθ => ?_⟩
  obtain ⟨q1, q2⟩ := e4 k hk
  have hm : motionAngle o k = θ := hθ.symm
  simp only [hm, fromRot_axis _ (thirdAxis_unit o.n k)] at q1 q2
  refine ⟨q1, fun ho => ?_, fun x y z ho => ?_⟩
  · rw [q2]; simp [offsetPart, ho]
  · rw [q2]; simp [offsetPart, ho]

/-- `stack=False`: the same displacement along all three axes, and the rotation about their diagonal. -/
theorem C75_tiled (dateRange : ℝ → ℕ → Res (List ℤ)) (o : MotionArgs) (hs : o.stack = false) (hfs : o.fs ≠ 0)
    (hoff : ∀ off, o.offset = some off → off.length = 3) {ts : List ℤ} (hts : dateRange (1 / o.fs) o.n = .ok ts) :
    ∃ T R, makeTestMotion dateRange o = .ok (T, R, ts) ∧ T.shape = [o.n, 3] ∧ R.shape = [o.n, 4] ∧ ∀ k < o.n, ∀ θ d,
      θ = sine (if o.inverse then -o.maxAngle else o.maxAngle) o.freq o.fs k → d = (Real.sqrt 3)⁻¹ →
        quat4 R 1 [k, 0] = axisAngle ![d, d, d] (Real.sqrt 3 * θ) ∧
        (o.offset = none → vec3 T 1 [k, 0] = ![θ, θ, θ]) ∧
        (∀ x y z, o.offset = some [x, y, z] → vec3 T 1 [k, 0] = ![θ, θ, θ] + rot (axisAngle ![d, d, d] (Real.sqrt 3 * θ)) ![x, y, z]) := by
  obtain ⟨h1, h2⟩ := rows_tile o hs
  have h3 : Real.sqrt 3 ≠ 0 := by positivity
  have h33 : Real.sqrt 3 * Real.sqrt 3 = 3 := Real.mul_self_sqrt (by norm_num)
  set d : ℝ := (Real.sqrt 3)⁻¹ with hd
  have hdd : d * d = 1 / 3 := by rw [hd, ← mul_inv, h33]; norm_num
  have hunit : (![d, d, d] : Vec) 0 * (![d, d, d] : Vec) 0 + (![d, d, d] : Vec) 1 * (![d, d, d] : Vec) 1 + (![d, d, d] : Vec) 2 * (![d, d, d] : Vec) 2 = 1 := by
    show d * d + d * d + d * d = 1
    linarith
  have hrow : ∀ θ : ℝ, (![θ, θ, θ] : Vec) = (Real.sqrt 3 * θ) • ![d, d, d] := by
    intro θ
    have : Real.sqrt 3 * θ * d = θ := by rw [hd]; field_simp
    funext i; fin_cases i <;> simp [this]
  obtain ⟨T, R, e1, e2, e3, e4⟩ := motion_core dateRange o hfs hoff hts (fun k => ![motionAngle o k, motionAngle o k, motionAngle o k]) h1 h2 (by
    intro k _
    rw [hrow, fromRot_axis _ hunit]
    exact axisAngle_unit _ hunit _)
  refine ⟨T, R, e1, e2, e3, fun k hk θ d' hθ hd' => ?_⟩
  subst hd'
  obtain ⟨q1, q2⟩ := e4 k hk
  have hm : motionAngle o k = θ := hθ.symm
  rw [hm] at q1 q2
  rw [hrow θ, fromRot_axis _ hunit] at q1
  rw [show fromRotationVector ![θ, θ, θ] = axisAngle ![d, d, d] (Real.sqrt 3 * θ) by rw [hrow θ, fromRot_axis _ hunit]] at q2
  refine ⟨q1, fun ho => ?_, fun x y z ho => ?_⟩
  · rw [q2]; simp [offsetPart, ho]
  · rw [q2]; simp [offsetPart, ho]

/-- `inverse=True` gives the inverse rotations and the opposite displacements. -/
theorem C75_inverse (dateRange : ℝ → ℕ → Res (List ℤ)) (o : MotionArgs) (hfs : o.fs ≠ 0) (ho : o.offset = none)
    {ts : List ℤ} (hts : dateRange (1 / o.fs) o.n = .ok ts) :
    ∃ T R T' R', makeTestMotion dateRange { o with inverse := false } = .ok (T, R, ts) ∧
      makeTestMotion dateRange { o with inverse := true } = .ok (T', R', ts) ∧ ∀ k < o.n,
        quat4 R' 1 [k, 0] = (quat4 R 1 [k, 0])⁻¹ ∧ vec3 T' 1 [k, 0] = - vec3 T 1 [k, 0] := by
  have hsine : sine (-o.maxAngle) o.freq o.fs = fun k => - sine o.maxAngle o.freq o.fs k := by funext k; simp [sine]
  have hax : ∀ (u : Vec) (_ : u 0 * u 0 + u 1 * u 1 + u 2 * u 2 = 1) (θ : ℝ), axisAngle u (-θ) = (axisAngle u θ)⁻¹ := by
    intro u hu θ
    have h1 : nsq (axisAngle u θ) = 1 := axisAngle_unit u hu θ
    have h2 : Quaternion.normSq (axisAngle u θ) = 1 := by rw [Quaternion.normSq_def']; exact h1
    rw [Quaternion.instInv] 
    show _ = (Quaternion.normSq (axisAngle u θ))⁻¹ • star (axisAngle u θ)
    rw [h2, inv_one, one_smul]
    have hc : Real.cos (-θ / 2) = Real.cos (θ / 2) := by rw [neg_div, Real.cos_neg]
    have hs : Real.sin (-θ / 2) = - Real.sin (θ / 2) := by rw [neg_div, Real.sin_neg]
    apply Quaternion.ext
    · rw [Quaternion.re_star]; exact hc
    · rw [Quaternion.imI_star]; show Real.sin (-θ / 2) * u 0 = -(Real.sin (θ / 2) * u 0); rw [hs]; ring
    · rw [Quaternion.imJ_star]; show Real.sin (-θ / 2) * u 1 = -(Real.sin (θ / 2) * u 1); rw [hs]; ring
    · rw [Quaternion.imK_star]; show Real.sin (-θ / 2) * u 2 = -(Real.sin (θ / 2) * u 2); rw [hs]; ring
  rcases Bool.eq_false_or_eq_true o.stack with hs | hs
  · obtain ⟨T, R, e1, -, -, e4⟩ := C75_stacked dateRange { o with inverse := false } hs hfs (by simp [ho]) hts
    obtain ⟨T', R', f1, -, -, f4⟩ := C75_stacked dateRange { o with inverse := true } hs hfs (by simp [ho]) hts
    refine ⟨T, R, T', R', e1, f1, fun k hk => ?_⟩
    obtain ⟨a1, a2, -⟩ := e4 k hk _ rfl
    obtain ⟨b1, b2, -⟩ := f4 k hk _ rfl
    rw [a1, b1, a2 ho, b2 ho]
    simp only [Bool.false_eq_true, if_false, if_true, hsine]
    exact ⟨hax _ (thirdAxis_unit _ _) _, by simp⟩
  · obtain ⟨T, R, e1, -, -, e4⟩ := C75_tiled dateRange { o with inverse := false } hs hfs (by simp [ho]) hts
    obtain ⟨T', R', f1, -, -, f4⟩ := C75_tiled dateRange { o with inverse := true } hs hfs (by simp [ho]) hts
    refine ⟨T, R, T', R', e1, f1, fun k hk => ?_⟩
    obtain ⟨a1, a2, -⟩ := e4 k hk _ _ rfl rfl
    obtain ⟨b1, b2, -⟩ := f4 k hk _ _ rfl rfl
    rw [a1, b1, a2 ho, b2 ho]
    simp only [Bool.false_eq_true, if_false, if_true, hsine, mul_neg]
    have h33 : Real.sqrt 3 * Real.sqrt 3 = 3 := Real.mul_self_sqrt (by norm_num)
    refine ⟨hax _ ?_ _, by simp⟩
    show (Real.sqrt 3)⁻¹ * (Real.sqrt 3)⁻¹ + (Real.sqrt 3)⁻¹ * (Real.sqrt 3)⁻¹ + (Real.sqrt 3)⁻¹ * (Real.sqrt 3)⁻¹ = 1
    rw [← mul_inv, h33]; norm_num

/-- The timestamps are equidistant with the sampling interval, starting at zero. -/
theorem C75_timestamps (dateRange : ℝ → ℕ → Res (List ℤ)) (hd : DateRangeLaw dateRange) (o : MotionArgs) {c : ℕ} (hc : 100000 ≤ c)
    (hfs : o.fs = 1000000000 / c) (hoff : ∀ off, o.offset = some off → off.length = 3) :
    ∃ T R ts, makeTestMotion dateRange o = .ok (T, R, ts) ∧ ts = (List.range o.n).map fun j : ℕ => (j : ℤ) * c := by
  have hc0 : (c : ℝ) ≠ 0 := by have : 0 < c := by omega
                               positivity
  have h0 : o.fs ≠ 0 := by rw [hfs]; positivity
  have h1 : dateRange (1 / o.fs) o.n = .ok ((List.range o.n).map fun j : ℕ => (j : ℤ) * c) := by
    rw [hfs, one_div_div]; exact hd c o.n hc
  cases hs : o.stack with
  | true =>
    obtain ⟨T, R, e1, -⟩ := C75_stacked dateRange o hs h0 hoff h1
    exact ⟨T, R, _, e1, rfl⟩
  | false =>
    obtain ⟨T, R, e1, -⟩ := C75_tiled dateRange o hs h0 hoff h1
    exact ⟨T, R, _, e1, rfl⟩

/-- An offset that does not have three coordinates is refused (if there is at least one sample or not), and so is a sampling rate of zero. -/
theorem C75_refused (dateRange : ℝ → ℕ → Res (List ℤ)) (o : MotionArgs) :
    ((∃ off, o.offset = some off ∧ off.length ≠ 3) → makeTestMotion dateRange o = .error .valueError) ∧
    ((∀ off, o.offset = some off → off.length = 3) → o.fs = 0 → makeTestMotion dateRange o = .error .zeroDivisionError) := by
  constructor
  · rintro ⟨off, ho, h3⟩
    simp only [makeTestMotion, ho, addOffset]
    rw [C72_not_vectors _ _ (p := 1) ⟨by simp [ND.ndim], .inr (by simp [ND.ndim])⟩ (by simpa using h3) (by simp)]
    rfl
  · intro hoff hfs
    cases ho : o.offset with
    | none => simp only [makeTestMotion, addOffset, ho, bind, Except.bind, hfs, if_true]; rfl
    | some off =>
      have h3 := hoff off ho
      have hl : o.rows.length = o.n := by
        cases hs : o.stack with
        | true => exact (rows_stack o hs).1
        | false => exact (rows_tile o hs).1
      obtain ⟨r, r1, r2, -⟩ := C72_broadcast ⟨[(o.rows.map fromRotationVector).length], fun idx => (o.rows.map fromRotationVector).getD (idx.getD 0 0) 0⟩
        ⟨[1, off.length], fun idx => off.getD (idx.getD 1 0) 0⟩ (axis := -1) (sv := [1]) (sh := [o.n])
        (by simp [h3]) ⟨by simp [ND.ndim], .inr (by simp [ND.ndim])⟩ (by simp) (by simp only [List.length_map, hl]; exact .right o.n .nil) (by
          intro idx hv
          match idx, hv with
          | [k], hv =>
            have hk : k < o.rows.length := by simpa using hv.1
            show IsUnitQ ((o.rows.map fromRotationVector).getD k 0)
            rw [List.getD_eq_getElem?_getD, List.getElem?_map, List.getElem?_eq_getElem hk, Option.map_some, Option.getD_some]
            exact fromRot_unit _)
      have hb : Bcast (rowArray o.rows).shape r.shape := by rw [r2]; simp only [rowArray, hl]; exact Bcast.refl _
      simp only [makeTestMotion, addOffset, ho, r1, bind, Except.bind, bop_left _ _ _ hb, hfs, if_true]
      rfl

/-- The contract of `date_range` can be met. -/
noncomputable def exRange : ℝ → ℕ → Res (List ℤ) := fun x n => .ok ((List.range n).map fun j : ℕ => (j : ℤ) * round (x * 1000000000))

theorem exRange_law : DateRangeLaw exRange := by
  intro k n _
  simp only [exRange]
  have : (k : ℝ) / 1000000000 * 1000000000 = ((k : ℤ) : ℝ) := by push_cast; field_simp
  rw [this, round_intCast]

/-- Five samples at 1 kHz: two along x, two along y, one along z, timestamps every millisecond. -/
example : ∃ T R, makeTestMotion exRange { n := 5, offset := some [0, 0, 1] } = .ok (T, R, [0, 1000000, 2000000, 3000000, 4000000]) ∧
    quat4 R 1 [3, 0] = axisAngle ![0, 1, 0] (sine (Real.pi / 2) 1 1000 3) ∧
    vec3 T 1 [4, 0] = sine (Real.pi / 2) 1 1000 4 • ![0, 0, 1] + rot (axisAngle ![0, 0, 1] (sine (Real.pi / 2) 1 1000 4)) ![0, 0, 1] := by
  have h := exRange_law 1000000 5 (by norm_num)
  have e : ((1000000 : ℕ) : ℝ) / 1000000000 = 1 / 1000 := by norm_num
  rw [e] at h
  obtain ⟨T, R, e1, -, -, e4⟩ := C75_stacked exRange { n := 5, offset := some [0, 0, 1] } rfl (by norm_num) (by simp) h
  refine ⟨T, R, ?_, ?_, ?_⟩
  · rw [e1]; rfl
  · exact (e4 3 (by norm_num) _ rfl).1
  · exact (e4 4 (by norm_num) _ rfl).2.2 0 0 1 rfl

example : ∃ T R ts, makeTestMotion exRange { n := 2 } = .ok (T, R, ts) ∧ ts = (List.range 2).map fun j : ℕ => (j : ℤ) * (1000000 : ℕ) :=
  C75_timestamps exRange exRange_law { n := 2 } (c := 1000000) (by norm_num) (by norm_num) (by simp)

end RBM.Props
