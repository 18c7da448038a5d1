import Verif.Props.Outliers
import Verif.Lemmas.Kinematics

/-!
C37: angular velocity estimates.
-/

namespace RBM.Props

open RBM.Spec

/-- The array handling of `estimate_angular_velocity` for plain arrays. -/
theorem estimateAngular_plain (ext : Ext) (x : XrOps) (arr : ND ℝ) {axis ta : Option ℤ} {pa p : ℕ} (ts : List ℝ)
    (hax : AxisIs (orDefault axis (-1)) arr.ndim pa) (hp : AxisIs (orDefault ta 0) arr.ndim p) (hne : pa ≠ p) (mode : String)
    (outlier cutoff : Option ℝ) :
    estimateAngularVelocity ext x (.nd arr) none axis (.arr (ofList ts)) ta mode outlier cutoff =
      (estimateAngular ext arr ts (orDefault axis (-1)) (orDefault ta 0) mode outlier cutoff).map .nd := by
  rw [estimateAngularVelocity, (C56_plain_timed arr axis ta (ofList ts) hax hp).1 hne]
  simp only [bind, Except.bind, stampList_ofList, Option.getD_some]
  cases estimateAngular ext arr ts (orDefault axis (-1)) (orDefault ta 0) mode outlier cutoff <;> rfl

theorem estimateAngular_of {ext : Ext} (hf : FiltLaw ext) {arr : ND ℝ} {axis ta : ℤ} {pa p : ℕ} {ts : List ℝ} {mode : String}
    (hax : AxisIs axis arr.ndim pa) (hp : AxisIs ta arr.ndim p) (hne : pa ≠ p) (hn : arr.shape.getD p 0 = ts.length)
    {raw : ND ℝ} (hraw : rawAngular ext (arr.swapaxes pa (arr.ndim - 1)) ts (if p + 1 = arr.ndim then pa else p) mode = .ok raw)
    (hsh : raw.shape = swapL pa (arr.ndim - 1) (arr.shape.set pa 3)) {cutoff : Option ℝ}
    (hc : ∀ c, cutoff = some c → 0 < c ∧ c < 1 ∧ 24 < ts.length) :
    ∃ w, estimateAngular ext arr ts axis ta mode none cutoff = .ok w ∧ w.shape = arr.shape.set pa 3 ∧
      (cutoff = none → ∀ idx, w.get idx = some (raw.get (swapL pa (arr.ndim - 1) idx))) ∧
      ∀ idx m, Valid (arr.shape.set pa 3) idx → (∀ k < ts.length, raw.get (swapL pa (arr.ndim - 1) (idx.set p k)) = m) → w.get idx = some m := by
  have hpa := hax.1
  have hpl := hp.1
  have hnd : raw.ndim = arr.ndim := by rw [ND.ndim, hsh]; simp [ND.ndim]
  have hp' : (if p + 1 = arr.ndim then pa else p) < (raw.map some).ndim := by
    show _ < raw.ndim
    rw [hnd]; split_ifs <;> omega
  have hti : (raw.map some).shape.getD (if p + 1 = arr.ndim then pa else p) 0 = ts.length := by
    show raw.shape.getD _ 0 = _
    rw [hsh, swap_time_get hpa hpl hne (idx := arr.shape) rfl 3, hn]
  obtain ⟨w, w1, w2, w3, w4⟩ := maybeFilter_const hf (raw.map some) hp' (cutoff := cutoff) (fun c h => by rw [hti]; exact hc c h)
  have hwn : w.ndim = arr.ndim := by rw [ND.ndim, w2]; exact hnd
  refine ⟨w.swapaxes pa (arr.ndim - 1), ?_, ?_, ?_, ?_⟩
  · rw [estimateAngular, if_neg (by omega), angularAxes_eq hax hp]
    simp only [hraw, bind, Except.bind, maybeOutliers, w1, hwn]
    rfl
  · simp only [ND.swapaxes, w2]
    have : (raw.map some).shape = swapL pa (arr.ndim - 1) (arr.shape.set pa 3) := hsh
    rw [this, swapL_swapL (by simp only [List.length_set]; exact hpa) (by simp only [List.length_set]; show _ < arr.ndim; omega)]
  · intro hcut idx
    rw [w3 hcut]; rfl
  · intro idx m hv hk
    have hil : idx.length = arr.ndim := by rw [hv.length]; simp [ND.ndim]
    simp only [ND.swapaxes]
    refine w4 _ m ?_ ?_
    · have : (raw.map some).shape = swapL pa (arr.ndim - 1) (arr.shape.set pa 3) := hsh
      rw [this]
      rw [valid_iff] at hv ⊢
      refine ⟨by simp [hv.1], fun j hj => ?_⟩
      simp only [swapL_length, List.length_set] at hj
      have hj' : j < arr.ndim := hj
      rw [swapL_getD (by omega) (by omega), swapL_getD (by simp only [List.length_set]; exact hpa) (by simp only [List.length_set]; show _ < arr.ndim; omega)]
      have hb : ∀ i, i < arr.ndim → idx.getD i 0 < (arr.shape.set pa 3).getD i 0 := fun i hi => hv.2 i (by simp only [List.length_set]; exact hi)
      split_ifs <;> exact hb _ (by omega)
    · intro k hk'
      rw [hti] at hk'
      rw [← swapL_set hil hpa hpl hne]
      exact congrArg some (hk k hk')


section

variable {ext : Ext} {arr : ND ℝ} {axis ta : Option ℤ} {pa p : ℕ} {ts : List ℝ}

theorem qcomp_imVec (q : Quat) (j : Fin 3) : qcomp q (j + 1) = imVec q j := by
  fin_cases j <;> rfl

theorem set_set_self (idx : List ℕ) (j k : ℕ) : (idx.set pa j).set pa k = idx.set pa k := List.set_set ..

/-- Quaternion mode, samples of a differentiable curve of unit quaternions: wherever the numerical
derivative of the quaternion components is exact, the estimate is the angular velocity expressed in the
moving frame. -/
theorem C37_quaternion_mode (x : XrOps) (hacc : ext.derivErr ts = none)
    (hax : AxisIs (orDefault axis (-1)) arr.ndim pa) (hp : AxisIs (orDefault ta 0) arr.ndim p) (hne : pa ≠ p)
    (h4 : arr.shape.getD pa 0 = 4) (hn : arr.shape.getD p 0 = ts.length) :
    ∃ v, estimateAngularVelocity ext x (.nd arr) none axis (.arr (ofList ts)) ta "quaternion" none none = .ok (.nd v) ∧
      v.shape = arr.shape.set pa 3 ∧ ∀ idx, Valid arr.shape idx → ∀ (q : ℝ → Quat) (τ : ℝ), ts[idx.getD p 0]? = some τ →
        (∀ t, IsUnitQ (q t)) → quat4 arr pa idx = q τ → HasDerivAt q (quatRate ext arr pa p ts idx) τ →
        ∃ ω, IsBodyRate q τ ω ∧ HasVec v pa idx ω := by
  rw [estimateAngular_plain ext x arr ts hax hp hne]
  obtain ⟨raw, r1, r2, r3⟩ := rawAngular_quat (arr := arr) (ts := ts) ext hacc hax.1 hp.1 hne h4 hn
  have : ∃ w, estimateAngular ext arr ts (orDefault axis (-1)) (orDefault ta 0) "quaternion" none none = .ok w ∧ w.shape = arr.shape.set pa 3 ∧
      ∀ idx, w.get idx = some (raw.get (swapL pa (arr.ndim - 1) idx)) := by
    have hpa := hax.1
    have hnd : raw.ndim = arr.ndim := by rw [ND.ndim, r2]; simp [ND.ndim]
    refine ⟨(raw.map some).swapaxes pa (arr.ndim - 1), ?_, ?_, fun idx => rfl⟩
    · have hp1 := hp.1
      rw [estimateAngular, if_neg (by omega), angularAxes_eq hax hp]
      simp only [r1, bind, Except.bind, maybeOutliers, maybeFilter]
      show Except.ok ((raw.map some).swapaxes pa (raw.ndim - 1)) = _
      rw [hnd]
    · show swapL pa (arr.ndim - 1) raw.shape = _
      rw [r2, swapL_swapL (by simp only [List.length_set]; exact hpa) (by simp only [List.length_set]; show _ < arr.ndim; omega)]
  obtain ⟨w, w1, w2, w3⟩ := this
  refine ⟨w, by rw [w1]; rfl, w2, fun idx hv q τ hτ hu hq hd => ⟨_, bodyRate_of_deriv hu hd, fun j => ?_⟩⟩
  rw [w3, r3 idx hv.length j, hq, qcomp_imVec]

/-- A constant rotation has zero angular velocity in both modes, also after low-pass filtering. -/
theorem C37_constant_is_zero {n0 : ℕ} (hf : FiltLaw ext) (hl : DerivLaw ext n0) (x : XrOps)
    (hax : AxisIs (orDefault axis (-1)) arr.ndim pa) (hp : AxisIs (orDefault ta 0) arr.ndim p) (hne : pa ≠ p)
    (h4 : arr.shape.getD pa 0 = 4) (htd : TimedArray arr p ts) {mode : String}
    (hmode : (mode = "quaternion" ∧ n0 ≤ ts.length) ∨ mode = "rotation_vector") (cutoff : Option ℝ)
    (hc : ∀ c, cutoff = some c → 0 < c ∧ c < 1 ∧ 24 < ts.length) :
    ∃ v, estimateAngularVelocity ext x (.nd arr) none axis (.arr (ofList ts)) ta mode none cutoff = .ok (.nd v) ∧
      v.shape = arr.shape.set pa 3 ∧ ∀ idx, Valid arr.shape idx → ∀ Q, (∀ k < ts.length, quat4 arr pa (idx.set p k) = Q) → HasVec v pa idx 0 := by
  rw [estimateAngular_plain ext x arr ts hax hp hne]
  have hpa := hax.1
  have hval : ∀ {idx : List ℕ}, Valid arr.shape idx → ∀ j : Fin 3, Valid (arr.shape.set pa 3) (idx.set pa j) := fun hv j => valid_set_set hv j.2
  rcases hmode with ⟨rfl, hm⟩ | rfl
  · obtain ⟨raw, r1, r2, r3⟩ := rawAngular_quat (arr := arr) (ts := ts) ext (hl.accepts ts hm htd.sorted) hax.1 hp.1 hne h4 htd.length
    obtain ⟨w, w1, w2, _, w4⟩ := estimateAngular_of hf hax hp hne htd.length r1 r2 hc
    refine ⟨w, by rw [w1]; rfl, w2, fun idx hv Q hQ j => w4 _ _ (hval hv j) fun k hk => ?_⟩
    have hkv : Valid arr.shape (idx.set p k) := valid_set hv (by rw [htd.length]; exact hk)
    rw [set_ne_comm hne, r3 _ hkv.length]
    have hrate : quatRate ext arr pa p ts (idx.set p k) = 0 := by
      have hk' : (idx.set p k).getD p 0 = k := by rw [getD_set (by rw [hv.length]; exact hp.1), if_pos rfl]
      have hcomp : ∀ (c : ℕ) (z : ℝ), (∀ m < ts.length, arr.get ((idx.set p m).set pa c) = z) →
          ext.deriv ((List.range ts.length).map fun m => arr.get (((idx.set p k).set pa c).set p m)) ts k = 0 := by
        intro c z hz
        have : ((List.range ts.length).map fun m => arr.get (((idx.set p k).set pa c).set p m)) = ts.map fun τ => z + 0 * τ := by
          refine List.ext_getElem (by simp) fun m h1 h2 => ?_
          have hm' : m < ts.length := by simpa using h1
          simp only [List.getElem_map, List.getElem_range, zero_mul, add_zero]
          rw [set_ne_comm hne.symm, List.set_set, set_ne_comm hne]
          exact hz m hm'
        rw [this]
        exact hl.affine ts z 0 k hm htd.sorted hk
      have c0 := hcomp 0 Q.re fun m hm => congrArg (·.re) (hQ m hm)
      have c1 := hcomp 1 Q.imI fun m hm => congrArg (·.imI) (hQ m hm)
      have c2 := hcomp 2 Q.imJ fun m hm => congrArg (·.imJ) (hQ m hm)
      have c3 := hcomp 3 Q.imK fun m hm => congrArg (·.imK) (hQ m hm)
      simp only [quatRate, hk', c0, c1, c2, c3]
      rfl
    rw [hrate, mul_zero, smul_zero, qcomp_imVec]
    fin_cases j <;> rfl
  · obtain ⟨raw, r1, r2, r3⟩ := rawAngular_rv (arr := arr) (ts := ts) ext htd.sorted htd.two hax.1 hp.1 hne h4 htd.length
    obtain ⟨w, w1, w2, _, w4⟩ := estimateAngular_of hf hax hp hne htd.length r1 r2 hc
    refine ⟨w, by rw [w1]; rfl, w2, fun idx hv Q hQ j => w4 _ _ (hval hv j) fun k hk => ?_⟩
    have hkv : Valid arr.shape (idx.set p k) := valid_set hv (by rw [htd.length]; exact hk)
    have hk' : (idx.set p k).getD p 0 = k := by rw [getD_set (by rw [hv.length]; exact hp.1), if_pos rfl]
    rw [set_ne_comm hne, r3 _ hkv.length, hk']
    rw [gradAt_quadratic htd.sorted htd.two (c := rotVec Q j) (m := 0) (e := 0) ?_ hk (.inl rfl)]
    · simp
    · intro m hm
      rw [List.getD_eq_getElem?_getD, List.getElem?_map, List.getElem?_range hm]
      simp only [Option.map_some, Option.getD_some, List.set_set, hQ m hm]
      have : Fin.ofNat 3 (j : ℕ) = j := by fin_cases j <;> rfl
      rw [this]; ring

theorem rotVec_axisAngle {u : Vec} (hu : dot u u = 1) {θ : ℝ} (h1 : -(2 * Real.pi) < θ) (h2 : θ < 2 * Real.pi) :
    rotVec (axisAngle u θ) = θ • u := by
  obtain ⟨q, hq, e0, e1, e2, e3⟩ : ∃ q, q = axisAngle u θ ∧ q.re = Real.cos (θ / 2) ∧ q.imI = Real.sin (θ / 2) * u 0 ∧
      q.imJ = Real.sin (θ / 2) * u 1 ∧ q.imK = Real.sin (θ / 2) * u 2 := ⟨_, rfl, rfl, rfl, rfl, rfl⟩
  rw [← hq]
  have hb : Real.sqrt (q.imI ^ 2 + q.imJ ^ 2 + q.imK ^ 2) = |Real.sin (θ / 2)| := by
    rw [e1, e2, e3, ← Real.sqrt_sq_eq_abs]
    congr 1
    simp only [dot] at hu
    linear_combination (Real.sin (θ / 2)) ^ 2 * hu
  have him : imVec q = Real.sin (θ / 2) • u := by
    ext i; fin_cases i <;> simp [imVec, e1, e2, e3]
  have hs0 : Real.sin (θ / 2) = 0 → θ = 0 := by
    intro h
    rcases lt_trichotomy θ 0 with hh | hh | hh
    · have := Real.sin_neg_of_neg_of_neg_pi_lt (x := θ / 2) (by linarith) (by linarith); linarith
    · exact hh
    · have := Real.sin_pos_of_pos_of_lt_pi (x := θ / 2) (by linarith) (by linarith); linarith
  simp only [rotVec, hb, e0, him]
  by_cases hs : Real.sin (θ / 2) = 0
  · have := hs0 hs
    subst this
    simp
  · rw [if_neg (by simpa using hs)]
    have harg : Complex.arg ⟨Real.cos (θ / 2), |Real.sin (θ / 2)|⟩ = |θ / 2| := by
      have : (⟨Real.cos (θ / 2), |Real.sin (θ / 2)|⟩ : ℂ) = Complex.cos (|θ / 2| : ℝ) + Complex.sin (|θ / 2| : ℝ) * Complex.I := by
        have hs' : Real.sin |θ / 2| = |Real.sin (θ / 2)| := by
          rcases le_total 0 θ with hh | hh
          · rw [abs_of_nonneg (by linarith), abs_of_nonneg (Real.sin_nonneg_of_nonneg_of_le_pi (by linarith) (by linarith))]
          · rw [abs_of_nonpos (by linarith), abs_of_nonpos (Real.sin_nonpos_of_nonpos_of_neg_pi_le (by linarith) (by linarith)), Real.sin_neg]
        rw [← Complex.ofReal_cos, ← Complex.ofReal_sin, Real.cos_abs, hs']
        generalize Real.cos (θ / 2) = a
        generalize |Real.sin (θ / 2)| = b
        apply Complex.ext <;> simp
      rw [this, Complex.arg_cos_add_sin_mul_I ⟨by have := abs_nonneg (θ / 2); have := Real.pi_pos; linarith, by rw [abs_le]; constructor <;> linarith⟩]
    rw [harg, smul_smul]
    congr 1
    rcases le_total 0 θ with hh | hh
    · rw [abs_of_nonneg (show 0 ≤ θ / 2 by linarith), abs_of_nonneg (Real.sin_nonneg_of_nonneg_of_le_pi (by linarith) (by linarith))]
      field_simp
    · rw [abs_of_nonpos (show θ / 2 ≤ 0 by linarith), abs_of_nonpos (Real.sin_nonpos_of_nonpos_of_neg_pi_le (by linarith) (by linarith))]
      field_simp

/-- Rotation vector mode is exact for a rotation about a fixed axis with constant rate (as long as the angle
stays within one turn): the estimate is the rate times the axis at every sample, also after filtering. -/
theorem C37_fixed_axis (hf : FiltLaw ext) (x : XrOps)
    (hax : AxisIs (orDefault axis (-1)) arr.ndim pa) (hp : AxisIs (orDefault ta 0) arr.ndim p) (hne : pa ≠ p)
    (h4 : arr.shape.getD pa 0 = 4) (htd : TimedArray arr p ts) (cutoff : Option ℝ)
    (hc : ∀ c, cutoff = some c → 0 < c ∧ c < 1 ∧ 24 < ts.length) :
    ∃ v, estimateAngularVelocity ext x (.nd arr) none axis (.arr (ofList ts)) ta "rotation_vector" none cutoff = .ok (.nd v) ∧
      v.shape = arr.shape.set pa 3 ∧ ∀ idx, Valid arr.shape idx → ∀ (u : Vec) (c m : ℝ), dot u u = 1 →
        (∀ (k : ℕ) τ, ts[k]? = some τ → -(2 * Real.pi) < c + m * τ ∧ c + m * τ < 2 * Real.pi ∧
          quat4 arr pa (idx.set p k) = axisAngle u (c + m * τ)) → HasVec v pa idx (m • u) := by
  rw [estimateAngular_plain ext x arr ts hax hp hne]
  have hpa := hax.1
  obtain ⟨raw, r1, r2, r3⟩ := rawAngular_rv (arr := arr) (ts := ts) ext htd.sorted htd.two hax.1 hp.1 hne h4 htd.length
  obtain ⟨w, w1, w2, _, w4⟩ := estimateAngular_of hf hax hp hne htd.length r1 r2 hc
  refine ⟨w, by rw [w1]; rfl, w2, fun idx hv u c m hu hQ j => w4 _ _ (valid_set_set hv j.2) fun k hk => ?_⟩
  have hkv : Valid arr.shape (idx.set p k) := valid_set hv (by rw [htd.length]; exact hk)
  have hk' : (idx.set p k).getD p 0 = k := by rw [getD_set (by rw [hv.length]; exact hp.1), if_pos rfl]
  rw [set_ne_comm hne, r3 _ hkv.length, hk']
  rw [gradAt_quadratic htd.sorted htd.two (c := c * u j) (m := m * u j) (e := 0) ?_ hk (.inl rfl)]
  · simp
  · intro i hi
    obtain ⟨q1, q2, q3⟩ := hQ i (ts.getD i 0) (by rw [getD_eq hi]; exact List.getElem?_eq_getElem hi)
    rw [List.getD_eq_getElem?_getD, List.getElem?_map, List.getElem?_range hi]
    simp only [Option.map_some, Option.getD_some, List.set_set, q3, rotVec_axisAngle hu q1 q2]
    have : Fin.ofNat 3 (j : ℕ) = j := by fin_cases j <;> rfl
    rw [this]
    simp only [Pi.smul_apply, smul_eq_mul]; ring

/-- Any other mode is rejected. -/
theorem C37_unknown_mode (x : XrOps) (hax : AxisIs (orDefault axis (-1)) arr.ndim pa) (hp : AxisIs (orDefault ta 0) arr.ndim p)
    (hne : pa ≠ p) {mode : String} (h1 : mode ≠ "quaternion") (h2 : mode ≠ "rotation_vector") (outlier cutoff : Option ℝ) :
    estimateAngularVelocity ext x (.nd arr) none axis (.arr (ofList ts)) ta mode outlier cutoff = .error .valueError := by
  have := hax.1; have := hp.1
  rw [estimateAngular_plain ext x arr ts hax hp hne, estimateAngular, if_neg (by omega), angularAxes_eq hax hp]
  simp only [rawAngular, if_neg h1, if_neg h2, bind, Except.bind]
  rfl

end

end RBM.Props
