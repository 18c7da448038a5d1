import Verif.Spec.ShortestArc
import Verif.Lemmas.SO3
import Verif.Model.Estimators
import Verif.Lemmas.RotateND

/-!
The shortest arc.
-/

namespace RBM

open RBM.Spec Matrix

theorem dot_self_nonneg (a : Vec) : 0 ≤ dot a a := by
  simp only [dot]; nlinarith [sq_nonneg (a 0), sq_nonneg (a 1), sq_nonneg (a 2)]

theorem dot_self_pos {a : Vec} (h : a ≠ 0) : 0 < dot a a := by
  rcases (dot_self_nonneg a).lt_or_eq with h' | h'
  · exact h'
  · exfalso
    apply h
    simp only [dot] at h'
    ext i
    fin_cases i <;> simp <;> nlinarith [sq_nonneg (a 0), sq_nonneg (a 1), sq_nonneg (a 2)]

/-- The numbers computed by the code, before normalisation. -/
noncomputable def arcRaw (a b : Vec) : Quat :=
  ⟨Real.sqrt (dot a a * dot b b) + dot a b, a 1 * b 2 - a 2 * b 1, a 2 * b 0 - a 0 * b 2, a 0 * b 1 - a 1 * b 0⟩

theorem lagrange (a b : Vec) : (a 1 * b 2 - a 2 * b 1) ^ 2 + (a 2 * b 0 - a 0 * b 2) ^ 2 + (a 0 * b 1 - a 1 * b 0) ^ 2 =
    dot a a * dot b b - dot a b ^ 2 := by simp only [dot]; ring

theorem dot_le_sqrt (a b : Vec) : |dot a b| ≤ Real.sqrt (dot a a * dot b b) := by
  apply Real.abs_le_sqrt
  have := lagrange a b
  nlinarith [sq_nonneg (a 1 * b 2 - a 2 * b 1), sq_nonneg (a 2 * b 0 - a 0 * b 2), sq_nonneg (a 0 * b 1 - a 1 * b 0)]

theorem arcRaw_nsq (a b : Vec) : nsq (arcRaw a b) = 2 * Real.sqrt (dot a a * dot b b) * (Real.sqrt (dot a a * dot b b) + dot a b) := by
  have h := Real.sq_sqrt (mul_nonneg (dot_self_nonneg a) (dot_self_nonneg b))
  have := lagrange a b
  simp only [nsq, arcRaw]
  linear_combination this + (-1) * h

theorem arcPair_iff (a b : Vec) : ArcPair a b ↔ nsq (arcRaw a b) ≠ 0 := by
  rw [arcRaw_nsq]
  have hs := Real.sq_sqrt (mul_nonneg (dot_self_nonneg a) (dot_self_nonneg b))
  set s := Real.sqrt (dot a a * dot b b) with hsd
  constructor
  · rintro ⟨ha, hb, hanti⟩
    have pa := dot_self_pos ha; have pb := dot_self_pos hb
    have ps : 0 < s := Real.sqrt_pos.mpr (mul_pos pa pb)
    refine mul_ne_zero (by positivity) ?_
    intro h0
    apply hanti
    have hd : dot a b = -s := by linarith
    refine ⟨dot a b / dot a a, div_neg_of_neg_of_pos (by linarith) pa, ?_⟩
    have hl := lagrange a b
    rw [hd, neg_sq, hs, sub_self] at hl
    have c0 : a 1 * b 2 - a 2 * b 1 = 0 := by
      nlinarith [sq_nonneg (a 1 * b 2 - a 2 * b 1), sq_nonneg (a 2 * b 0 - a 0 * b 2), sq_nonneg (a 0 * b 1 - a 1 * b 0)]
    have c1 : a 2 * b 0 - a 0 * b 2 = 0 := by
      nlinarith [sq_nonneg (a 1 * b 2 - a 2 * b 1), sq_nonneg (a 2 * b 0 - a 0 * b 2), sq_nonneg (a 0 * b 1 - a 1 * b 0)]
    have c2 : a 0 * b 1 - a 1 * b 0 = 0 := by
      nlinarith [sq_nonneg (a 1 * b 2 - a 2 * b 1), sq_nonneg (a 2 * b 0 - a 0 * b 2), sq_nonneg (a 0 * b 1 - a 1 * b 0)]
    ext i
    rw [Pi.smul_apply, smul_eq_mul, div_mul_eq_mul_div, eq_div_iff pa.ne']
    simp only [dot]
    fin_cases i
    · show b 0 * _ = _ * a 0
      linear_combination (-a 1) * c2 + a 2 * c1
    · show b 1 * _ = _ * a 1
      linear_combination a 0 * c2 + (-a 2) * c0
    · show b 2 * _ = _ * a 2
      linear_combination a 1 * c0 + (-a 0) * c1
  · intro h
    refine ⟨?_, ?_, ?_⟩
    · rintro rfl
      apply h
      have : s = 0 := by rw [hsd]; simp [dot]
      rw [this]; ring
    · rintro rfl
      apply h
      have : s = 0 := by rw [hsd]; simp [dot]
      rw [this]; ring
    · rintro ⟨c, hc, rfl⟩
      apply h
      have e1 : dot a (c • a) = c * dot a a := by simp [dot]; ring
      have e2 : dot (c • a) (c • a) = c ^ 2 * dot a a := by simp [dot]; ring
      have : s = -c * dot a a := by
        rw [hsd, e2, show dot a a * (c ^ 2 * dot a a) = (-c * dot a a) ^ 2 by ring]
        exact Real.sqrt_sq (mul_nonneg (by linarith) (dot_self_nonneg a))
      rw [e1, this]; ring

theorem dot_rot_self {q : Quat} (hq : IsUnitQ q) (a : Vec) :
    dot a (rot q a) = (2 * q.re ^ 2 - 1) * dot a a + 2 * dot ![q.imI, q.imJ, q.imK] a ^ 2 := by
  have hn : q.re ^ 2 + q.imI ^ 2 + q.imJ ^ 2 + q.imK ^ 2 = 1 := hq
  rw [← rotMat_mulVec hq.ne_zero, rotMat_unit hq]
  simp only [dot, Matrix.mulVec, dotProduct, Fin.sum_univ_three, Matrix.of_apply, Matrix.cons_val]
  linear_combination (2 * (a 0 ^ 2 + a 1 ^ 2 + a 2 ^ 2) ) * (-hn)

theorem smul_nsq (c : ℝ) (q : Quat) : nsq (c • q) = c ^ 2 * nsq q := by simp [nsq]; ring

theorem rot_smul_quat {c : ℝ} (hc : c ≠ 0) {q : Quat} (hq : q ≠ 0) (v : Vec) : rot (c • q) v = rot q v := by
  have h0 : c • q ≠ 0 := smul_ne_zero hc hq
  have : Spec.pure (rot (c • q) v) = Spec.pure (rot q v) := by
    rw [pure_rot _ h0, pure_rot _ hq, smul_inv₀, smul_mul_assoc, smul_mul_assoc, mul_smul_comm, smul_smul, mul_inv_cancel₀ hc, one_smul]
  have a := congrArg (·.imI) this; have b := congrArg (·.imJ) this; have c := congrArg (·.imK) this
  simp at a b c
  ext i; fin_cases i <;> assumption

theorem arc_aligns {a b : Vec} (h : ArcPair a b) : Aligns (arcRaw a b) a b := by
  have hne : arcRaw a b ≠ 0 := fun e => (arcPair_iff a b).mp h (by rw [e]; simp [nsq])
  have pa := dot_self_pos h.1; have pb := dot_self_pos h.2.1
  have la : 0 < vlen a := Real.sqrt_pos.mpr pa
  have lb : 0 < vlen b := Real.sqrt_pos.mpr pb
  have hs : Real.sqrt (dot a a * dot b b) = vlen a * vlen b := Real.sqrt_mul pa.le _
  have ha : vlen a ^ 2 = dot a a := Real.sq_sqrt pa.le
  have hb : vlen b ^ 2 = dot b b := Real.sq_sqrt pb.le
  have key : rot (arcRaw a b) a = (vlen a / vlen b) • b := by
    have hpure : arcRaw a b * Spec.pure a = Spec.pure ((vlen a / vlen b) • b) * arcRaw a b := by
      obtain ⟨Q, hQ⟩ : ∃ Q, Q = arcRaw a b := ⟨_, rfl⟩
      have q0 : Q.re = vlen a * vlen b + dot a b := by rw [hQ, arcRaw, hs]
      have q1 : Q.imI = a 1 * b 2 - a 2 * b 1 := by rw [hQ, arcRaw]
      have q2 : Q.imJ = a 2 * b 0 - a 0 * b 2 := by rw [hQ, arcRaw]
      have q3 : Q.imK = a 0 * b 1 - a 1 * b 0 := by rw [hQ, arcRaw]
      rw [← hQ]
      set x := vlen a with hx
      set y := vlen b with hy
      have hy0 : y ≠ 0 := lb.ne'
      simp only [dot] at ha hb
      have hdiv : x / y * y = x := div_mul_cancel₀ x hy0
      set l := x / y with hl
      have hlb : l * (b 0 * b 0 + b 1 * b 1 + b 2 * b 2) = x * y := by rw [← hb]; rw [sq, ← mul_assoc, hdiv]
      ext
      · simp [dot, q0, q1, q2, q3]; ring
      · simp [dot, q0, q1, q2, q3]; grind
      · simp [dot, q0, q1, q2, q3]; grind
      · simp [dot, q0, q1, q2, q3]; grind
    have h2 : Spec.pure (rot (arcRaw a b) a) = Spec.pure ((vlen a / vlen b) • b) := by
      rw [pure_rot _ hne, hpure, mul_assoc, mul_inv_cancel₀ hne, mul_one]
    have a := congrArg (·.imI) h2; have b := congrArg (·.imJ) h2; have c := congrArg (·.imK) h2
    simp only [pure_imI, pure_imJ, pure_imK] at a b c
    ext i; fin_cases i <;> assumption
  rw [Aligns, key, smul_smul, mul_div_cancel₀ _ lb.ne']

theorem raw_imI (a b : Vec) : (arcRaw a b).imI = a 1 * b 2 - a 2 * b 1 := rfl
theorem raw_imJ (a b : Vec) : (arcRaw a b).imJ = a 2 * b 0 - a 0 * b 2 := rfl
theorem raw_imK (a b : Vec) : (arcRaw a b).imK = a 0 * b 1 - a 1 * b 0 := rfl

theorem raw_axis (c : ℝ) (a b : Vec) : dot ![(c • arcRaw a b).imI, (c • arcRaw a b).imJ, (c • arcRaw a b).imK] a = 0 ∧
    dot ![(c • arcRaw a b).imI, (c • arcRaw a b).imJ, (c • arcRaw a b).imK] b = 0 := by
  simp only [dot, Quaternion.imI_smul, Quaternion.imJ_smul, Quaternion.imK_smul, raw_imI, raw_imJ, raw_imK, smul_eq_mul]
  constructor <;> (simp; ring)

/-- The normalised quaternion is the shortest arc. -/
theorem arc_spec {a b : Vec} (h : ArcPair a b) : IsShortestArc a b ((Real.sqrt (nsq (arcRaw a b)))⁻¹ • arcRaw a b) := by
  have hn0 := (arcPair_iff a b).mp h
  have hne : arcRaw a b ≠ 0 := fun e => hn0 (by rw [e]; simp [nsq])
  have hn := nsq_pos hne
  have hr := Real.sqrt_pos.mpr hn
  have hc : (Real.sqrt (nsq (arcRaw a b)))⁻¹ ≠ 0 := inv_ne_zero hr.ne'
  have hu : IsUnitQ ((Real.sqrt (nsq (arcRaw a b)))⁻¹ • arcRaw a b) := by
    rw [IsUnitQ, smul_nsq, inv_pow, Real.sq_sqrt hn.le, inv_mul_cancel₀ hn0]
  have hal : Aligns ((Real.sqrt (nsq (arcRaw a b)))⁻¹ • arcRaw a b) a b := by
    rw [Aligns, rot_smul_quat hc hne]
    exact arc_aligns h
  have hax : dot ![((Real.sqrt (nsq (arcRaw a b)))⁻¹ • arcRaw a b).imI, ((Real.sqrt (nsq (arcRaw a b)))⁻¹ • arcRaw a b).imJ,
      ((Real.sqrt (nsq (arcRaw a b)))⁻¹ • arcRaw a b).imK] a = 0 := (raw_axis _ a b).1
  have hre : 0 ≤ ((Real.sqrt (nsq (arcRaw a b)))⁻¹ • arcRaw a b).re := by
    have := abs_le.mp (dot_le_sqrt a b)
    simp only [Quaternion.re_smul, smul_eq_mul]
    refine mul_nonneg (inv_pos.mpr hr).le ?_
    simp only [arcRaw]
    linarith
  refine ⟨hu, hal, hax, ?_, hre, ?_⟩
  · exact (raw_axis _ a b).2
  · intro q' hq' hal'
    have lb : 0 < vlen b := Real.sqrt_pos.mpr (dot_self_pos h.2.1)
    have e : rot q' a = rot ((Real.sqrt (nsq (arcRaw a b)))⁻¹ • arcRaw a b) a := by
      have : vlen b • rot q' a = vlen b • rot ((Real.sqrt (nsq (arcRaw a b)))⁻¹ • arcRaw a b) a := hal'.trans hal.symm
      exact smul_right_injective _ lb.ne' this
    have d1 := dot_rot_self hq' a
    have d2 := dot_rot_self hu a
    rw [e, d2, hax] at d1
    have pa := dot_self_pos h.1
    apply abs_le_of_sq_le_sq _ hre
    by_contra hcon
    push Not at hcon
    nlinarith [sq_nonneg (dot ![q'.imI, q'.imJ, q'.imK] a), mul_pos pa (sub_pos.mpr hcon)]

/-! ### Arrays -/

theorem set_set_same (l : List ℕ) (p a b : ℕ) : (l.set p a).set p b = l.set p b := List.set_set ..

theorem getD_set_same {l : List ℕ} {p k : ℕ} (hp : p < l.length) : (l.set p k).getD p 0 = k := by
  simp [List.getD_eq_getElem?_getD, hp]

theorem bcast_set1 (sh : List ℕ) (p n : ℕ) : Bcast (sh.set p 1) (sh.set p n) := by
  induction sh generalizing p with
  | nil => exact .nil
  | cons a sh ih =>
    cases p with
    | zero => exact .cons (.inr rfl) (Bcast.refl _)
    | succ p => exact .cons (.inl rfl) (ih p)

theorem bidx_set1 {sh idx : List ℕ} {p n : ℕ} (h : Valid (sh.set p n) idx) : ND.bidx (sh.set p 1) idx = idx.set p 0 := by
  induction sh generalizing p idx with
  | nil =>
    cases idx with
    | nil => simp [ND.bidx]
    | cons i idx => simp [Valid] at h
  | cons a sh ih =>
    cases idx with
    | nil => cases p <;> simp [Valid] at h
    | cons i idx =>
      cases p with
      | zero =>
        simp only [List.set_cons_zero] at h ⊢
        simp only [ND.bidx, if_true, bidx_valid h.2]
      | succ p =>
        simp only [List.set_cons_succ] at h ⊢
        simp only [ND.bidx, ih h.2]
        by_cases e : a = 1
        · have := h.1
          simp only [e, if_true]
          congr 1
          omega
        · simp only [e, if_false]

/-- `np.cross` of arrays of the same shape along the same axis. -/
theorem npCrossAxis_spec (v w : ND ℝ) {axis : ℤ} {p : ℕ} (hs : v.shape = w.shape) (hp : normAxis axis w.ndim = some p)
    (h3 : w.shape.getD p 0 = 3) :
    ∃ C, npCrossAxis v w axis = .ok C ∧ C.shape = w.shape ∧ ∀ idx, Valid w.shape idx →
      C.get idx = (v.vecAt p idx ⨯₃ w.vecAt p idx) (Fin.ofNat 3 (idx.getD p 0)) := by
  have hlt : p < w.shape.length := normAxis_lt hp
  have hd : 0 < w.shape.length := by omega
  have hvd : v.ndim = w.ndim := by simp [ND.ndim, hs]
  have hms : ∀ u : ND ℝ, u.shape = w.shape → (u.moveaxis p (w.ndim - 1)).shape = w.shape.eraseIdx p ++ [3] := by
    intro u hu
    simp only [ND.moveaxis, ND.ndim, hu]
    rw [moveL_to_last hlt, h3]
  have hcl : ∃ c, crossLast (v.moveaxis p (w.ndim - 1)) (w.moveaxis p (w.ndim - 1)) = .ok c ∧ c.shape = w.shape.eraseIdx p ++ [3] ∧
      ∀ i k, Valid (w.shape.eraseIdx p) i → k < 3 →
        c.get (i ++ [k]) = ((fun k => v.get (i.insertIdx p k)) ⨯₃ fun k => w.get (i.insertIdx p k)) (Fin.ofNat 3 k) := by
    refine ⟨?w, ?h1, ?h2, ?h3⟩
    case h1 =>
      simp only [crossLast, hms v hs, hms w rfl]
      rw [if_pos (by simp)]
      simp only [List.dropLast_concat]
      rw [bshape_left (Bcast.refl _)]
    case h2 => rfl
    case h3 =>
      intro i k hi hk
      simp only [List.dropLast_concat, List.getLast?_concat, Option.getD_some]
      have hil := hi.length
      have hil' : i.length = w.shape.length - 1 := by rw [hil, List.length_eraseIdx_of_lt hlt]
      have e2 : ∀ u : ND ℝ, u.shape = w.shape → i.length - ((u.moveaxis p (w.ndim - 1)).ndim - 1) = 0 := by
        intro u hu
        have : (u.moveaxis p (w.ndim - 1)).ndim = w.shape.length := by
          rw [ND.ndim, hms u hu]; simp [List.length_eraseIdx_of_lt hlt]; omega
        rw [this]; omega
      have e4 : ∀ u : ND ℝ, (fun k : Fin 3 => (u.moveaxis p (w.ndim - 1)).get (i ++ [k.val])) = fun k : Fin 3 => u.get (i.insertIdx p k) := by
        intro u
        funext k
        simp only [ND.moveaxis, ND.ndim]
        rw [← hil', moveL_from_last]
      simp only [e2 v hs, e2 w rfl, List.drop_zero, bidx_valid hi, e4]
  obtain ⟨c, e1, e2, e3⟩ := hcl
  have hcd : c.ndim = w.ndim := by
    simp only [ND.ndim, e2]; simp [List.length_eraseIdx_of_lt hlt]; omega
  refine ⟨c.moveaxis (c.ndim - 1) p, ?_, ?_, ?_⟩
  · simp only [npCrossAxis, hvd, hp, e1, hcd]
  · simp only [ND.moveaxis, hcd]
    rw [e2, show w.ndim - 1 = (w.shape.eraseIdx p).length by rw [List.length_eraseIdx_of_lt hlt]; rfl,
      moveL_from_last, insertIdx_eraseIdx hlt, show w.shape.set p 3 = w.shape by rw [← h3, set_getD_self]]
  · intro idx hv
    have hl := hv.length
    simp only [ND.moveaxis, hcd]
    rw [show w.ndim - 1 = idx.length - 1 by rw [hl]; rfl, moveL_to_last (by omega)]
    obtain ⟨v1, v2⟩ := valid_eraseIdx hlt hv
    rw [e3 _ _ v1 (by omega)]
    have : ∀ u : ND ℝ, (fun k : Fin 3 => u.get ((idx.eraseIdx p).insertIdx p k)) = u.vecAt p idx := by
      intro u
      funext k
      rw [insertIdx_eraseIdx (by omega)]
      rfl
    rw [this, this]

end RBM
