import Verif.Props.BestFit

/-!
`best_fit_rotation`: witnesses for the missing reflection handling (C46), `best_fit_transform` (C47).
-/

namespace RBM.Props

open RBM RBM.Spec Matrix

theorem reshape_clouds_ne {v1 v2 : PyArr} {dim : Option String} {axis : Option ℤ} {p p' : ℕ} (h : Clouds v1 v2 dim axis p p')
    (hne : (rowIds v1.data.shape p).length ≠ (rowIds v2.data.shape p').length) :
    reshapeVectors v1 v2 axis dim true = .error .valueError := by
  have hf := reshape_clouds h (same := false) (by simp)
  obtain ⟨u, hu, ha, hx, hax, hi⟩ := unpack_first h.first
  obtain ⟨x, y, hw⟩ := unpack_second h
  rw [← hx] at hw
  have hax' : AxisIs u.axis v2.data.ndim p' := by rw [hx]; exact h.second
  have e1 := axisIs_norm hax
  have e2 := axisIs_norm hax'
  have hpn : 0 < u.arr.ndim := by have := hax.1; omega
  have hpn' : 0 < v2.data.ndim := by have := hax'.1; omega
  have s1 : u.arr.swapaxesZ u.axis (-1) = .ok (u.arr.swapaxes p (u.arr.ndim - 1)) := by
    simp only [ND.swapaxesZ, e1, normAxis_neg_one hpn]
  have s2 : v2.data.swapaxesZ u.axis (-1) = .ok (v2.data.swapaxes p' (v2.data.ndim - 1)) := by
    simp only [ND.swapaxesZ, e2, normAxis_neg_one hpn']
  have k1 : pyShape u.arr.shape u.axis = .ok 3 := by rw [pyShape_ok e1, ha, h.len]
  have k2 : pyShape v2.data.shape u.axis = .ok 3 := by rw [pyShape_ok e2, h.len']
  have hn : ¬ u.arr.ndim < 2 := by rw [ha]; have := h.ndim; omega
  simp only [reshapeVectors, hu, hw, k1, k2, s1, s2, bind, Except.bind, Pure.pure, Except.pure, rows3_swap hax.1, rows3_swap hax'.1]
  rw [if_neg (by simp), if_neg hn, if_pos]
  · rfl
  · simp only [List.length_map, ha, true_and]
    exact hne

/-! ### Arrays with given rows -/

/-- The `(n, 3)` array with the given rows. -/
def fitArr (l : List Vec) : ND ℝ := ⟨[l.length, 3], fun idx => (l.getD (idx.getD 0 0) 0) (Fin.ofNat 3 (idx.getD 1 0))⟩

/-- The positions of the rows. -/
def rowPos (n : ℕ) : List (List ℕ) := (List.range n).map fun i => [i, 0]

theorem rowPos_lists (n : ℕ) : Lists (rowPos n) [n, 3] 1 := by
  constructor
  · refine List.nodup_range.map ?_
    intro a b h
    simpa using h
  · intro idx
    simp only [rowPos, List.mem_map, List.mem_range]
    constructor
    · rintro ⟨i, hi, rfl⟩
      exact ⟨hi, by decide, trivial⟩
    · intro h
      match idx, h with
      | [i, j], h =>
        obtain ⟨h1, h2, -⟩ := h
        exact ⟨i, h1, by simp; omega⟩

theorem fitArr_row (l : List Vec) {i : ℕ} : vec3 (fitArr l) 1 [i, 0] = l.getD i 0 := by
  ext k
  fin_cases k <;> simp [vec3, fitArr] <;> rfl

theorem pairsOf_fitArr {l1 l2 : List Vec} (h : l1.length = l2.length) : pairsOf (fitArr l1) (fitArr l2) 1 (rowPos l1.length) = l1.zip l2 := by
  rw [pairsOf, rowPos, List.map_map]
  apply List.ext_getElem (by simp [h])
  intro i h1 h2
  simp at h1
  simp only [List.getElem_map, Function.comp, fitArr_row, List.getElem_range, List.getElem_zip]
  simp [List.getD_eq_getElem?_getD, h1, h ▸ h1]

theorem fitArr_clouds (l1 l2 : List Vec) : Clouds (.nd (fitArr l1)) (.nd (fitArr l2)) none none 1 1 where
  first := .inl ⟨_, rfl, rfl, ⟨by simp [fitArr, ND.ndim], .inr (by simp [fitArr, ND.ndim])⟩, by decide⟩
  ndim := by simp [fitArr, ND.ndim, PyArr.data]
  len := by simp [fitArr, PyArr.data]
  second := ⟨by simp [fitArr, ND.ndim, PyArr.data], .inr (by simp [fitArr, ND.ndim, PyArr.data, spatialAxis])⟩
  len' := by simp [fitArr, PyArr.data]
  labels := by intro d h; cases h

theorem fitArr_same {l1 l2 : List Vec} (h : l1.length = l2.length) : SameClouds (.nd (fitArr l1)) (.nd (fitArr l2)) none none 1 :=
  ⟨fitArr_clouds l1 l2, by simp [fitArr, PyArr.data, h]⟩

theorem rowIds_fitArr (l : List Vec) : rowIds (fitArr l).shape 1 = rowPos l.length := by
  have : (List.range l.length).flatMap (fun i => [[i]]) = (List.range l.length).map fun i => [i] := by
    induction List.range l.length with
    | nil => rfl
    | cons a k ih => simp [ih]
  simp [rowIds, rowPos, fitArr, swapL, allIdx, this]

theorem bestFitRotation_fitArr (ext : FitExt) {l1 l2 : List Vec} (h : l1.length = l2.length) :
    bestFitRotation ext (.nd (fitArr l1)) (.nd (fitArr l2)) none none = .ok (packQuat false (fitRotation ext l1 l2)) := by
  have := bestFitRotation_eq (ext := ext) (fitArr_same h)
  rw [this]
  have e1 : (rowIds (PyArr.nd (fitArr l1)).data.shape 1) = rowPos l1.length := rowIds_fitArr l1
  have e : ∀ (l : List Vec) n, n = l.length → (rowPos n).map (vec3 (PyArr.nd (fitArr l)).data 1) = l := by
    intro l n hn
    rw [rowPos, List.map_map]
    apply List.ext_getElem (by simp [hn])
    intro i h1 h2
    simp only [List.getElem_map, Function.comp, List.getElem_range]
    rw [show (PyArr.nd (fitArr l)).data = fitArr l from rfl, fitArr_row]
    simp [List.getD_eq_getElem?_getD, h2]
  rw [e1, e l1 _ rfl, e l2 _ h]
  rfl

/-! ### The missing reflection handling -/

theorem quat_i_best : ∀ q, IsUnitQ q → agreement q (diagonal ![1, 1, -1]) ≤ agreement ⟨0, 1, 0, 0⟩ (diagonal ![1, 1, -1]) := by
  have hi : IsUnitQ (⟨0, 1, 0, 0⟩ : Quat) := by simp [IsUnitQ, nsq]
  intro q hq
  rw [agreement_eq hq.ne_zero, agreement_eq hi.ne_zero, rotMat_unit hq, rotMat_unit hi]
  simp [Fin.sum_univ_three, diagonal_apply]
  nlinarith [sq_nonneg q.imK]

theorem svd_flip {H : Mat3} {S : Vec} (hf : H = diagonal S * diagonal ![1, 1, -1]) (h1 : S 1 ≤ S 0) (h2 : S 2 ≤ S 1) (h3 : 0 ≤ S 2) :
    IsSvd H 1 S (diagonal ![1, 1, -1]) :=
  ⟨by simp, flip_orth, by rw [Matrix.one_mul, hf], h1, h2, h3⟩

/-- Both failures at once: if `Σ a bᵀ` is `diag(S₀, S₁, -S₂)`, routines that satisfy the contracts may lead to the half
turn about the first axis. -/
theorem flip_fit {l1 l2 : List Vec} (hl : l1.length = l2.length) {S : Vec} (hc : corr (l1.zip l2) = diagonal S * diagonal ![1, 1, -1])
    (h1 : S 1 ≤ S 0) (h2 : S 2 ≤ S 1) (h3 : 0 ≤ S 2) :
    ∃ ext, FitLaw ext ∧ bestFitRotation ext (.nd (fitArr l1)) (.nd (fitArr l2)) none none = .ok (packQuat false ⟨0, 1, 0, 0⟩) := by
  obtain ⟨ext, he, e1, e2⟩ := exists_fitLaw_with (svd_flip hc h1 h2 h3) (M := diagonal ![1, 1, -1]) (p := ⟨0, 1, 0, 0⟩)
    (by simp [IsUnitQ, nsq]) quat_i_best
  refine ⟨ext, he, ?_⟩
  rw [bestFitRotation_fitArr ext hl, fitRotation, crossCov_eq, e1]
  simp only [transpose_one, Matrix.mul_one, diagonal_transpose, e2]

theorem rot_i (v : Vec) : rot ⟨0, 1, 0, 0⟩ v = ![v 0, -v 1, -v 2] := by
  have hi : IsUnitQ (⟨0, 1, 0, 0⟩ : Quat) := by simp [IsUnitQ, nsq]
  rw [← rotMat_mulVec hi.ne_zero, rotMat_unit hi]
  ext i
  fin_cases i <;> simp [Matrix.mulVec, dotProduct, Fin.sum_univ_three, vecHead, vecTail] <;> ring

/-- `best_fit_rotation` is not a least squares rotation for every pair of point sets: mirrored points. (`numpy`'s
routines satisfy the contracts, but which of the equally good quaternions `from_rotation_matrix`
picks for a reflection is not specified.) -/
theorem C46_reflection_is_false : ∃ (ext : FitExt) (l1 l2 : List Vec), FitLaw ext ∧ l1.length = l2.length ∧
    ∃ r q, bestFitRotation ext (.nd (fitArr l1)) (.nd (fitArr l2)) none none = .ok r ∧ QuatResult (.nd (fitArr l1)) r q ∧
      ¬ IsBestRotation (l1.zip l2) q := by
  obtain ⟨ext, he, e⟩ := flip_fit (l1 := [![3, 0, 0], ![0, 2, 0], ![0, 0, 1]]) (l2 := [![1, 0, 0], ![0, 1, 0], ![0, 0, -1]]) rfl
    (S := ![3, 2, 1]) (by
      ext i j; fin_cases i <;> fin_cases j <;> simp [corr, Matrix.diagonal_mul_diagonal, diagonal_apply]) (by norm_num) (by simp [Matrix.vecHead, Matrix.vecTail])
    (by simp [Matrix.vecHead, Matrix.vecTail])
  refine ⟨ext, _, _, he, by simp, _, _, e, quatResult_pack (.nd _) _, ?_⟩
  intro hb
  have := hb.2 1 (by simp [IsUnitQ, nsq])
  simp [rot_i, rot_one, sqDist, dot] at this
  norm_num at this

/-- Nor for coplanar points, even if the two point sets are the same. -/
theorem C46_coplanar_is_false : ∃ (ext : FitExt) (l : List Vec), FitLaw ext ∧
    ∃ r q, bestFitRotation ext (.nd (fitArr l)) (.nd (fitArr l)) none none = .ok r ∧ QuatResult (.nd (fitArr l)) r q ∧
      ¬ IsBestRotation (l.zip l) q := by
  obtain ⟨ext, he, e⟩ := flip_fit (l1 := [![2, 0, 0], ![0, 1, 0]]) (l2 := [![2, 0, 0], ![0, 1, 0]]) rfl
    (S := ![4, 1, 0]) (by
      ext i j; fin_cases i <;> fin_cases j <;> simp [corr, Matrix.diagonal_mul_diagonal, diagonal_apply] <;> norm_num) (by norm_num) (by simp [Matrix.vecHead, Matrix.vecTail])
    (by simp [Matrix.vecHead, Matrix.vecTail])
  refine ⟨ext, _, he, _, _, e, quatResult_pack (.nd _) _, ?_⟩
  intro hb
  have := hb.2 1 (by simp [IsUnitQ, nsq])
  simp [rot_i, rot_one, sqDist, dot] at this
  norm_num at this

/-- The same points with another choice of the decomposition (`C46_best_proper`). -/
example : ∃ ext, FitLaw ext ∧ ∃ r q, bestFitRotation ext (.nd (fitArr [![2, 0, 0], ![0, 1, 0]])) (.nd (fitArr [![2, 0, 0], ![0, 1, 0]])) none none = .ok r ∧
    QuatResult (.nd (fitArr [![2, 0, 0], ![0, 1, 0]])) r q ∧ IsBestRotation ([![2, 0, 0], ![0, 1, 0]].zip [![2, 0, 0], ![0, 1, 0]]) q := by
  have hc : corr ([![2, 0, 0], ![0, 1, 0]].zip [![2, 0, 0], ![0, 1, 0]]) = diagonal ![4, 1, 0] := by
    ext i j; fin_cases i <;> fin_cases j <;> simp [corr, diagonal_apply] <;> norm_num
  obtain ⟨ext, he, e1, -⟩ := exists_fitLaw_with (H := corr ([![2, 0, 0], ![0, 1, 0]].zip [![2, 0, 0], ![0, 1, 0]])) (U := 1) (S := ![4, 1, 0]) (Vt := 1)
    ⟨by simp, by simp, by rw [hc]; simp, by norm_num, by simp [Matrix.vecHead, Matrix.vecTail], by simp [Matrix.vecHead, Matrix.vecTail]⟩
    (M := diagonal ![1, 1, -1]) (p := ⟨0, 1, 0, 0⟩) (by simp [IsUnitQ, nsq]) quat_i_best
  have hp := pairsOf_fitArr (l1 := [![2, 0, 0], ![0, 1, 0]]) (l2 := [![2, 0, 0], ![0, 1, 0]]) rfl
  obtain ⟨r, q, h1, h2, h3⟩ := C46_best_proper he (fitArr_same (l1 := [![2, 0, 0], ![0, 1, 0]]) (l2 := [![2, 0, 0], ![0, 1, 0]]) rfl) (rowPos_lists 2) (by
    have e2 : ext.svd (corr (pairsOf (PyArr.nd (fitArr [![2, 0, 0], ![0, 1, 0]])).data (PyArr.nd (fitArr [![2, 0, 0], ![0, 1, 0]])).data 1 (rowPos 2))) = (1, ![4, 1, 0], 1) :=
      (congrArg (fun l => ext.svd (corr l)) hp).trans e1
    rw [e2]
    simp)
  refine ⟨ext, he, r, q, h1, h2, ?_⟩
  rw [← hp]
  exact h3

/-- The hypotheses of `C46_exact` are met by three vectors along the axes and a half turn. -/
example : ∃ ext, FitLaw ext ∧ ∃ r q, bestFitRotation ext (.nd (fitArr [![3, 0, 0], ![0, 2, 0], ![0, 0, 1]]))
    (.nd (fitArr [![3, 0, 0], ![0, -2, 0], ![0, 0, -1]])) none none = .ok r ∧
    QuatResult (.nd (fitArr [![3, 0, 0], ![0, 2, 0], ![0, 0, 1]])) r q ∧ (q = ⟨0, 1, 0, 0⟩ ∨ q = -⟨0, 1, 0, 0⟩) := by
  obtain ⟨ext, he⟩ := exists_fitLaw
  refine ⟨ext, he, C46_exact he (fitArr_same (by simp)) (by simp [IsUnitQ, nsq]) ?_ ?_⟩
  · intro i hi
    obtain ⟨k, hk, rfl⟩ := List.mem_map.mp (((rowPos_lists 3).2 i).mpr hi)
    rw [rot_i, show (PyArr.nd (fitArr [![3, 0, 0], ![0, 2, 0], ![0, 0, 1]])).data = fitArr [![3, 0, 0], ![0, 2, 0], ![0, 0, 1]] from rfl,
      show (PyArr.nd (fitArr [![3, 0, 0], ![0, -2, 0], ![0, 0, -1]])).data = fitArr [![3, 0, 0], ![0, -2, 0], ![0, 0, -1]] from rfl,
      fitArr_row, fitArr_row]
    have : k < 3 := List.mem_range.mp hk
    interval_cases k <;> (ext i; fin_cases i <;> simp)
  · intro x hx
    have h0 := hx [0, 0] ⟨by decide, by decide, trivial⟩
    have h1 := hx [1, 0] ⟨by decide, by decide, trivial⟩
    have h2 := hx [2, 0] ⟨by decide, by decide, trivial⟩
    rw [show (PyArr.nd (fitArr [![3, 0, 0], ![0, 2, 0], ![0, 0, 1]])).data = fitArr [![3, 0, 0], ![0, 2, 0], ![0, 0, 1]] from rfl,
      fitArr_row] at h0 h1 h2
    simp [dot] at h0 h1 h2
    ext i; fin_cases i <;> simp [h0, h1, h2]

/-! ### best_fit_transform -/

theorem bestFitTransform_eq {ext : FitExt} {v1 v2 : PyArr} {dim : Option String} {axis : Option ℤ} {p : ℕ}
    (h : SameClouds v1 v2 dim axis p) {t : Vec} {r : Quat}
    (hf : fitTransform ext ((rowIds v1.data.shape p).map (vec3 v1.data p)) ((rowIds v1.data.shape p).map (vec3 v2.data p)) = .ok (t, r)) :
    bestFitTransform ext v1 v2 dim axis = .ok (packTrans v1.isDa t, packQuat v1.isDa r) := by
  have hr := reshape_clouds h.clouds (same := true) (fun _ => ⟨h.shape, rfl⟩)
  rw [← h.shape] at hr
  simp only [bestFitTransform, hr, hf, bind, Except.bind]
  rfl

theorem clouds_lt {v1 v2 : PyArr} {dim : Option String} {axis : Option ℤ} {p p' : ℕ} (h : Clouds v1 v2 dim axis p p') :
    p < v1.data.shape.length := by
  obtain ⟨u, -, ha, -, hax, -⟩ := unpack_first h.first
  rw [← ha]; exact hax.1

/-- `best_fit_transform` returns a rigid motion that minimises the sum of squared distances among all
rigid motions, for every layout of the arguments; mirrored and coplanar points included. -/
theorem C47_best {ext : FitExt} (he : FitLaw ext) {v1 v2 : PyArr} {dim : Option String} {axis : Option ℤ} {p : ℕ}
    (h : SameClouds v1 v2 dim axis p) {ids : List (List ℕ)} (hids : Lists ids v1.data.shape p) (hne : ids ≠ []) :
    ∃ tr rr t q, bestFitTransform ext v1 v2 dim axis = .ok (tr, rr) ∧ TransResult v1 tr t ∧ QuatResult v1 rr q ∧
      IsBestMotion (pairsOf v1.data v2.data p ids) ⟨t, q⟩ := by
  have hp := (rowIds_lists (clouds_lt h.clouds)).perm hids
  have hperm : (pairsOf v1.data v2.data p (rowIds v1.data.shape p)).Perm (pairsOf v1.data v2.data p ids) := hp.map _
  have hne' : rowIds v1.data.shape p ≠ [] := by
    intro e
    rw [e] at hp
    exact hne hp.symm.eq_nil
  obtain ⟨t, r, hf, hb⟩ := fitTransform_best he (l1 := (rowIds v1.data.shape p).map (vec3 v1.data p))
    (l2 := (rowIds v1.data.shape p).map (vec3 v2.data p)) (by simp) (by simpa using hne')
  refine ⟨_, _, t, r, bestFitTransform_eq h hf, transResult_pack v1 t, quatResult_pack v1 r, bestMotion_perm hperm ?_⟩
  rw [pairsOf, ← zip_map_same]
  exact hb

/-- If the second points are the first ones moved rigidly, the returned motion maps every point exactly. -/
theorem C47_exact {ext : FitExt} (he : FitLaw ext) {v1 v2 : PyArr} {dim : Option String} {axis : Option ℤ} {p : ℕ}
    (h : SameClouds v1 v2 dim axis p) {i0 : List ℕ} (hne : Valid (v1.data.shape.set p 1) i0) {P : Pose} (hP : IsUnitQ P.r)
    (hmove : ∀ i, Valid (v1.data.shape.set p 1) i → vec3 v2.data p i = P.act (vec3 v1.data p i)) :
    ∃ tr rr t q, bestFitTransform ext v1 v2 dim axis = .ok (tr, rr) ∧ TransResult v1 tr t ∧ QuatResult v1 rr q ∧ IsUnitQ q ∧
      ∀ i, Valid (v1.data.shape.set p 1) i → (Pose.mk t q).act (vec3 v1.data p i) = vec3 v2.data p i := by
  have hids := rowIds_lists (clouds_lt h.clouds)
  obtain ⟨tr, rr, t, q, e, e1, e2, hb⟩ := C47_best he h hids (List.ne_nil_of_mem ((hids.2 i0).mpr hne))
  refine ⟨tr, rr, t, q, e, e1, e2, hb.1, fun i hi => ?_⟩
  refine exact_of_best hb hP ?_ (vec3 v1.data p i, vec3 v2.data p i) (List.mem_map.mpr ⟨i, (hids.2 i).mpr hi, rfl⟩)
  intro x hx
  obtain ⟨j, hj, rfl⟩ := List.mem_map.mp hx
  exact (hmove j ((hids.2 j).mp hj)).symm

/-- If in addition the first points are not collinear, the motion itself is found, up to the sign of
the quaternion. -/
theorem C47_unique {ext : FitExt} (he : FitLaw ext) {v1 v2 : PyArr} {dim : Option String} {axis : Option ℤ} {p : ℕ}
    (h : SameClouds v1 v2 dim axis p) {P : Pose} (hP : IsUnitQ P.r)
    (hmove : ∀ i, Valid (v1.data.shape.set p 1) i → vec3 v2.data p i = P.act (vec3 v1.data p i))
    {i j k : List ℕ} (hi : Valid (v1.data.shape.set p 1) i) (hj : Valid (v1.data.shape.set p 1) j) (hk : Valid (v1.data.shape.set p 1) k)
    (hnc : cross (vec3 v1.data p j - vec3 v1.data p i) (vec3 v1.data p k - vec3 v1.data p i) ≠ 0) :
    ∃ tr rr q, bestFitTransform ext v1 v2 dim axis = .ok (tr, rr) ∧ TransResult v1 tr P.t ∧ QuatResult v1 rr q ∧
      (q = P.r ∨ q = -P.r) := by
  obtain ⟨tr, rr, t, q, e, e1, e2, hu, hex⟩ := C47_exact he h hi hP hmove
  have hfix : ∀ m, Valid (v1.data.shape.set p 1) m →
      rot (P.r⁻¹ * q) (vec3 v1.data p m - vec3 v1.data p i) = vec3 v1.data p m - vec3 v1.data p i := by
    intro m hm
    have : rot q (vec3 v1.data p m - vec3 v1.data p i) = rot P.r (vec3 v1.data p m - vec3 v1.data p i) := by
      rw [← act_sub P, ← hmove m hm, ← hmove i hi, ← hex m hm, ← hex i hi, act_sub]
    rw [rot_mul _ _ hP.inv.ne_zero hu.ne_zero, this, rot_inv_rot _ hP.ne_zero]
  have hq : q = P.r ∨ q = -P.r := by
    rcases fixes_two (hP.inv.mul hu) (hfix j hj) (hfix k hk) hnc with h1 | h1
    · left
      have := congrArg (fun z => P.r * z) h1
      simpa [← mul_assoc, mul_inv_cancel₀ hP.ne_zero] using this
    · right
      have := congrArg (fun z => P.r * z) h1
      simpa [← mul_assoc, mul_inv_cancel₀ hP.ne_zero] using this
  have hrot : ∀ v, rot q v = rot P.r v := by
    intro v
    rcases hq with h1 | h1
    · rw [h1]
    · rw [h1]
      simp only [rot, neg_mul, inv_neg, mul_neg, neg_neg]
  have ht : t = P.t := by
    have a := hex i hi
    rw [hmove i hi] at a
    simp only [Pose.act, hrot] at a
    exact add_left_cancel a
  subst ht
  exact ⟨tr, rr, q, e, e1, e2, hq⟩

/-- The hypotheses of `C47_unique` are met by three points, a half turn and a shift. -/
example : ∃ ext, FitLaw ext ∧ ∃ tr rr q, bestFitTransform ext (.nd (fitArr [![3, 0, 0], ![0, 2, 0], ![0, 0, 1]]))
    (.nd (fitArr [![4, 0, 0], ![1, -2, 0], ![1, 0, -1]])) none none = .ok (tr, rr) ∧
    TransResult (.nd (fitArr [![3, 0, 0], ![0, 2, 0], ![0, 0, 1]])) tr ![1, 0, 0] ∧
    QuatResult (.nd (fitArr [![3, 0, 0], ![0, 2, 0], ![0, 0, 1]])) rr q ∧ (q = ⟨0, 1, 0, 0⟩ ∨ q = -⟨0, 1, 0, 0⟩) := by
  obtain ⟨ext, he⟩ := exists_fitLaw
  have hv : ∀ k, k < 3 → Valid ((PyArr.nd (fitArr [![3, 0, 0], ![0, 2, 0], ![0, 0, 1]])).data.shape.set 1 1) [k, 0] := by
    intro k hk
    simp [Valid, fitArr, PyArr.data, hk]
  refine ⟨ext, he, C47_unique he (fitArr_same (by simp)) (P := ⟨![1, 0, 0], ⟨0, 1, 0, 0⟩⟩) (by simp [IsUnitQ, nsq]) ?_
    (hv 0 (by decide)) (hv 1 (by decide)) (hv 2 (by decide)) ?_⟩
  · intro i hi
    obtain ⟨k, hk, rfl⟩ := List.mem_map.mp (((rowPos_lists 3).2 i).mpr hi)
    rw [Pose.act, rot_i, show (PyArr.nd (fitArr [![3, 0, 0], ![0, 2, 0], ![0, 0, 1]])).data = fitArr [![3, 0, 0], ![0, 2, 0], ![0, 0, 1]] from rfl,
      show (PyArr.nd (fitArr [![4, 0, 0], ![1, -2, 0], ![1, 0, -1]])).data = fitArr [![4, 0, 0], ![1, -2, 0], ![1, 0, -1]] from rfl,
      fitArr_row, fitArr_row]
    have : k < 3 := List.mem_range.mp hk
    interval_cases k <;> (ext i; fin_cases i <;> simp <;> norm_num)
  · rw [show (PyArr.nd (fitArr [![3, 0, 0], ![0, 2, 0], ![0, 0, 1]])).data = fitArr [![3, 0, 0], ![0, 2, 0], ![0, 0, 1]] from rfl,
      fitArr_row, fitArr_row, fitArr_row]
    intro hh
    have := congrFun hh 0
    simp [cross] at this

/-- Without points there is an error. -/
theorem C47_empty {ext : FitExt} {v1 v2 : PyArr} {dim : Option String} {axis : Option ℤ} {p : ℕ}
    (h : SameClouds v1 v2 dim axis p) (hids : Lists [] v1.data.shape p) :
    bestFitTransform ext v1 v2 dim axis = .error .linAlgError := by
  have hp := (rowIds_lists (clouds_lt h.clouds)).perm hids
  have e : rowIds v1.data.shape p = [] := hp.eq_nil
  have hr := reshape_clouds h.clouds (same := true) (fun _ => ⟨h.shape, rfl⟩)
  rw [← h.shape, e] at hr
  simp only [bestFitTransform, hr, bind, Except.bind, List.map_nil, fitTransform, if_true]

/-- Different numbers of points are rejected by both functions. -/
theorem C47_shapes {ext : FitExt} {v1 v2 : PyArr} {dim : Option String} {axis : Option ℤ} {p p' : ℕ}
    (h : Clouds v1 v2 dim axis p p') {l1 l2 : List (List ℕ)} (h1 : Lists l1 v1.data.shape p) (h2 : Lists l2 v2.data.shape p')
    (hne : l1.length ≠ l2.length) :
    bestFitTransform ext v1 v2 dim axis = .error .valueError ∧ bestFitRotation ext v1 v2 dim axis = .error .valueError := by
  have hlt' : p' < v2.data.shape.length := h.second.1
  have e1 := ((rowIds_lists (clouds_lt h)).perm h1).length_eq
  have e2 := ((rowIds_lists hlt').perm h2).length_eq
  have hr := reshape_clouds_ne h (by rw [e1, e2]; exact hne)
  constructor
  · simp only [bestFitTransform, hr, bind, Except.bind]
  · simp only [bestFitRotation, hr, bind, Except.bind]

/-- Arrays that do not have length 3 along the spatial axis are rejected with a `ValueError`, no matter which of the two it is. -/
theorem C47_not_vectors {ext : FitExt} {nn : List Vec → Vec → ℕ} {v1 : PyArr} {b : ND ℝ} {dim : Option String} {axis : Option ℤ} {p p' : ℕ}
    (h1 : VectorArg v1 dim axis p) (h2 : AxisIs (spatialAxis dim axis p) b.ndim p')
    (hne : v1.data.shape.getD p 0 ≠ 3 ∨ b.shape.getD p' 0 ≠ 3) (init : Option (Vec × Quat)) (n : ℕ) (tol : ℝ) :
    bestFitTransform ext v1 (.nd b) dim axis = .error .valueError ∧ bestFitRotation ext v1 (.nd b) dim axis = .error .valueError ∧
    iterativeClosestPoint ext nn v1 (.nd b) dim axis init n tol = .error .valueError := by
  obtain ⟨u, hu, ha, hx, hax, hi⟩ := unpack_first h1
  have hw : ∃ x y, unpackNoTime (.nd b) none (some u.axis) = .ok (b, x, y) := ⟨_, _, rfl⟩
  obtain ⟨x, y, hw⟩ := hw
  have hax' : AxisIs u.axis b.ndim p' := by rw [hx]; exact h2
  have k1 : pyShape u.arr.shape u.axis = .ok (v1.data.shape.getD p 0) := by rw [pyShape_ok (axisIs_norm hax), ha]
  have k2 : pyShape b.shape u.axis = .ok (b.shape.getD p' 0) := by rw [pyShape_ok (axisIs_norm hax')]
  have hr : ∀ same, reshapeVectors v1 (.nd b) axis dim same = .error .valueError := by
    intro same
    simp only [reshapeVectors, hu, hw, k1, k2, bind, Except.bind]
    rw [if_pos hne]
    rfl
  refine ⟨?_, ?_, ?_⟩
  · simp only [bestFitTransform, hr, bind, Except.bind]
  · simp only [bestFitRotation, hr, bind, Except.bind]
  · simp only [iterativeClosestPoint, hr, bind, Except.bind]

/-- A `(2, 3)` and a `(2, 4)` array. -/
example (ext : FitExt) : bestFitTransform ext (.nd (fitArr [![1, 0, 0], ![0, 1, 0]])) (.nd ⟨[2, 4], fun _ => 0⟩) = .error .valueError :=
  (C47_not_vectors (nn := fun _ _ => 0) (p := 1) (p' := 1) (.inl ⟨_, rfl, rfl, ⟨by simp [ND.ndim, fitArr], .inr (by simp [ND.ndim, fitArr])⟩, by decide⟩)
    ⟨by simp [ND.ndim], .inr (by simp [ND.ndim, spatialAxis])⟩ (.inr (by simp)) none 0 0).1

/-- `C46_best` applies to noisy, non-matching vectors: only the sign of the determinant matters. -/
example : ∃ ext, FitLaw ext ∧ ∃ r q, bestFitRotation ext (.nd (fitArr [![1, 0, 0], ![0, 1, 0], ![0, 0, 1]]))
    (.nd (fitArr [![2, 1, 0], ![0, 3, 0], ![0, 1, 1]])) none none = .ok r ∧
    QuatResult (.nd (fitArr [![1, 0, 0], ![0, 1, 0], ![0, 0, 1]])) r q ∧
    IsBestRotation ([![1, 0, 0], ![0, 1, 0], ![0, 0, 1]].zip [![2, 1, 0], ![0, 3, 0], ![0, 1, 1]]) q := by
  obtain ⟨ext, he⟩ := exists_fitLaw
  have hp := pairsOf_fitArr (l1 := [![1, 0, 0], ![0, 1, 0], ![0, 0, 1]]) (l2 := [![2, 1, 0], ![0, 3, 0], ![0, 1, 1]]) rfl
  obtain ⟨r, q, h1, h2, h3⟩ := C46_best he (fitArr_same (l1 := [![1, 0, 0], ![0, 1, 0], ![0, 0, 1]])
    (l2 := [![2, 1, 0], ![0, 3, 0], ![0, 1, 1]]) rfl) (rowPos_lists 3) (by
      refine lt_of_lt_of_eq (b := (6 : ℝ)) (by norm_num) ?_
      refine Eq.trans ?_ (congrArg (fun l => (corr l).det) hp).symm
      rw [det_fin_three]
      simp [corr, Matrix.vecMulVec]
      norm_num)
  refine ⟨ext, he, r, q, h1, h2, ?_⟩
  rw [← hp]
  exact h3

/-- `C47_best` applies to any two point sets of the same size; `C47_shapes` and `C47_empty` reject the others. -/
example : ∃ ext, FitLaw ext ∧ ∃ tr rr t q, bestFitTransform ext (.nd (fitArr [![1, 2, 3], ![0, 1, 0]])) (.nd (fitArr [![2, 1, 0], ![5, 3, 0]])) none none = .ok (tr, rr) ∧
    TransResult (.nd (fitArr [![1, 2, 3], ![0, 1, 0]])) tr t ∧ QuatResult (.nd (fitArr [![1, 2, 3], ![0, 1, 0]])) rr q ∧
    IsBestMotion ([![1, 2, 3], ![0, 1, 0]].zip [![2, 1, 0], ![5, 3, 0]]) ⟨t, q⟩ := by
  obtain ⟨ext, he⟩ := exists_fitLaw
  obtain ⟨tr, rr, t, q, h⟩ := C47_best he (fitArr_same (l1 := [![1, 2, 3], ![0, 1, 0]]) (l2 := [![2, 1, 0], ![5, 3, 0]]) rfl) (rowPos_lists 2)
    (by simp [rowPos])
  refine ⟨ext, he, tr, rr, t, q, h.1, h.2.1, h.2.2.1, ?_⟩
  rw [← pairsOf_fitArr (l1 := [![1, 2, 3], ![0, 1, 0]]) (l2 := [![2, 1, 0], ![5, 3, 0]]) rfl]
  exact h.2.2.2

example (ext : FitExt) : bestFitTransform ext (.nd (fitArr [])) (.nd (fitArr [])) none none = .error .linAlgError :=
  C47_empty (fitArr_same rfl) (rowPos_lists 0)

example (ext : FitExt) : bestFitTransform ext (.nd (fitArr [0])) (.nd (fitArr [0, 0])) none none = .error .valueError :=
  (C47_shapes (fitArr_clouds _ _) (rowPos_lists 1) (rowPos_lists 2) (by simp [rowPos])).1

/-- `C47_exact`: two points moved by a half turn and a shift (the motion itself is not unique). -/
example : ∃ ext, FitLaw ext ∧ ∃ tr rr t q, bestFitTransform ext (.nd (fitArr [![3, 0, 0], ![0, 2, 0]])) (.nd (fitArr [![4, 0, 0], ![1, -2, 0]])) none none = .ok (tr, rr) ∧
    TransResult (.nd (fitArr [![3, 0, 0], ![0, 2, 0]])) tr t ∧ QuatResult (.nd (fitArr [![3, 0, 0], ![0, 2, 0]])) rr q ∧ IsUnitQ q ∧
    (Pose.mk t q).act ![3, 0, 0] = ![4, 0, 0] := by
  obtain ⟨ext, he⟩ := exists_fitLaw
  have hv : ∀ k, k < 2 → Valid ((PyArr.nd (fitArr [![3, 0, 0], ![0, 2, 0]])).data.shape.set 1 1) [k, 0] := by
    intro k hk
    simp [Valid, fitArr, PyArr.data, hk]
  obtain ⟨tr, rr, t, q, h1, h2, h3, h4, h5⟩ := C47_exact he (fitArr_same (l1 := [![3, 0, 0], ![0, 2, 0]]) (l2 := [![4, 0, 0], ![1, -2, 0]]) rfl) (hv 0 (by decide))
    (P := ⟨![1, 0, 0], ⟨0, 1, 0, 0⟩⟩) (by simp [IsUnitQ, nsq]) (by
    intro i hi
    obtain ⟨k, hk, rfl⟩ := List.mem_map.mp (((rowPos_lists 2).2 i).mpr hi)
    rw [Pose.act, rot_i, show (PyArr.nd (fitArr [![3, 0, 0], ![0, 2, 0]])).data = fitArr [![3, 0, 0], ![0, 2, 0]] from rfl,
      show (PyArr.nd (fitArr [![4, 0, 0], ![1, -2, 0]])).data = fitArr [![4, 0, 0], ![1, -2, 0]] from rfl, fitArr_row, fitArr_row]
    have : k < 2 := List.mem_range.mp hk
    interval_cases k <;> (ext i; fin_cases i <;> simp <;> norm_num))
  refine ⟨ext, he, tr, rr, t, q, h1, h2, h3, h4, ?_⟩
  have := h5 [0, 0] (hv 0 (by decide))
  rw [show (PyArr.nd (fitArr [![3, 0, 0], ![0, 2, 0]])).data = fitArr [![3, 0, 0], ![0, 2, 0]] from rfl,
      show (PyArr.nd (fitArr [![4, 0, 0], ![1, -2, 0]])).data = fitArr [![4, 0, 0], ![1, -2, 0]] from rfl, fitArr_row, fitArr_row] at this
  simpa using this

end RBM.Props
