import Verif.Lemmas.Reshape
import Verif.Lemmas.FitExists
import Verif.Props.Plumbing
import Mathlib.Analysis.Matrix.PosDef

/-!
`best_fit_rotation` (C46) and `best_fit_transform` (C47).
-/

namespace RBM.Props

open RBM RBM.Spec Matrix

/-! ### Arguments and results -/

theorem orDefault_getD {axis : Option ℤ} (h : axis ≠ some 0) : orDefault axis (-1) = axis.getD (-1) := by
  cases axis with
  | none => rfl
  | some k =>
    have : k ≠ 0 := fun e => h (by rw [e])
    simp [orDefault, this]

theorem axisIs_emod {x : ℤ} {n r : ℕ} (h : AxisIs x n r) : x % n = r := by
  have hr := h.1
  rcases h.2 with h' | h'
  · rw [h']; exact Int.emod_eq_of_lt (by omega) (by omega)
  · rw [h', show ((r : ℤ) - n) = r + n * (-1) by ring, Int.add_mul_emod_self_left]
    exact Int.emod_eq_of_lt (by omega) (by omega)

theorem unpack_first {v1 : PyArr} {dim : Option String} {axis : Option ℤ} {p : ℕ} (h : VectorArg v1 dim axis p) :
    ∃ u, maybeUnpack v1 dim axis none .no = .ok u ∧ u.arr = v1.data ∧ u.axis = spatialAxis dim axis p ∧
      AxisIs u.axis u.arr.ndim p ∧ u.info.isSome = v1.isDa := by
  rcases h with ⟨a, rfl, rfl, hax, hp⟩ | ⟨d, rfl, hd, rfl, hax, h0⟩ | ⟨d, n, rfl, hd, rfl, rfl, hn⟩
  · have h0 : axis ≠ some 0 := by
      rintro rfl
      rcases hax.2 with h | h
      · simp at h; omega
      · simp at h; have := hax.1; omega
    have hn : ¬ a.ndim = 0 := by have := hax.1; omega
    refine ⟨⟨a, axis.getD (-1), none, some 0, none, .no, none⟩, ?_, rfl, rfl, hax, rfl⟩
    simp only [maybeUnpack, checkAxes, if_neg hn, orDefault_getD h0, axisIs_emod hax]
    have e0 : orDefault none 0 = 0 := rfl
    rw [e0, if_neg]
    simp only [Int.zero_emod]
    omega
  · have hdim : ∃ n, DimAt d n p := by
      have : p < d.info.dims.length := by rw [hd.ndim]; exact hax.1
      exact ⟨_, List.getElem?_eq_getElem this⟩
    obtain ⟨n, hn⟩ := hdim
    rw [← orDefault_getD h0] at hax
    refine ⟨⟨d.data, orDefault axis (-1), some n, none, none, .none, some d.info⟩, ?_, rfl, orDefault_getD h0, hax, rfl⟩
    simp only [maybeUnpack, unpackAxis_axis hd hax hn, unpackTime, bind, Except.bind, checkAxes]
  · refine ⟨⟨d.data, (p : ℤ), some n, none, none, .none, some d.info⟩, ?_, rfl, rfl, axisIs_nat (idxOf_of_dimAt hd hn).2.2, rfl⟩
    simp only [maybeUnpack, unpackAxis_dim hd hn, unpackTime, bind, Except.bind, checkAxes]

theorem unpack_second {v1 v2 : PyArr} {dim : Option String} {axis : Option ℤ} {p p' : ℕ} (h : Clouds v1 v2 dim axis p p') :
    ∃ x y, unpackNoTime v2 none (some (spatialAxis dim axis p)) = .ok (v2.data, x, y) := by
  cases v2 with
  | nd b => exact ⟨_, _, rfl⟩
  | da d =>
    obtain ⟨hd, hor⟩ := h.labels d rfl
    have hsec : AxisIs (spatialAxis dim axis p) d.data.ndim p' := h.second
    have hpos : 0 < d.data.ndim := by have := hsec.1; omega
    by_cases h0 : spatialAxis dim axis p = 0
    · have hax : AxisIs (orDefault (some (spatialAxis dim axis p)) (-1)) d.data.ndim (d.data.ndim - 1) := by
        rw [h0]
        simp only [orDefault, if_true]
        exact ⟨by omega, .inr (by omega)⟩
      have hdim : ∃ n, DimAt d n (d.data.ndim - 1) := by
        have : d.data.ndim - 1 < d.info.dims.length := by rw [hd.ndim]; omega
        exact ⟨_, List.getElem?_eq_getElem this⟩
      obtain ⟨n, hn⟩ := hdim
      refine ⟨orDefault (some (spatialAxis dim axis p)) (-1), some d.info, ?_⟩
      simp only [unpackNoTime, unpackAxis_axis hd hax hn, bind, Except.bind]
      rw [if_neg]
      · rfl
      · rintro ⟨h1, h2⟩
        rw [axisIs_emod hax] at h2
        omega
    · have hax : AxisIs (orDefault (some (spatialAxis dim axis p)) (-1)) d.data.ndim p' := by
        simp only [orDefault, if_neg h0]
        exact hsec
      have hdim : ∃ n, DimAt d n p' := by
        have : p' < d.info.dims.length := by rw [hd.ndim]; exact hax.1
        exact ⟨_, List.getElem?_eq_getElem this⟩
      obtain ⟨n, hn⟩ := hdim
      refine ⟨orDefault (some (spatialAxis dim axis p)) (-1), some d.info, ?_⟩
      simp only [unpackNoTime, unpackAxis_axis hd hax hn, bind, Except.bind]
      rw [if_neg]
      · rfl
      · rintro ⟨h1, h2⟩
        rw [axisIs_emod hax] at h2
        rcases hor with h | ⟨hs, hp0⟩
        · omega
        · apply h0
          simp [spatialAxis, hs, hp0]

theorem reshape_clouds {v1 v2 : PyArr} {dim : Option String} {axis : Option ℤ} {p p' : ℕ} (h : Clouds v1 v2 dim axis p p')
    {same : Bool} (hs : same = true → v1.data.shape = v2.data.shape ∧ p = p') :
    reshapeVectors v1 v2 axis dim same = .ok ((rowIds v1.data.shape p).map (vec3 v1.data p),
      (rowIds v2.data.shape p').map (vec3 v2.data p'), v1.isDa) := by
  obtain ⟨u, hu, ha, hx, hax, hi⟩ := unpack_first h.first
  obtain ⟨x, y, hw⟩ := unpack_second h
  rw [← hx] at hw
  have := reshape_ok (same := same) hu hw hax (by rw [hx]; exact h.second) (by rw [ha]; exact h.len) h.len' (by rw [ha]; exact h.ndim)
    (fun e => by rw [ha, (hs e).1, (hs e).2])
  rw [this, hi, ha]

theorem quatResult_pack (v1 : PyArr) (q : Quat) :
    QuatResult v1 (packQuat v1.isDa q) q := by
  cases v1 with
  | nd a =>
    refine ⟨rfl, ?_, fun _ => ⟨_, rfl⟩, by rintro ⟨d, hd⟩; cases hd⟩
    ext <;> simp [packQuat, packVec, PyArr.isDa, PyArr.data, quat4, ND.vec1]
  | da d =>
    refine ⟨rfl, ?_, (by rintro ⟨d, hd⟩; cases hd), fun _ => ⟨_, rfl, ⟨rfl, ?_, ?_, ?_, ?_, ?_⟩, rfl, rfl⟩⟩
    · ext <;> simp [packQuat, packVec, PyArr.isDa, PyArr.data, quat4, ND.vec1]
    · simp
    · simp [labelCoord]
    · simp [labelCoord, CVals.shape, ND.vec1]
    · simp
    · intro n c hc hn
      simp only [List.mem_singleton] at hn
      subst hn
      simp [dictGet] at hc
      rw [← hc]
      rfl

theorem transResult_pack (v1 : PyArr) (t : Vec) :
    TransResult v1 (packTrans v1.isDa t) t := by
  cases v1 with
  | nd a =>
    refine ⟨rfl, ?_, fun _ => ⟨_, rfl⟩, by rintro ⟨d, hd⟩; cases hd⟩
    ext i; fin_cases i <;> simp [packTrans, packVec, PyArr.isDa, PyArr.data, vec3, ND.vec1]
  | da d =>
    refine ⟨rfl, ?_, (by rintro ⟨d, hd⟩; cases hd), fun _ => ⟨_, rfl, ⟨rfl, ?_, ?_, ?_, ?_, ?_⟩, rfl, rfl⟩⟩
    · ext i; fin_cases i <;> simp [packTrans, packVec, PyArr.isDa, PyArr.data, vec3, ND.vec1]
    · simp
    · simp [labelCoord]
    · simp [labelCoord, CVals.shape, ND.vec1]
    · simp
    · intro n c hc hn
      simp only [List.mem_singleton] at hn
      subst hn
      simp [dictGet] at hc
      rw [← hc]
      rfl

/-! ### best_fit_rotation -/

theorem bestFitRotation_eq {ext : FitExt} {v1 v2 : PyArr} {dim : Option String} {axis : Option ℤ} {p : ℕ}
    (h : SameClouds v1 v2 dim axis p) :
    bestFitRotation ext v1 v2 dim axis = .ok (packQuat v1.isDa
      (fitRotation ext ((rowIds v1.data.shape p).map (vec3 v1.data p)) ((rowIds v1.data.shape p).map (vec3 v2.data p)))) := by
  have hr := reshape_clouds h.clouds (same := true) (fun _ => ⟨h.shape, rfl⟩)
  simp only [bestFitRotation, hr, bind, Except.bind, ← h.shape]
  rfl

theorem det_svd {H U Vt : Mat3} {S : Vec} (h : IsSvd H U S Vt) (hd : 0 < H.det) : (Vtᵀ * Uᵀ).det = 1 := by
  rcases orth_det (orth_mul (orth_transpose h.right) (orth_transpose h.left)) with h1 | h1
  · exact h1
  · exfalso
    rw [h.factor, det_mul, det_mul, det_diagonal] at hd
    rw [det_mul, det_transpose, det_transpose] at h1
    have hS : 0 ≤ ∏ i, S i := by
      rw [Fin.prod_univ_three]
      have := h.nonneg; have := h.ge01; have := h.ge12
      have h1 : 0 ≤ S 1 := by linarith
      have h0 : 0 ≤ S 0 := by linarith
      positivity
    have : U.det * (∏ i, S i) * Vt.det = - ∏ i, S i := by
      calc U.det * (∏ i, S i) * Vt.det = (Vt.det * U.det) * ∏ i, S i := by ring
        _ = _ := by rw [h1]; ring
    linarith

/-- `best_fit_rotation` returns a rotation that minimises the sum of the squared distances, if the
matrix `Σ v1 v2ᵀ` has positive determinant, for every layout of the arguments. -/
theorem C46_best {ext : FitExt} (he : FitLaw ext) {v1 v2 : PyArr} {dim : Option String} {axis : Option ℤ} {p : ℕ}
    (h : SameClouds v1 v2 dim axis p) {ids : List (List ℕ)} (hids : Lists ids v1.data.shape p)
    (hdet : 0 < (corr (pairsOf v1.data v2.data p ids)).det) :
    ∃ r q, bestFitRotation ext v1 v2 dim axis = .ok r ∧ QuatResult v1 r q ∧
      IsBestRotation (pairsOf v1.data v2.data p ids) q := by
  have hp := (rowIds_lists (sh := v1.data.shape) (p := p) (by
    obtain ⟨u, -, ha, -, hax, -⟩ := unpack_first h.clouds.first
    rw [← ha]; exact hax.1)).perm hids
  have hperm : (pairsOf v1.data v2.data p (rowIds v1.data.shape p)).Perm (pairsOf v1.data v2.data p ids) := hp.map _
  refine ⟨_, _, bestFitRotation_eq h, quatResult_pack v1 _, best_perm hperm ?_⟩
  rw [pairsOf, ← zip_map_same]
  apply fitRotation_best he
  apply det_svd (he.svd _)
  rw [crossCov_eq, zip_map_same]
  rwa [← corr_perm hperm] at hdet

/-- The same if the orthogonal matrix found by the singular value decomposition is proper. -/
theorem C46_best_proper {ext : FitExt} (he : FitLaw ext) {v1 v2 : PyArr} {dim : Option String} {axis : Option ℤ} {p : ℕ}
    (h : SameClouds v1 v2 dim axis p) {ids : List (List ℕ)} (hids : Lists ids v1.data.shape p)
    (hdet : 0 < (ext.svd (corr (pairsOf v1.data v2.data p ids))).1.det * (ext.svd (corr (pairsOf v1.data v2.data p ids))).2.2.det) :
    ∃ r q, bestFitRotation ext v1 v2 dim axis = .ok r ∧ QuatResult v1 r q ∧
      IsBestRotation (pairsOf v1.data v2.data p ids) q := by
  have hp := (rowIds_lists (sh := v1.data.shape) (p := p) (by
    obtain ⟨u, -, ha, -, hax, -⟩ := unpack_first h.clouds.first
    rw [← ha]; exact hax.1)).perm hids
  have hperm : (pairsOf v1.data v2.data p (rowIds v1.data.shape p)).Perm (pairsOf v1.data v2.data p ids) := hp.map _
  refine ⟨_, _, bestFitRotation_eq h, quatResult_pack v1 _, best_perm hperm ?_⟩
  rw [pairsOf, ← zip_map_same]
  apply fitRotation_best he
  rw [crossCov_eq, zip_map_same]
  rw [← corr_perm hperm] at hdet
  have hs := he.svd (corr (pairsOf v1.data v2.data p (rowIds v1.data.shape p)))
  rcases orth_det (orth_mul (orth_transpose hs.right) (orth_transpose hs.left)) with h1 | h1
  · exact h1
  · exfalso
    rw [det_mul, det_transpose, det_transpose] at h1
    linarith

/-- A fit of vectors that were rotated by `p0` and span the space gives `p0` back, up to the sign of
the quaternion. -/
theorem C46_exact {ext : FitExt} (he : FitLaw ext) {v1 v2 : PyArr} {dim : Option String} {axis : Option ℤ} {p : ℕ}
    (h : SameClouds v1 v2 dim axis p) {p0 : Quat} (hp0 : IsUnitQ p0)
    (hrot : ∀ i, Valid (v1.data.shape.set p 1) i → vec3 v2.data p i = rot p0 (vec3 v1.data p i))
    (hspan : ∀ x : Vec, (∀ i, Valid (v1.data.shape.set p 1) i → dot (vec3 v1.data p i) x = 0) → x = 0) :
    ∃ r q, bestFitRotation ext v1 v2 dim axis = .ok r ∧ QuatResult v1 r q ∧ (q = p0 ∨ q = -p0) := by
  have hlt : p < v1.data.shape.length := by
    obtain ⟨u, -, ha, -, hax, -⟩ := unpack_first h.clouds.first
    rw [← ha]; exact hax.1
  set ids := rowIds v1.data.shape p
  have hids : Lists ids v1.data.shape p := rowIds_lists hlt
  set l := ids.map (vec3 v1.data p) with hl
  have hpairs : pairsOf v1.data v2.data p ids = l.map fun a => (a, rot p0 a) := by
    rw [pairsOf, hl, List.map_map]
    apply List.map_congr_left
    intro i hi
    rw [hrot i ((hids.2 i).mp hi)]; rfl
  have hsp : ∀ x : Vec, (∀ a ∈ l, dot a x = 0) → x = 0 := by
    intro x hx
    apply hspan
    intro i hi
    exact hx _ (List.mem_map.mpr ⟨i, (hids.2 i).mpr hi, rfl⟩)
  have hdet : 0 < (corr (pairsOf v1.data v2.data p ids)).det := by
    have e : corr (pairsOf v1.data v2.data p ids) = corr (l.map fun a => (a, a)) * (rotMat p0)ᵀ := by
      rw [hpairs]
      clear_value l
      clear hl hpairs hsp
      induction l with
      | nil => simp [corr_nil]
      | cons a l ih =>
        rw [List.map_cons, List.map_cons, corr_cons, corr_cons, ih, Matrix.add_mul]
        congr 1
        ext i j
        simp only [Matrix.mul_apply, Matrix.of_apply, Matrix.transpose_apply, ← rotMat_mulVec hp0.ne_zero, Matrix.mulVec, dotProduct,
          Fin.sum_univ_three]
        ring
    have hq : ∀ x : Vec, x ⬝ᵥ (corr (l.map fun a => (a, a)) *ᵥ x) = (l.map fun a => dot a x ^ 2).sum := by
      intro x
      clear_value l
      clear hl hpairs hsp e
      induction l with
      | nil => simp [corr_nil]
      | cons a l ih =>
        rw [List.map_cons, corr_cons, Matrix.add_mulVec, dotProduct_add, ih, List.map_cons, List.sum_cons]
        congr 1
        simp [dotProduct, Matrix.mulVec, Fin.sum_univ_three, dot]
        ring
    rw [e, det_mul, det_transpose, rotMat_det hp0, mul_one]
    apply Matrix.PosDef.det_pos
    refine Matrix.PosDef.of_dotProduct_mulVec_pos ?_ ?_
    · ext i j
      simp only [corr, Matrix.conjTranspose_apply, List.map_map, star_trivial]
      congr 1
      apply List.map_congr_left
      intro a _
      exact mul_comm _ _
    · intro x hx
      have hsx : star x = x := by ext i; simp
      rw [hsx, hq]
      have hnn : ∀ y ∈ l.map fun a => dot a x ^ 2, 0 ≤ y := by
        intro y hy
        obtain ⟨a, -, rfl⟩ := List.mem_map.mp hy
        exact sq_nonneg _
      rcases (List.sum_nonneg hnn).lt_or_eq with hlt | heq
      · exact hlt
      · exfalso
        apply hx
        apply hsp
        intro a ha
        have := List.single_le_sum hnn _ (List.mem_map.mpr ⟨a, ha, rfl⟩)
        rw [← heq] at this
        exact pow_eq_zero_iff two_ne_zero |>.mp (le_antisymm this (sq_nonneg _))
  obtain ⟨r, q, e1, e2, hb⟩ := C46_best he h hids hdet
  refine ⟨r, q, e1, e2, ?_⟩
  have hex := exact_of_bestRot hb hp0 (fun x hx => by
    rw [hpairs] at hx
    obtain ⟨a, -, rfl⟩ := List.mem_map.mp hx
    rfl)
  have hfix : ∀ a ∈ l, rot (p0⁻¹ * q) a = a := by
    intro a ha
    have := hex (a, rot p0 a) (by rw [hpairs]; exact List.mem_map.mpr ⟨a, ha, rfl⟩)
    rw [rot_mul _ _ hp0.inv.ne_zero hb.1.ne_zero, this, rot_inv_rot _ hp0.ne_zero]
  -- two independent vectors
  obtain ⟨a, ha, b, hb', hab⟩ : ∃ a ∈ l, ∃ b ∈ l, cross a b ≠ 0 := by
    by_contra hcon
    push Not at hcon
    by_cases hall : ∀ a ∈ l, a = 0
    · have := hsp ![1, 0, 0] (fun a ha => by rw [hall a ha]; simp [dot])
      have := congrFun this 0
      simp at this
    · push Not at hall
      obtain ⟨a, ha, ha0⟩ := hall
      -- every vector orthogonal to `a` is orthogonal to all
      have horth : ∀ x : Vec, dot a x = 0 → x = 0 := by
        intro x hx
        apply hsp
        intro b hb
        have hc := hcon a ha b hb
        have c0 := congrFun hc 0; have c1 := congrFun hc 1; have c2 := congrFun hc 2
        simp [cross] at c0 c1 c2
        simp only [dot] at hx ⊢
        have ha2 : a 0 ≠ 0 ∨ a 1 ≠ 0 ∨ a 2 ≠ 0 := by
          by_contra hh
          push Not at hh
          apply ha0
          ext i; fin_cases i
          · exact hh.1
          · exact hh.2.1
          · exact hh.2.2
        rcases ha2 with h0 | h0 | h0
        · apply (mul_eq_zero.mp (show a 0 * (b 0 * x 0 + b 1 * x 1 + b 2 * x 2) = 0 by grind)).resolve_left h0
        · apply (mul_eq_zero.mp (show a 1 * (b 0 * x 0 + b 1 * x 1 + b 2 * x 2) = 0 by grind)).resolve_left h0
        · apply (mul_eq_zero.mp (show a 2 * (b 0 * x 0 + b 1 * x 1 + b 2 * x 2) = 0 by grind)).resolve_left h0
      have z0 := horth ![0, a 2, -a 1] (by simp [dot]; ring)
      have z1 := horth ![a 1, -a 0, 0] (by simp [dot]; ring)
      apply ha0
      ext i; fin_cases i
      · have := congrFun z1 1; simpa using this
      · have := congrFun z1 0; simpa using this
      · have := congrFun z0 1; simpa using this
  have hu : IsUnitQ (p0⁻¹ * q) := hp0.inv.mul hb.1
  rcases fixes_two hu (hfix a ha) (hfix b hb') hab with h1 | h1
  · left
    have := congrArg (fun z => p0 * z) h1
    simpa [← mul_assoc, mul_inv_cancel₀ hp0.ne_zero] using this
  · right
    have := congrArg (fun z => p0 * z) h1
    simpa [← mul_assoc, mul_inv_cancel₀ hp0.ne_zero] using this

end RBM.Props
