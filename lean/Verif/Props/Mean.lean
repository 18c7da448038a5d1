import Verif.Spec.Mean
import Verif.Lemmas.Rigid
import Mathlib.Analysis.Matrix.Spectrum
import Mathlib.Data.Fin.Tuple.Sort

/-!
`qmean` (C41).
-/

namespace RBM.Props

open RBM Spec Matrix

theorem qvec_ofQvec (v : Fin 4 → ℝ) (i : Fin 4) : qvec (ofQvec v) i = v i := by
  fin_cases i <;> rfl

theorem nsq_qvec (q : Quat) : nsq q = ∑ i, qvec q i ^ 2 := by
  simp [Fin.sum_univ_four, nsq, qvec, qcomp]

theorem qdot_qvec (x y : Quat) : qdot x y = ∑ i, qvec x i * qvec y i := by
  simp [Fin.sum_univ_four, qdot, qvec, qcomp]

theorem ext_qvec {x y : Quat} (h : ∀ i, qvec x i = qvec y i) : x = y := by
  ext
  · exact h 0
  · exact h 1
  · exact h 2
  · exact h 3

theorem meanOuter_symm (qs : List Quat) : (meanOuter qs).IsSymm := by
  ext i j
  simp only [Matrix.transpose_apply, meanOuter]
  congr 2
  apply List.map_congr_left
  intro q _
  ring

/-- The quadratic form of the matrix is the objective. -/
theorem meanOuter_form (qs : List Quat) (x : Quat) :
    (qs.length : ℝ) * ∑ i, ∑ j, qvec x i * meanOuter qs i j * qvec x j = (qs.map fun q => qdot x q ^ 2).sum := by
  by_cases h : qs = []
  · subst h; simp
  · have hn : (qs.length : ℝ) ≠ 0 := by
      simpa using h
    have key : ∀ (l : List Quat), ∑ i, ∑ j, qvec x i * (l.map fun q => qvec q i * qvec q j).sum * qvec x j =
        (l.map fun q => qdot x q ^ 2).sum := by
      intro l
      induction l with
      | nil => simp
      | cons q l ih =>
        rw [List.map_cons, List.sum_cons, ← ih, qdot_qvec]
        simp only [List.map_cons, List.sum_cons, Fin.sum_univ_four]
        ring
    rw [← key qs, Finset.mul_sum]
    apply Finset.sum_congr rfl
    intro i _
    rw [Finset.mul_sum]
    apply Finset.sum_congr rfl
    intro j _
    rw [meanOuter]
    field_simp

theorem perm_desc {argsort : (Fin 4 → ℝ) → Fin 4 → Fin 4} (hs : SortLaw argsort) {l : Fin 4 → ℝ}
    (hl : ∀ i j, i < j → l j < l i) (i : Fin 4) : argsort l (Fin.rev i) = i := by
  have key : ∀ a b : Fin 4, a < b → argsort l b < argsort l a := by
    intro a b hab
    by_contra h
    rcases lt_or_eq_of_le (not_lt.mp h) with h | h
    · exact absurd (hs.sorted l a b hab.le) (not_le.mpr (hl _ _ h))
    · exact absurd (hs.perm l h) hab.ne
  have h01 := key 0 1 (by decide)
  have h12 := key 1 2 (by decide)
  have h23 := key 2 3 (by decide)
  have b0 := (argsort l 0).2
  simp only [Fin.lt_def] at h01 h12 h23
  have r0 : argsort l 3 = 0 := Fin.ext (by change (argsort l 3).val = 0; omega)
  have r1 : argsort l 2 = 1 := Fin.ext (by change (argsort l 2).val = 1; omega)
  have r2 : argsort l 1 = 2 := Fin.ext (by change (argsort l 1).val = 2; omega)
  have r3 : argsort l 0 = 3 := Fin.ext (by change (argsort l 0).val = 3; omega)
  fin_cases i
  · exact r0
  · exact r1
  · exact r2
  · exact r3

/-- Eigenvectors of a symmetric matrix for different eigenvalues are orthogonal. -/
theorem eig_orth {A V : Mat4} {l : Fin 4 → ℝ} (hA : A.IsSymm) (h : ∀ i j, ∑ k, A i k * V k j = l j * V i j)
    {a b : Fin 4} (hab : l a ≠ l b) : ∑ i, V i a * V i b = 0 := by
  have hs : ∀ i j, A i j = A j i := fun i j => by rw [← hA.apply]
  have h1 : ∑ i, (∑ k, A i k * V k b) * V i a = ∑ i, (∑ k, A i k * V k a) * V i b := by
    simp only [Finset.sum_mul]
    rw [Finset.sum_comm]
    apply Finset.sum_congr rfl; intro i _
    apply Finset.sum_congr rfl; intro k _
    rw [hs k i]; ring
  simp only [h] at h1
  have h2 : l b * ∑ i, V i a * V i b = l a * ∑ i, V i a * V i b := by
    rw [Finset.mul_sum, Finset.mul_sum]
    convert h1 using 2 <;> ring
  have : (l a - l b) * ∑ i, V i a * V i b = 0 := by linarith
  rcases mul_eq_zero.mp this with h | h
  · exact absurd (by linarith) hab
  · exact h

/-- Proved part of C41: if the eigenvalues come out in strictly descending order, `qmean` is the mean
direction. Missing: any other order (see C41_is_false). -/
theorem C41_descending_partial {eig : Mat4 → (Fin 4 → ℝ) × Mat4} {argsort : (Fin 4 → ℝ) → Fin 4 → Fin 4}
    (he : EigLaw eig) (hs : SortLaw argsort) {qs : List Quat} (hne : qs ≠ [])
    (hl : ∀ i j, i < j → (eig (meanOuter qs)).1 j < (eig (meanOuter qs)).1 i) :
    ∃ m, qmeanAll eig argsort qs = .ok m ∧ IsMeanDirection qs m := by
  set A := meanOuter qs with hA
  set l := (eig A).1 with hl'
  set V := (eig A).2 with hV'
  have hsym := meanOuter_symm qs
  have hAV := he.eigenpair A hsym
  have hnorm := he.normalised A hsym
  refine ⟨ofQvec fun i => V i 0, ?_, ?_, ?_⟩
  · simp only [qmeanAll, hne, if_false]
    rw [← hA]
    congr 2
    funext i
    rw [perm_desc hs hl]
  · rw [IsUnitQ, nsq_qvec]
    simp only [qvec_ofQvec]
    exact hnorm 0
  · intro x hx
    rw [← meanOuter_form, ← meanOuter_form]
    apply mul_le_mul_of_nonneg_left _ (Nat.cast_nonneg _)
    have horth : Vᵀ * V = 1 := by
      ext a b
      rw [Matrix.mul_apply, Matrix.one_apply]
      simp only [Matrix.transpose_apply]
      split
      · rename_i h; subst h
        rw [← hnorm a]
        apply Finset.sum_congr rfl; intro k _; ring
      · rename_i h
        refine eig_orth hsym hAV ?_
        rcases lt_or_gt_of_ne h with h | h
        · exact (hl _ _ h).ne'
        · exact (hl _ _ h).ne
    have horth' : V * Vᵀ = 1 := mul_eq_one_comm.mp horth
    have hD : Vᵀ * A * V = Matrix.diagonal l := by
      have : A * V = V * Matrix.diagonal l := by
        ext i j
        rw [Matrix.mul_apply, Matrix.mul_diagonal, hAV i j, mul_comm]
      rw [Matrix.mul_assoc, this, ← Matrix.mul_assoc, horth, Matrix.one_mul]
    have form : ∀ y : Fin 4 → ℝ, ∑ i, ∑ j, y i * A i j * y j = ∑ a, l a * (Vᵀ *ᵥ y) a ^ 2 := by
      intro y
      have hA2 : A = V * Matrix.diagonal l * Vᵀ := by
        rw [← hD]
        simp only [Matrix.mul_assoc, horth', Matrix.mul_one]
        rw [← Matrix.mul_assoc, horth', Matrix.one_mul]
      have e1 : ∑ i, ∑ j, y i * A i j * y j = y ⬝ᵥ (A *ᵥ y) := by
        simp only [dotProduct, Matrix.mulVec, Finset.mul_sum, mul_assoc]
      rw [e1]
      conv_lhs => rw [hA2]
      rw [← Matrix.mulVec_mulVec, ← Matrix.mulVec_mulVec, Matrix.dotProduct_mulVec, ← Matrix.mulVec_transpose]
      simp only [dotProduct, Matrix.mulVec_diagonal]
      apply Finset.sum_congr rfl; intro a _; ring
    rw [form, form]
    have hc : ∑ a, (Vᵀ *ᵥ qvec x) a ^ 2 = 1 := by
      have e1 : ∑ a, (Vᵀ *ᵥ qvec x) a ^ 2 = (Vᵀ *ᵥ qvec x) ⬝ᵥ (Vᵀ *ᵥ qvec x) := by
        simp only [dotProduct]; apply Finset.sum_congr rfl; intro a _; ring
      rw [e1, Matrix.dotProduct_mulVec, Matrix.vecMul_transpose, Matrix.mulVec_mulVec, horth', Matrix.one_mulVec]
      have := hx
      rw [IsUnitQ, nsq_qvec] at this
      rw [← this]
      simp only [dotProduct]; apply Finset.sum_congr rfl; intro a _; ring
    have hm : ∀ a, (Vᵀ *ᵥ qvec (ofQvec fun i => V i 0)) a = if a = 0 then 1 else 0 := by
      intro a
      have : (Vᵀ * V) a 0 = (1 : Mat4) a 0 := by rw [horth]
      rw [Matrix.one_apply, Matrix.mul_apply] at this
      rw [← this]
      simp only [Matrix.mulVec, dotProduct, qvec_ofQvec]
    have hr : ∑ a, l a * (Vᵀ *ᵥ qvec (ofQvec fun i => V i 0)) a ^ 2 = l 0 := by
      simp [hm]
    rw [hr]
    calc ∑ a, l a * (Vᵀ *ᵥ qvec x) a ^ 2 ≤ ∑ a, l 0 * (Vᵀ *ᵥ qvec x) a ^ 2 := by
          apply Finset.sum_le_sum
          intro a _
          apply mul_le_mul_of_nonneg_right _ (sq_nonneg _)
          rcases eq_or_ne a 0 with rfl | h
          · exact le_refl _
          · exact (hl 0 a (Fin.pos_of_ne_zero h)).le
      _ = l 0 := by rw [← Finset.mul_sum, hc, mul_one]

/-! ### What happens for a single quaternion -/

/-- The matrix for one quaternion. -/
theorem meanOuter_single (q : Quat) (i j : Fin 4) : meanOuter [q] i j = qvec q i * qvec q j := by
  simp [meanOuter]

/-- Eigenvectors of `q qᵀ` for a unit `q`: multiples of `q` (eigenvalue 1) or orthogonal to `q`
(eigenvalue 0). -/
theorem eig_single {eig : Mat4 → (Fin 4 → ℝ) × Mat4} (he : EigLaw eig) {q : Quat} (hq : IsUnitQ q) (j : Fin 4) :
    ((eig (meanOuter [q])).1 j = 1 ∧ ((∀ i, (eig (meanOuter [q])).2 i j = qvec q i) ∨ (∀ i, (eig (meanOuter [q])).2 i j = - qvec q i))) ∨
    ((eig (meanOuter [q])).1 j = 0 ∧ ∑ i, qvec q i * (eig (meanOuter [q])).2 i j = 0) := by
  have h := fun i => he.eigenpair _ (meanOuter_symm [q]) i j
  have hn := he.normalised _ (meanOuter_symm [q]) j
  set l := (eig (meanOuter [q])).1 j
  set u : Fin 4 → ℝ := fun i => (eig (meanOuter [q])).2 i j with hu
  set c := ∑ k, qvec q k * u k with hc
  have h1 : ∀ i, qvec q i * c = l * u i := by
    intro i
    rw [← h i, hc, Finset.mul_sum]
    apply Finset.sum_congr rfl; intro k _
    rw [meanOuter_single]; ring
  rw [IsUnitQ, nsq_qvec] at hq
  have h2 : c = l * c := by
    have : ∑ i, qvec q i * (qvec q i * c) = ∑ i, qvec q i * (l * u i) := by simp only [h1]
    have e1 : ∑ i, qvec q i * (qvec q i * c) = c := by
      calc _ = (∑ i, qvec q i ^ 2) * c := by rw [Finset.sum_mul]; apply Finset.sum_congr rfl; intro i _; ring
        _ = c := by rw [hq, one_mul]
    have e2 : ∑ i, qvec q i * (l * u i) = l * c := by
      rw [hc, Finset.mul_sum]; apply Finset.sum_congr rfl; intro i _; ring
    rw [e1, e2] at this; exact this
  by_cases hc0 : c = 0
  · right
    refine ⟨?_, hc0⟩
    have h3 : ∀ i, l * u i = 0 := fun i => by rw [← h1 i, hc0, mul_zero]
    by_contra hl
    have : ∀ i, u i = 0 := fun i => (mul_eq_zero.mp (h3 i)).resolve_left hl
    have : ∑ k, u k ^ 2 = 0 := by simp [this]
    rw [this] at hn; norm_num at hn
  · left
    have hl : l = 1 := by
      have : (l - 1) * c = 0 := by linarith
      rcases mul_eq_zero.mp this with h | h
      · linarith
      · exact absurd h hc0
    refine ⟨hl, ?_⟩
    have h3 : ∀ i, u i = c * qvec q i := fun i => by have := h1 i; rw [hl] at this; linarith
    have h4 : c ^ 2 = 1 := by
      have e : ∑ k, u k ^ 2 = 1 := hn
      simp only [h3, mul_pow] at e
      rw [← Finset.mul_sum, hq, mul_one] at e
      exact e
    rcases mul_self_eq_one_iff.mp (show c * c = 1 by nlinarith) with h | h
    · left; intro i; have := h3 i; rw [h, one_mul] at this; exact this
    · right; intro i; have := h3 i; rw [h] at this; linarith

/-- Two columns that agree up to sign are impossible. -/
theorem eig_unique_top {eig : Mat4 → (Fin 4 → ℝ) × Mat4} (he : EigLaw eig) {q : Quat} (hq : IsUnitQ q) {i j : Fin 4}
    (hij : i ≠ j) (hi : (eig (meanOuter [q])).1 i = 1) : (eig (meanOuter [q])).1 j = 0 := by
  rcases eig_single he hq j with ⟨_, hj⟩ | ⟨hj, _⟩
  · exfalso
    have hi' := (eig_single he hq i).resolve_right (by rintro ⟨h, _⟩; rw [hi] at h; norm_num at h)
    apply he.basis _ (meanOuter_symm [q])
    have key : ∃ c : ℝ, ∀ k, (eig (meanOuter [q])).2 k i = c * (eig (meanOuter [q])).2 k j := by
      rcases hi'.2 with h | h <;> rcases hj with h' | h'
      · exact ⟨1, fun k => by rw [h, h']; ring⟩
      · exact ⟨-1, fun k => by rw [h, h']; ring⟩
      · exact ⟨-1, fun k => by rw [h, h']; ring⟩
      · exact ⟨1, fun k => by rw [h, h']; ring⟩
    obtain ⟨c, hc⟩ := key
    by_contra hdet
    have hinj : (eig (meanOuter [q])).2 *ᵥ (Pi.single i 1 - c • Pi.single j 1) = 0 := by
      rw [Matrix.mulVec_sub, Matrix.mulVec_smul, Matrix.mulVec_single_one, Matrix.mulVec_single_one]
      funext k
      simp [Matrix.col, hc k]
    have := Matrix.eq_zero_of_mulVec_eq_zero hdet hinj
    have h1 := congrFun this i
    simp [hij] at h1
  · exact hj

/-- If `eig` puts the eigenvalue 1 first, `qmean` of a single unit quaternion is, up to sign, that
quaternion with its x and z components exchanged. -/
theorem C41_single_exact {eig : Mat4 → (Fin 4 → ℝ) × Mat4} {argsort : (Fin 4 → ℝ) → Fin 4 → Fin 4}
    (he : EigLaw eig) (hs : SortLaw argsort) {q : Quat} (hq : IsUnitQ q) (h1 : (eig (meanOuter [q])).1 0 = 1) :
    qmeanAll eig argsort [q] = .ok ⟨q.re, q.imK, q.imJ, q.imI⟩ ∨
    qmeanAll eig argsort [q] = .ok ⟨-q.re, -q.imK, -q.imJ, -q.imI⟩ := by
  set l := (eig (meanOuter [q])).1 with hl
  have h0 : ∀ j, j ≠ 0 → l j = 0 := fun j hj => eig_unique_top he hq (Ne.symm hj) h1
  have hsurj : Function.Surjective (argsort l) := Finite.injective_iff_surjective.mp (hs.perm l)
  obtain ⟨a, ha⟩ := hsurj 0
  have hlast : ∀ j, a ≤ j → j = a := by
    intro j hj
    have := hs.sorted l a j hj
    rw [ha, h1] at this
    by_contra hne
    have : argsort l j ≠ 0 := fun h => hne (hs.perm l (h.trans ha.symm))
    rw [h0 _ this] at *
    linarith
  have ha3 : a = 3 := (hlast 3 (by omega)).symm
  subst ha3
  have hnz : ∀ j : Fin 4, j ≠ 3 → argsort l j ≠ 0 := fun j hj h => hj (hs.perm l (h.trans ha.symm))
  have h01 := hs.stable l 0 1 (by decide) (by rw [h0 _ (hnz 0 (by decide)), h0 _ (hnz 1 (by decide))])
  have h12 := hs.stable l 1 2 (by decide) (by rw [h0 _ (hnz 1 (by decide)), h0 _ (hnz 2 (by decide))])
  have z0 : (argsort l 0).val ≠ 0 := fun h => hnz 0 (by decide) (Fin.ext h)
  have b2 := (argsort l 2).2
  simp only [Fin.lt_def] at h01 h12
  have r0 : argsort l 0 = 1 := Fin.ext (by change (argsort l 0).val = 1; omega)
  have r1 : argsort l 1 = 2 := Fin.ext (by change (argsort l 1).val = 2; omega)
  have r2 : argsort l 2 = 3 := Fin.ext (by change (argsort l 2).val = 3; omega)
  have hm : qmeanAll eig argsort [q] = .ok (ofQvec fun i => (eig (meanOuter [q])).2 (argsort l (Fin.rev i)) 0) := by
    simp [qmeanAll, hl]
  have e : (ofQvec fun i => (eig (meanOuter [q])).2 (argsort l (Fin.rev i)) 0) =
      ⟨(eig (meanOuter [q])).2 0 0, (eig (meanOuter [q])).2 3 0, (eig (meanOuter [q])).2 2 0, (eig (meanOuter [q])).2 1 0⟩ := by
    simp only [ofQvec]
    rw [show Fin.rev (0 : Fin 4) = 3 from rfl, show Fin.rev (1 : Fin 4) = 2 from rfl, show Fin.rev (2 : Fin 4) = 1 from rfl,
      show Fin.rev (3 : Fin 4) = 0 from rfl, ha, r0, r1, r2]
  rw [hm, e]
  have := (eig_single he hq 0).resolve_right (by rintro ⟨h, _⟩; rw [← hl, h1] at h; norm_num at h)
  rcases this.2 with h | h
  · left; simp only [h]; rfl
  · right; simp only [h]; rfl

/-- For every `eig` and (stable) `argsort` that keep their contracts, `qmean` of the single unit quaternion
`(1, 2, 4, 10)/11` is neither that quaternion nor its negative. -/
theorem C41_single_is_wrong {eig : Mat4 → (Fin 4 → ℝ) × Mat4} {argsort : (Fin 4 → ℝ) → Fin 4 → Fin 4}
    (he : EigLaw eig) (hs : SortLaw argsort) :
    ∃ q m, IsUnitQ q ∧ qmeanAll eig argsort [q] = .ok m ∧ m ≠ q ∧ m ≠ -q := by
  obtain ⟨q, hq⟩ : ∃ q : Quat, q = ⟨1/11, 2/11, 4/11, 10/11⟩ := ⟨_, rfl⟩
  have q0 : q.re = 1/11 := by rw [hq]
  have q1 : q.imI = 2/11 := by rw [hq]
  have q2 : q.imJ = 4/11 := by rw [hq]
  have q3 : q.imK = 10/11 := by rw [hq]
  have hu : IsUnitQ q := by rw [IsUnitQ, nsq, q0, q1, q2, q3]; norm_num
  refine ⟨q, ?_⟩
  rcases eig_single he hu 0 with ⟨h1, _⟩ | ⟨h1, h2⟩
  · rcases C41_single_exact he hs hu h1 with h | h
    · refine ⟨_, hu, h, ?_, ?_⟩ <;> intro hh
      · have := congrArg QuaternionAlgebra.imI hh
        simp only [q1, q3] at this; norm_num at this
      · have := congrArg QuaternionAlgebra.re hh
        rw [show (-q).re = -q.re from rfl] at this; simp only [q0] at this; norm_num at this
    · refine ⟨_, hu, h, ?_, ?_⟩ <;> intro hh
      · have := congrArg QuaternionAlgebra.re hh
        simp only [q0] at this; norm_num at this
      · have := congrArg QuaternionAlgebra.imI hh
        rw [show (-q).imI = -q.imI from rfl] at this; simp only [q1, q3] at this; norm_num at this
  · set l := (eig (meanOuter [q])).1 with hl
    set σ : Fin 4 → Fin 4 := fun i => argsort l (Fin.rev i) with hσ
    have hbij : Function.Bijective σ := Finite.injective_iff_bijective.mp fun a b h => Fin.rev_injective (hs.perm l h)
    have hm : qmeanAll eig argsort [q] = .ok (ofQvec fun i => (eig (meanOuter [q])).2 (σ i) 0) := by
      simp [qmeanAll, hl, hσ]
    have hsum : ∑ i, qvec q (σ i) * (eig (meanOuter [q])).2 (σ i) 0 = 0 := by
      rw [← h2]
      exact hbij.sum_comp fun j => qvec q j * (eig (meanOuter [q])).2 j 0
    have hpos : ∀ i, 0 < qvec q i := by
      intro i
      fin_cases i
      · change 0 < q.re; rw [q0]; norm_num
      · change 0 < q.imI; rw [q1]; norm_num
      · change 0 < q.imJ; rw [q2]; norm_num
      · change 0 < q.imK; rw [q3]; norm_num
    have hsp : 0 < ∑ i, qvec q (σ i) * qvec q i := Finset.sum_pos (fun i _ => mul_pos (hpos _) (hpos _)) Finset.univ_nonempty
    refine ⟨_, hu, hm, ?_, ?_⟩ <;> intro hh
    · have : ∀ i, (eig (meanOuter [q])).2 (σ i) 0 = qvec q i := fun i => by
        have := congrArg (fun x => qvec x i) hh
        simpa only [qvec_ofQvec] using this
      simp only [this] at hsum
      linarith
    · have hneg : ∀ i, qvec (-q) i = - qvec q i := by intro i; fin_cases i <;> rfl
      have : ∀ i, (eig (meanOuter [q])).2 (σ i) 0 = - qvec q i := fun i => by
        have := congrArg (fun x => qvec x i) hh
        simpa only [qvec_ofQvec, hneg] using this
      simp only [this, mul_neg, Finset.sum_neg_distrib] at hsum
      linarith

/-- A mean direction of one unit quaternion is that quaternion or its negative. -/
theorem meanDirection_single {q m : Quat} (hq : IsUnitQ q) (h : IsMeanDirection [q] m) : m = q ∨ m = -q := by
  have h1 := h.2 q hq
  have hm := h.1
  simp only [List.map_cons, List.map_nil, List.sum_cons, List.sum_nil, add_zero] at h1
  have hqq : qdot q q = 1 := by rw [← hq, nsq, qdot]; ring
  rw [hqq] at h1
  -- Cauchy-Schwarz with equality
  have hlag : nsq m * nsq q - qdot m q ^ 2 = (m.re * q.imI - m.imI * q.re) ^ 2 + (m.re * q.imJ - m.imJ * q.re) ^ 2 +
      (m.re * q.imK - m.imK * q.re) ^ 2 + (m.imI * q.imJ - m.imJ * q.imI) ^ 2 + (m.imI * q.imK - m.imK * q.imI) ^ 2 +
      (m.imJ * q.imK - m.imK * q.imJ) ^ 2 := by simp only [nsq, qdot]; ring
  rw [hm, hq] at hlag
  have hc2 : qdot m q ^ 2 = 1 := by
    have : qdot m q ^ 2 ≤ 1 := by
      nlinarith [sq_nonneg (m.re * q.imI - m.imI * q.re), sq_nonneg (m.re * q.imJ - m.imJ * q.re),
      sq_nonneg (m.re * q.imK - m.imK * q.re), sq_nonneg (m.imI * q.imJ - m.imJ * q.imI), sq_nonneg (m.imI * q.imK - m.imK * q.imI),
      sq_nonneg (m.imJ * q.imK - m.imK * q.imJ)]
    linarith
  have hd : nsq (m - qdot m q • q) = 0 := by
    have : nsq (m - qdot m q • q) = nsq m - 2 * qdot m q * qdot m q + qdot m q ^ 2 * nsq q := by
      simp only [nsq, qdot, Quaternion.re_sub, Quaternion.imI_sub, Quaternion.imJ_sub, Quaternion.imK_sub,
        Quaternion.re_smul, Quaternion.imI_smul, Quaternion.imJ_smul, Quaternion.imK_smul, smul_eq_mul]
      ring
    rw [this, hm, hq]; linarith
  have he := sub_eq_zero.mp (nsq_eq_zero.mp hd)
  rcases mul_self_eq_one_iff.mp (show qdot m q * qdot m q = 1 by nlinarith) with h | h
  · left; rw [h, one_smul] at he; exact he
  · right; rw [h, neg_smul, one_smul] at he; exact he

/-- The contracts can be met. -/
theorem eigLaw_exists : ∃ eig, EigLaw eig := by
  classical
  let herm : ∀ A : Mat4, A.IsSymm → A.IsHermitian := fun A h => by
    rw [Matrix.IsHermitian, Matrix.conjTranspose_eq_transpose_of_trivial]; exact h
  refine ⟨fun A => if h : A.IsSymm then ((herm A h).eigenvalues, fun i j => (herm A h).eigenvectorBasis j i) else (0, 1), ?_, ?_, ?_⟩
  · intro A h i j
    simp only [dif_pos h]
    have := congrFun ((herm A h).mulVec_eigenvectorBasis j) i
    simpa [Matrix.mulVec, dotProduct] using this
  · intro A h j
    simp only [dif_pos h]
    have h1 := (herm A h).eigenvectorBasis.orthonormal.1 j
    have h2 := EuclideanSpace.norm_sq_eq ((herm A h).eigenvectorBasis j)
    rw [h1] at h2
    simpa using h2.symm
  · intro A h
    simp only [dif_pos h]
    have : (fun i j => (herm A h).eigenvectorBasis j i : Mat4) = ((herm A h).eigenvectorUnitary : Mat4) := by
      ext i j; simp [Matrix.IsHermitian.eigenvectorUnitary_apply]
    rw [this]
    have hu := Matrix.mem_unitaryGroup_iff.mp ((herm A h).eigenvectorUnitary).2
    intro h0
    have := congrArg Matrix.det hu
    rw [Matrix.det_mul, h0, zero_mul, Matrix.det_one] at this
    norm_num at this

theorem sortLaw_exists : ∃ argsort, SortLaw argsort := by
  refine ⟨fun l => Tuple.sort l, ?_, ?_, ?_⟩
  · intro l; exact (Tuple.sort l).injective
  · intro l i j hij; exact Tuple.monotone_sort l hij
  · intro l i j hij he
    have := (Tuple.sort_eq_refl_iff_monotone (f := l))
    by_contra hlt
    have hm := (Tuple.graphEquiv₁ l)
    have h2 : StrictMono (Tuple.graphEquiv₂ l : Fin 4 → _) := (Tuple.graphEquiv₂ l).strictMono
    have h3 := h2 hij
    have key : ∀ a, ((Tuple.graphEquiv₂ l a : Tuple.graph l) : ℝ ×ₗ Fin 4) = toLex (l (Tuple.sort l a), Tuple.sort l a) := by
      intro a
      have := Tuple.self_comp_sort l
      have e := (Tuple.graphEquiv₁ l).apply_symm_apply (Tuple.graphEquiv₂ l a)
      conv_lhs => rw [← e]
      rfl
    have h4 : ((Tuple.graphEquiv₂ l i : Tuple.graph l) : ℝ ×ₗ Fin 4) < (Tuple.graphEquiv₂ l j : Tuple.graph l) := h3
    rw [key, key, Prod.Lex.toLex_lt_toLex] at h4
    rcases h4 with h4 | h4
    · exact absurd he h4.ne
    · exact hlt h4.2

/-- Ten quaternions: 4 times 1, 3 times i, 2 times j, and k. -/
noncomputable def exMean : List Quat :=
  let i := ofQvec ![0, 1, 0, 0]
  let j := ofQvec ![0, 0, 1, 0]
  let k := ofQvec ![0, 0, 0, 1]
  [1, 1, 1, 1, i, i, i, j, j, k]

theorem qvec_one (i : Fin 4) : qvec 1 i = if i = 0 then 1 else 0 := by
  fin_cases i <;> rfl

theorem exMean_outer : meanOuter exMean = Matrix.diagonal ![4/10, 3/10, 2/10, 1/10] := by
  ext i j
  fin_cases i <;> fin_cases j <;> norm_num [meanOuter, exMean, qvec_ofQvec, qvec_one, Matrix.diagonal_apply]

/-- Non-vacuous: a solver that returns the identity for a diagonal matrix, applied to `exMean`. -/
example : ∃ eig argsort, EigLaw eig ∧ SortLaw argsort ∧
    (∀ i j, i < j → (eig (meanOuter exMean)).1 j < (eig (meanOuter exMean)).1 i) ∧
    ∃ m, qmeanAll eig argsort exMean = .ok m ∧ IsMeanDirection exMean m := by
  classical
  obtain ⟨e0, h0⟩ := eigLaw_exists
  obtain ⟨argsort, hs⟩ := sortLaw_exists
  let d : Fin 4 → ℝ := ![4/10, 3/10, 2/10, 1/10]
  let eig : Mat4 → (Fin 4 → ℝ) × Mat4 := fun A => if A = Matrix.diagonal d then (d, 1) else e0 A
  have he : EigLaw eig := by
    refine ⟨?_, ?_, ?_⟩
    · intro A hA i j
      by_cases h : A = Matrix.diagonal d
      · simp only [eig, h, if_true]
        rw [← Matrix.mul_apply, Matrix.mul_one]
        by_cases hij : i = j
        · subst hij; simp
        · simp [hij]
      · simp only [eig, h, if_false]; exact h0.eigenpair A hA i j
    · intro A hA j
      by_cases h : A = Matrix.diagonal d
      · simp only [eig, h, if_true]
        simp [Matrix.one_apply]
      · simp only [eig, h, if_false]; exact h0.normalised A hA j
    · intro A hA
      by_cases h : A = Matrix.diagonal d
      · simp [eig, h]
      · simp only [eig, h, if_false]; exact h0.basis A hA
  have hd : ∀ i j, i < j → (eig (meanOuter exMean)).1 j < (eig (meanOuter exMean)).1 i := by
    intro i j hij
    simp only [eig, exMean_outer, d, if_true]
    fin_cases i <;> fin_cases j <;> first | (exfalso; revert hij; decide) | norm_num
  exact ⟨eig, argsort, he, hs, hd, C41_descending_partial he hs (by simp [exMean]) hd⟩

/-- C41 is false: no admissible eigenvalue solver makes `qmean` right on every nonempty list of unit
quaternions. -/
theorem C41_is_false : ¬ ∃ eig argsort, EigLaw eig ∧ SortLaw argsort ∧ ∀ qs : List Quat, qs ≠ [] → (∀ q ∈ qs, IsUnitQ q) →
    ∃ m, qmeanAll eig argsort qs = .ok m ∧ IsMeanDirection qs m := by
  rintro ⟨eig, argsort, he, hs, hall⟩
  obtain ⟨q, m, h1, h2, h3, h4⟩ := C41_single_is_wrong he hs
  obtain ⟨m', h5, h6⟩ := hall [q] (by simp) (by simpa using h1)
  rw [h2] at h5
  cases h5
  rcases meanDirection_single h1 h6 with h | h
  · exact h3 h
  · exact h4 h

/-- Non-vacuous: `C41_single_exact` with a solver that sorts the eigenvalues of a diagonal matrix in descending order. -/
example : ∃ eig argsort, EigLaw eig ∧ SortLaw argsort ∧ (qmeanAll eig argsort [1] = .ok ⟨1, 0, 0, 0⟩ ∨ qmeanAll eig argsort [1] = .ok ⟨-1, 0, 0, 0⟩) := by
  classical
  obtain ⟨e0, h0⟩ := eigLaw_exists
  obtain ⟨argsort, hs⟩ := sortLaw_exists
  let d : Fin 4 → ℝ := ![1, 0, 0, 0]
  let eig : Mat4 → (Fin 4 → ℝ) × Mat4 := fun A => if A = Matrix.diagonal d then (d, 1) else e0 A
  have he : EigLaw eig := by
    refine ⟨?_, ?_, ?_⟩
    · intro A hA i j
      by_cases h : A = Matrix.diagonal d
      · simp only [eig, h, if_true]
        rw [← Matrix.mul_apply, Matrix.mul_one]
        by_cases hij : i = j
        · subst hij; simp
        · simp [hij]
      · simp only [eig, h, if_false]; exact h0.eigenpair A hA i j
    · intro A hA j
      by_cases h : A = Matrix.diagonal d
      · simp only [eig, h, if_true]
        simp [Matrix.one_apply]
      · simp only [eig, h, if_false]; exact h0.normalised A hA j
    · intro A hA
      by_cases h : A = Matrix.diagonal d
      · simp [eig, h]
      · simp only [eig, h, if_false]; exact h0.basis A hA
  have ho : meanOuter [1] = Matrix.diagonal d := by
    ext i j
    fin_cases i <;> fin_cases j <;> simp [meanOuter, qvec_one, Matrix.diagonal_apply, d]
  have := C41_single_exact he hs (q := 1) isUnitQ_one (by simp [eig, ho, d])
  refine ⟨eig, argsort, he, hs, ?_⟩
  simpa using this

end RBM.Props
