import Verif.Lemmas.Fit
import Mathlib.Analysis.Matrix.Spectrum
import Mathlib.Analysis.InnerProductSpace.PiL2
import Mathlib.Data.Fin.Tuple.Sort
import Mathlib.Topology.Order.Compact

/-!
The contracts of `Spec.FitLaw` can be met: singular value decompositions and best agreeing
quaternions exist.
-/

namespace RBM

open Matrix RBM.Spec

theorem basis_orth (b : OrthonormalBasis (Fin 3) ℝ (EuclideanSpace ℝ (Fin 3))) :
    (Matrix.of fun j i => b i j : Mat3)ᵀ * (Matrix.of fun j i => b i j) = 1 := by
  ext i k
  have := orthonormal_iff_ite.mp b.orthonormal i k
  rw [PiLp.inner_apply] at this
  simp only [Matrix.mul_apply, Matrix.transpose_apply, Matrix.of_apply, Matrix.one_apply]
  rw [← this]
  apply Finset.sum_congr rfl
  intro j _
  simp [mul_comm]

theorem exists_svd (H : Mat3) : ∃ U S Vt, IsSvd H U S Vt := by
  have hA : (Hᵀ * H).IsHermitian := by
    have := Matrix.isHermitian_conjTranspose_mul_self H
    simpa using this
  set e := hA.eigenvalues with he
  set σ : Equiv.Perm (Fin 3) := Tuple.sort fun i => - e i
  have hmono : Monotone ((fun i => - e i) ∘ σ) := Tuple.monotone_sort _
  set v : Fin 3 → Fin 3 → ℝ := fun i j => hA.eigenvectorBasis (σ i) j with hv
  have hev : ∀ i, (Hᵀ * H) *ᵥ v i = e (σ i) • v i := by
    intro i
    have := hA.mulVec_eigenvectorBasis (σ i)
    simpa [hv] using this
  have hvv : ∀ i k, v i ⬝ᵥ v k = if i = k then 1 else 0 := by
    intro i k
    have := orthonormal_iff_ite.mp hA.eigenvectorBasis.orthonormal (σ i) (σ k)
    rw [PiLp.inner_apply] at this
    simp only [EmbeddingLike.apply_eq_iff_eq] at this
    rw [← this]
    apply Finset.sum_congr rfl
    intro j _
    simp [hv, mul_comm]
  have hHH : ∀ i k, (H *ᵥ v i) ⬝ᵥ (H *ᵥ v k) = if i = k then e (σ k) else 0 := by
    intro i k
    have h1 : (H *ᵥ v i) ⬝ᵥ (H *ᵥ v k) = v i ⬝ᵥ ((Hᵀ * H) *ᵥ v k) := by
      rw [← Matrix.mulVec_mulVec, Matrix.dotProduct_mulVec (v i) Hᵀ, Matrix.vecMul_transpose]
    rw [h1, hev, dotProduct_smul, hvv]
    split <;> simp
  have hnn : ∀ i, 0 ≤ e (σ i) := by
    intro i
    have := hHH i i
    rw [if_pos rfl] at this
    rw [← this]
    exact Finset.sum_nonneg fun j _ => mul_self_nonneg _
  set s : Fin 3 → ℝ := fun i => Real.sqrt (e (σ i)) with hs
  have hss : ∀ i, s i * s i = e (σ i) := fun i => Real.mul_self_sqrt (hnn i)
  set u : Fin 3 → EuclideanSpace ℝ (Fin 3) := fun i => WithLp.toLp 2 ((s i)⁻¹ • (H *ᵥ v i)) with hu
  have hon : Orthonormal ℝ (({i | s i ≠ 0} : Set (Fin 3)).restrict u) := by
    rw [orthonormal_iff_ite]
    rintro ⟨i, hi⟩ ⟨k, hk⟩
    have : inner ℝ (u i) (u k) = (s i)⁻¹ * ((s k)⁻¹ * ((H *ᵥ v i) ⬝ᵥ (H *ᵥ v k))) := by
      rw [PiLp.inner_apply]
      simp only [hu, dotProduct, Finset.mul_sum]
      apply Finset.sum_congr rfl
      intro j _
      simp
      ring
    change inner ℝ (u i) (u k) = _
    rw [this, hHH]
    simp only [Subtype.mk.injEq]
    by_cases hik : i = k
    · subst hik
      have hi0 : s i ≠ 0 := hi
      simp only [if_true, ← hss]
      field_simp
    · simp [hik]
  obtain ⟨b, hb⟩ := hon.exists_orthonormalBasis_extension_of_card_eq (by simp)
  have hHv : ∀ i, H *ᵥ v i = s i • (fun j => b i j) := by
    intro i
    by_cases h0 : s i = 0
    · rw [h0, zero_smul]
      have h1 := hHH i i
      rw [if_pos rfl, ← hss, h0, mul_zero] at h1
      exact dotProduct_self_eq_zero.mp h1
    · rw [hb i h0]
      ext j
      simp [hu, h0]
  refine ⟨Matrix.of fun j i => b i j, s, Matrix.of v, basis_orth b, ?_, ?_, ?_, ?_, Real.sqrt_nonneg _⟩
  · apply mul_eq_one_comm.mp
    ext i k
    have := hvv i k
    simpa [Matrix.mul_apply, Matrix.one_apply, dotProduct] using this
  · have hV : (Matrix.of v : Mat3)ᵀ * Matrix.of v = 1 := by
      apply mul_eq_one_comm.mp
      ext i k
      have := hvv i k
      simpa [Matrix.mul_apply, Matrix.one_apply, dotProduct] using this
    have h1 : H * (Matrix.of v : Mat3)ᵀ = (Matrix.of fun j i => b i j) * diagonal s := by
      ext j i
      have := congrFun (hHv i) j
      simp only [Matrix.mulVec, dotProduct, Pi.smul_apply, smul_eq_mul] at this
      rw [Matrix.mul_diagonal, Matrix.mul_apply, Matrix.of_apply, mul_comm, ← this]
      rfl
    rw [← h1, Matrix.mul_assoc, hV, Matrix.mul_one]
  · apply Real.sqrt_le_sqrt
    have := hmono (show (0 : Fin 3) ≤ 1 by decide)
    simpa using this
  · apply Real.sqrt_le_sqrt
    have := hmono (show (1 : Fin 3) ≤ 2 by decide)
    simpa using this

theorem exists_best (M : Mat3) : ∃ q, IsUnitQ q ∧ ∀ p, IsUnitQ p → agreement p M ≤ agreement q M := by
  have hc : IsCompact {x : Fin 4 → ℝ | x 0 ^ 2 + x 1 ^ 2 + x 2 ^ 2 + x 3 ^ 2 = 1} := by
    apply Metric.isCompact_of_isClosed_isBounded
    · exact isClosed_eq (by fun_prop) continuous_const
    · refine (Metric.isBounded_closedBall (x := (0 : Fin 4 → ℝ)) (r := 1)).subset ?_
      intro x hx
      have hx' : x 0 ^ 2 + x 1 ^ 2 + x 2 ^ 2 + x 3 ^ 2 = 1 := hx
      rw [mem_closedBall_zero_iff, pi_norm_le_iff_of_nonneg zero_le_one]
      intro i
      rw [Real.norm_eq_abs, abs_le_one_iff_mul_self_le_one]
      fin_cases i <;> simp <;> nlinarith [sq_nonneg (x 0), sq_nonneg (x 1), sq_nonneg (x 2), sq_nonneg (x 3)]
  set f : (Fin 4 → ℝ) → ℝ := fun x =>
    (1 - 2 * (x 2 * x 2 + x 3 * x 3)) * M 0 0 + 2 * (x 1 * x 2 - x 3 * x 0) * M 0 1 + 2 * (x 1 * x 3 + x 2 * x 0) * M 0 2
    + (2 * (x 1 * x 2 + x 3 * x 0) * M 1 0 + (1 - 2 * (x 1 * x 1 + x 3 * x 3)) * M 1 1 + 2 * (x 2 * x 3 - x 1 * x 0) * M 1 2)
    + (2 * (x 1 * x 3 - x 2 * x 0) * M 2 0 + 2 * (x 2 * x 3 + x 1 * x 0) * M 2 1 + (1 - 2 * (x 1 * x 1 + x 2 * x 2)) * M 2 2)
  have hf : ContinuousOn f {x : Fin 4 → ℝ | x 0 ^ 2 + x 1 ^ 2 + x 2 ^ 2 + x 3 ^ 2 = 1} := by
    apply Continuous.continuousOn
    fun_prop
  have hag : ∀ q : Quat, IsUnitQ q → agreement q M = f ![q.re, q.imI, q.imJ, q.imK] := by
    intro q hq
    rw [agreement_eq hq.ne_zero, rotMat_unit hq]
    simp [f, Fin.sum_univ_three]
  obtain ⟨x, hx, hmax⟩ := hc.exists_isMaxOn ⟨![1, 0, 0, 0], by simp⟩ hf
  have hu : IsUnitQ (⟨x 0, x 1, x 2, x 3⟩ : Quat) := hx
  refine ⟨⟨x 0, x 1, x 2, x 3⟩, hu, fun p hp => ?_⟩
  rw [hag _ hu, hag p hp]
  have hp' : (![p.re, p.imI, p.imJ, p.imK] : Fin 4 → ℝ) ∈ {x : Fin 4 → ℝ | x 0 ^ 2 + x 1 ^ 2 + x 2 ^ 2 + x 3 ^ 2 = 1} := by
    have : p.re ^ 2 + p.imI ^ 2 + p.imJ ^ 2 + p.imK ^ 2 = 1 := hp
    simpa using this
  have := hmax hp'
  have ex : (![x 0, x 1, x 2, x 3] : Fin 4 → ℝ) = x := by ext i; fin_cases i <;> rfl
  simp only [Set.mem_setOf_eq] at this
  rw [ex]
  exact this

/-- Routines that meet the contracts exist. -/
theorem exists_fitLaw : ∃ ext, FitLaw ext := by
  choose U S Vt h using exists_svd
  choose q hq hb using exists_best
  exact ⟨⟨fun H => (U H, S H, Vt H), q⟩, h, hq, hb⟩

/-- The singular value decomposition can be prescribed for one matrix, the quaternion for another one. -/
theorem exists_fitLaw_with {H U Vt : Mat3} {S : Vec} (h : IsSvd H U S Vt) {M : Mat3} {p : Quat} (hp : IsUnitQ p)
    (hbest : ∀ q, IsUnitQ q → agreement q M ≤ agreement p M) :
    ∃ ext, FitLaw ext ∧ ext.svd H = (U, S, Vt) ∧ ext.quatOf M = p := by
  classical
  obtain ⟨ext, he⟩ := exists_fitLaw
  refine ⟨⟨Function.update ext.svd H (U, S, Vt), Function.update ext.quatOf M p⟩, ⟨?_, ?_, ?_⟩, by simp, by simp⟩
  · intro H'
    by_cases e : H' = H
    · subst e; simpa using h
    · simpa [Function.update_of_ne e] using he.svd H'
  · intro M'
    by_cases e : M' = M
    · subst e; simpa using hp
    · simpa [Function.update_of_ne e] using he.unit M'
  · intro M' q hq
    by_cases e : M' = M
    · subst e; simpa using hbest q hq
    · simpa [Function.update_of_ne e] using he.best M' q hq

end RBM
