import Verif.Spec.DifferenceQuotient
import Verif.Lemmas.Velocity

/-!
`np.gradient` as a difference quotient (C99).
-/

namespace RBM

open Spec

theorem gradAt_estimate {ts ys : List ℝ} (h : StrictlyIncreasing ts) (h2 : 2 ≤ ts.length) {i : ℕ} (hi : i < ts.length) :
    IsEstimate ts (fun k => ys.getD k 0) i (gradAt ts ys i) := by
  have hlt : ∀ {a b : ℕ}, a < b → b < ts.length → ts.getD a 0 < ts.getD b 0 := fun hab hb => strictlyIncreasing_getD h hab hb
  refine ⟨fun h0 => ?_, fun h1 => ?_, fun h0 h1 d0 d1 e0 e1 => ?_⟩
  · subst h0
    simp only [gradAt, if_true, meanVelocity, smul_eq_mul]
    ring
  · rcases Nat.eq_zero_or_pos i with rfl | hpos
    · omega
    · obtain ⟨n, rfl⟩ : ∃ n, i = n + 1 := ⟨i - 1, by omega⟩
      have hn : ts.length = n + 2 := by omega
      unfold gradAt
      simp only []
      rw [if_neg (Nat.succ_ne_zero n), if_pos h1, hn, show n + 2 - 1 = n + 1 by omega, Nat.add_sub_cancel, Nat.add_sub_cancel, meanVelocity, smul_eq_mul]
      ring
  · obtain ⟨n, rfl⟩ : ∃ n, i = n + 1 := ⟨i - 1, by omega⟩
    have q1 := hlt (a := n) (b := n + 1) (by omega) (by omega)
    have q2 := hlt (a := n + 1) (b := n + 2) (by omega) (by omega)
    rw [Nat.add_sub_cancel] at e0
    have p0 : 0 < d0 := by rw [e0]; linarith
    have p1 : 0 < d1 := by rw [e1]; linarith
    have m0 : meanVelocity ts (fun k => ys.getD k 0) n = (ys.getD (n + 1) 0 - ys.getD n 0) / d0 := by
      rw [meanVelocity, ← e0, smul_eq_mul]; ring
    have m1 : meanVelocity ts (fun k => ys.getD k 0) (n + 1) = (ys.getD (n + 2) 0 - ys.getD (n + 1) 0) / d1 := by
      rw [meanVelocity, ← e1, smul_eq_mul]; ring
    rw [Nat.add_sub_cancel, m0, m1]
    simp only [gradAt, if_neg (Nat.succ_ne_zero n), if_neg (show ¬ n + 1 + 1 = ts.length by omega), Nat.add_sub_cancel, smul_eq_mul]
    split
    · rename_i hu
      have u1 := hu n (by omega)
      have u2 := hu (n + 1) (by omega)
      rw [← u1, ← e0]
      have : d1 = d0 := by rw [e0, e1]; linarith
      rw [this]
      field_simp
      ring
    · rw [← e0, ← e1]
      field_simp
      ring

theorem isEstimate_congr {V : Type} [AddCommGroup V] [Module ℝ V] {ts : List ℝ} {x y : ℕ → V} {k : ℕ} {w : V} (hk : k < ts.length) (h2 : 2 ≤ ts.length)
    (h : ∀ j, j < ts.length → k ≤ j + 1 → j ≤ k + 1 → x j = y j) (hw : IsEstimate ts x k w) : IsEstimate ts y k w := by
  refine ⟨fun h0 => ?_, fun h1 => ?_, fun h0 h1 d0 d1 e0 e1 => ?_⟩
  · rw [hw.first h0, meanVelocity, meanVelocity, h 0 (by omega) (by omega) (by omega), h (0 + 1) (by omega) (by omega) (by omega)]
  · rw [hw.last h1, meanVelocity, meanVelocity, h (k - 1) (by omega) (by omega) (by omega), h (k - 1 + 1) (by omega) (by omega) (by omega)]
  · rw [hw.inner h0 h1 d0 d1 e0 e1]
    simp only [meanVelocity]
    rw [h (k - 1) (by omega) (by omega) (by omega), h (k - 1 + 1) (by omega) (by omega) (by omega), h k (by omega) (by omega) (by omega),
      h (k + 1) (by omega) (by omega) (by omega)]

theorem isEstimate_unique {V : Type} [AddCommGroup V] [Module ℝ V] {ts : List ℝ} {x : ℕ → V} {k : ℕ} {w w' : V} (hk : k < ts.length)
    (hw : IsEstimate ts x k w) (hw' : IsEstimate ts x k w') : w = w' := by
  rcases Nat.eq_zero_or_pos k with h0 | h0
  · rw [hw.first h0, hw'.first h0]
  · rcases Nat.lt_or_ge (k + 1) ts.length with h1 | h1
    · rw [hw.inner h0 h1 _ _ rfl rfl, hw'.inner h0 h1 _ _ rfl rfl]
    · rw [hw.last (by omega), hw'.last (by omega)]

theorem meanVelocity_comb {V : Type} [AddCommGroup V] [Module ℝ V] (ts : List ℝ) (x y : ℕ → V) (c d : ℝ) (j : ℕ) :
    meanVelocity ts (fun k => c • x k + d • y k) j = c • meanVelocity ts x j + d • meanVelocity ts y j := by
  simp only [meanVelocity]
  rw [smul_comm c, smul_comm d, ← smul_add]
  congr 1
  rw [smul_sub, smul_sub]
  abel

theorem isEstimate_comb {V : Type} [AddCommGroup V] [Module ℝ V] {ts : List ℝ} {x y : ℕ → V} {k : ℕ} {w w' : V} (c d : ℝ)
    (hw : IsEstimate ts x k w) (hw' : IsEstimate ts y k w') : IsEstimate ts (fun k => c • x k + d • y k) k (c • w + d • w') := by
  refine ⟨fun h0 => ?_, fun h1 => ?_, fun h0 h1 d0 d1 e0 e1 => ?_⟩
  · rw [hw.first h0, hw'.first h0, meanVelocity_comb]
  · rw [hw.last h1, hw'.last h1, meanVelocity_comb]
  · rw [hw.inner h0 h1 d0 d1 e0 e1, hw'.inner h0 h1 d0 d1 e0 e1, meanVelocity_comb, meanVelocity_comb]
    module

/-- An estimate is a convex combination of the mean velocities of the adjacent intervals. -/
theorem isEstimate_convex {V : Type} [AddCommGroup V] [Module ℝ V] {ts : List ℝ} (hs : StrictlyIncreasing ts) (h2 : 2 ≤ ts.length) {x : ℕ → V} {k : ℕ} {w : V}
    (hk : k < ts.length) (hw : IsEstimate ts x k w) : ∃ i j, i + 1 < ts.length ∧ j + 1 < ts.length ∧ i ≤ k ∧ k ≤ i + 1 ∧ j ≤ k ∧ k ≤ j + 1 ∧
      ∃ l : ℝ, 0 ≤ l ∧ l ≤ 1 ∧ w = (1 - l) • meanVelocity ts x i + l • meanVelocity ts x j := by
  rcases Nat.eq_zero_or_pos k with h0 | h0
  · refine ⟨0, 0, by omega, by omega, by omega, by omega, by omega, by omega, 0, le_refl _, zero_le_one, ?_⟩
    rw [hw.first h0]; simp
  · rcases Nat.lt_or_ge (k + 1) ts.length with h1 | h1
    · have q1 : ts.getD (k - 1) 0 < ts.getD k 0 := strictlyIncreasing_getD hs (by omega) (by omega)
      have q2 : ts.getD k 0 < ts.getD (k + 1) 0 := strictlyIncreasing_getD hs (by omega) (by omega)
      have p1 : 0 < ts.getD k 0 - ts.getD (k - 1) 0 := by linarith
      have p2 : 0 < ts.getD (k + 1) 0 - ts.getD k 0 := by linarith
      have h := hw.inner h0 h1 _ _ rfl rfl
      generalize ts.getD k 0 - ts.getD (k - 1) 0 = a at *
      generalize ts.getD (k + 1) 0 - ts.getD k 0 = b at *
      refine ⟨k - 1, k, by omega, by omega, by omega, by omega, by omega, by omega, a / (a + b), by positivity, ?_, ?_⟩
      · rw [div_le_one (by linarith)]; linarith
      · rw [h]
        congr 2
        field_simp
        ring
    · refine ⟨k - 1, k - 1, by omega, by omega, by omega, by omega, by omega, by omega, 0, le_refl _, zero_le_one, ?_⟩
      rw [hw.last (by omega)]; simp

end RBM
