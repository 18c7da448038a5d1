import Verif.Lemmas.VelMatch
import Verif.Spec.Stacks

namespace RBM

open Spec

/-- `_match_arrays` where the first array is timestamped and has any number of axes, and the others are series of vectors. -/
theorem matchArrays_first (sq : SquadFn) {A : ND ℝ} {y : List ℝ} {rest : List ℕ} (hA : A.shape = y.length :: rest) (h4 : (y.length :: rest).getLast? ≠ some 4)
    (h2 : 2 ≤ y.length) (hinc : StrictlyIncreasing y) {l : List MArray} (h : ∀ a ∈ l, IsSeries a.data a.timestamps) {ots : List ℝ}
    (hots : sharedStamps (some y :: l.map (·.timestamps)) = some ots) :
    ∃ X outs, matchArrays sq (⟨A, some y⟩ :: l) = .ok (X :: outs, some ots) ∧ X.shape = ots.length :: rest ∧
      (∀ (i k : ℕ) (τ : ℝ) (r : List ℕ), ots[i]? = some τ → y[k]? = some τ → X.get (i :: r) = A.get (k :: r)) ∧
      List.Forall₂ (fun (a : MArray) (R : ND ℝ) => R.shape = [ots.length, 3] ∧
        ∀ (i : ℕ) τ, ots[i]? = some τ → ValueAt a.data a.timestamps τ (vec3 R 1 [i, 0])) l outs := by
  classical
  have hfm : (l.map (·.timestamps)).filterMap id = l.filterMap (·.timestamps) := by rw [List.filterMap_map]; rfl
  have hots' : ots = commonStamps y (y :: l.filterMap (·.timestamps)) := by
    simp only [sharedStamps, List.filterMap_cons_some (show id (some y) = some y from rfl), Option.some.injEq, hfm] at hots
    exact hots.symm
  have hadd : addArrays (⟨A, some y⟩ :: l) Matcher.empty = .ok ⟨[], ⟨A, some y⟩ :: l⟩ := by
    have : Matcher.empty.addArray ⟨A, some y⟩ = .ok ⟨[], [⟨A, some y⟩]⟩ := by
      simp [Matcher.addArray, hA, checkTimestamps_ok hinc.nonDecreasing rfl, Matcher.empty]
    rw [addArrays, this]
    simp only
    rw [addArrays_all h]
    simp
  have hcont : (⟨[], ⟨A, some y⟩ :: l⟩ : Matcher).continuous = y :: l.filterMap (·.timestamps) := by simp [Matcher.continuous]
  have hcne : ∀ c ∈ (⟨[], ⟨A, some y⟩ :: l⟩ : Matcher).continuous, c ≠ [] := by
    intro c hc hc0
    rw [hcont, List.mem_cons] at hc
    rcases hc with e | hc
    · rw [← e, hc0] at h2; simp at h2
    · obtain ⟨a, ha, e⟩ := List.mem_filterMap.mp hc
      have := h a ha
      rw [e, hc0] at this; have := this.2.1; simp at this
  have hts : (⟨[], ⟨A, some y⟩ :: l⟩ : Matcher).getTimestamps true = .ok (some ots) := by
    have hel : (⟨[], ⟨A, some y⟩ :: l⟩ : Matcher).elements true = y :: l.filterMap (·.timestamps) := by simp [Matcher.elements]
    rcases getTimestamps_spec ⟨[], ⟨A, some y⟩ :: l⟩ true hcne with ⟨c, cs, ts, e1, e2, _, e3⟩ | ⟨e, _⟩ | ⟨e, _⟩
    · have e1' := hel.symm.trans e1
      rw [List.cons.injEq] at e1'
      obtain ⟨rfl, rfl⟩ := e1'
      rw [e2, hots']
      congr 2
      have := e3 (fun t => ∀ c' ∈ y :: l.filterMap (·.timestamps), InRange c' t) (fun t => by rw [hcont])
      rw [this, commonStamps]
      congr 1; funext t; congr
    · rw [hcont] at e; cases e
    · rw [hcont] at e; cases e
  have hsub : ∀ τ ∈ ots, τ ∈ y := by
    intro τ hτ; rw [hots'] at hτ; exact (List.mem_filter.mp hτ).1
  have hin : ∀ a ∈ l, ∀ z, a.timestamps = some z → ∀ τ ∈ ots, InRange z τ := by
    intro a ha z hz τ hτ
    rw [hots'] at hτ
    simp only [commonStamps, List.mem_filter, decide_eq_true_eq] at hτ
    exact hτ.2 z (List.mem_cons_of_mem _ (List.mem_filterMap.mpr ⟨a, ha, hz⟩))
  obtain ⟨X, x1, x2, x3⟩ := resample_knots sq A hA h4 rfl h2 hinc hsub
  obtain ⟨outs, o1, o2⟩ := collect_forall₂ (f := fun a => resampleArray sq a (some ots))
    (P := fun (a : MArray) (R : ND ℝ) => R.shape = [ots.length, 3] ∧
        ∀ (i : ℕ) τ, ots[i]? = some τ → ValueAt a.data a.timestamps τ (vec3 R 1 [i, 0])) (l := l)
    (fun a ha => by
      obtain ⟨R, r1, r2, r3⟩ := resample_series sq (h a ha) (hin a ha)
      exact ⟨R, r1, r2, r3⟩)
  refine ⟨X, outs, ?_, x2, x3, o2⟩
  simp only [matchArrays, hadd, bind, Except.bind, Matcher.getArrays, hts, List.map_cons, collect, x1, o1, Pure.pure, Except.pure]

/-- numpy broadcasting of `(K, m, 3)` with `(K, 3)`. -/
theorem bshape_stack (K m : ℕ) : ND.bshape [K, m, 3] [K, 3] =
    if m = K then some [K, K, 3] else if m = 1 then some [K, K, 3] else if K = 1 then some [K, m, 3] else none := by
  simp only [ND.bshape, ND.padShape, ND.bshapeEq, List.length_cons, List.length_nil, List.replicate, List.nil_append, List.cons_append,
    Nat.reduceAdd, Nat.reduceSub, if_true]
  by_cases h1 : m = K
  · subst h1; simp; omega
  · by_cases h2 : m = 1
    · subst h2
      by_cases h3 : K = 1
      · simp [h3]
      · simp [h1, h3]
    · by_cases h3 : K = 1
      · simp [h1, h2, h3]
      · simp [h1, h2, h3]

end RBM
