import Verif.Spec.Motion
import Verif.Lemmas.Rigid
import Mathlib.Tactic.Linarith

namespace RBM

open Spec

theorem lt_searchLeft_iff {xs : List ℝ} (h : NonDecreasing xs) (τ : ℝ) {i : ℕ} (hi : i < xs.length) :
    i < searchLeft xs τ ↔ xs.getD i 0 < τ := by
  induction xs generalizing i with
  | nil => simp at hi
  | cons x xs ih =>
    have hp := List.pairwise_cons.mp h
    by_cases hx : x < τ
    · have hs : searchLeft (x :: xs) τ = searchLeft xs τ + 1 := by simp [searchLeft, hx]
      rw [hs]
      cases i with
      | zero => simp [hx]
      | succ i =>
        have := ih hp.2 (i := i) (by simpa using hi)
        simpa using this
    · have hs : searchLeft (x :: xs) τ = 0 := by
        simp only [searchLeft, List.length_eq_zero_iff, List.filter_eq_nil_iff]
        intro a ha
        rcases List.mem_cons.mp ha with rfl | ha
        · simpa using hx
        · have := hp.1 a ha
          simp; linarith [not_lt.mp hx]
      rw [hs]
      simp only [Nat.not_lt_zero, false_iff, not_lt]
      cases i with
      | zero => simpa using hx
      | succ i =>
        have hi' : i < xs.length := by simpa using hi
        have := hp.1 xs[i] (List.getElem_mem hi')
        simp [hi']
        linarith [not_lt.mp hx]

theorem searchLeft_le (xs : List ℝ) (τ : ℝ) : searchLeft xs τ ≤ xs.length := by
  simp only [searchLeft]; exact List.length_filter_le _ _

theorem getD_eq {α} {l : List α} {i : ℕ} (h : i < l.length) (d : α) : l.getD i d = l[i] := by
  simp [h]

theorem Spec.StrictlyIncreasing.nonDecreasing {xs : List ℝ} (h : StrictlyIncreasing xs) :
    NonDecreasing xs := h.imp le_of_lt

theorem strictlyIncreasing_getD {xs : List ℝ} (h : StrictlyIncreasing xs) {i j : ℕ} (hij : i < j)
    (hj : j < xs.length) : xs.getD i 0 < xs.getD j 0 := by
  rw [getD_eq hj, getD_eq (by omega)]
  exact List.pairwise_iff_getElem.mp h i j (by omega) hj hij

theorem nonDecreasing_getD {xs : List ℝ} (h : NonDecreasing xs) {i j : ℕ} (hij : i ≤ j)
    (hj : j < xs.length) : xs.getD i 0 ≤ xs.getD j 0 := by
  rcases Nat.lt_or_eq_of_le hij with hij | rfl
  · rw [getD_eq hj, getD_eq (by omega)]
    exact List.pairwise_iff_getElem.mp h i j (by omega) hj hij
  · exact le_refl _

/-- In range and with strictly increasing times, the bracket is a pair of neighbours around τ. -/
theorem interpLoc_spec {xs : List ℝ} (hs : StrictlyIncreasing xs) (hl : 2 ≤ xs.length) {τ : ℝ}
    (h0 : xs.getD 0 0 ≤ τ) (h1 : τ ≤ xs.getD (xs.length - 1) 0) :
    ∃ lo, interpLoc xs τ = .ok (lo, lo + 1) ∧ lo + 1 < xs.length ∧ xs.getD lo 0 ≤ τ ∧
      τ ≤ xs.getD (lo + 1) 0 ∧ xs.getD lo 0 < xs.getD (lo + 1) 0 := by
  have hn := hs.nonDecreasing
  set c := searchLeft xs τ with hc
  have hcl : c < xs.length := by
    by_contra hcc
    have := (lt_searchLeft_iff hn τ (i := xs.length - 1) (by omega)).mp (by omega)
    linarith
  -- hi = max c 1
  set hi := max c 1 with hhi
  have hhi2 : min (max c 1) (xs.length - 1) = hi := by omega
  have hne : hi ≠ 0 := by omega
  refine ⟨hi - 1, ?_, by omega, ?_, ?_, ?_⟩
  · have e : hi - 1 + 1 = hi := by omega
    have hlt : xs.getD (hi - 1) 0 < xs.getD hi 0 :=
      strictlyIncreasing_getD hs (by omega) (by omega)
    simp only [interpLoc]
    rw [if_neg (by omega), if_neg (by push Not; exact ⟨h0, h1⟩), ← hc, hhi2, if_neg hne,
      if_neg hlt.ne', e]
  · by_cases hc0 : c = 0
    · have : hi - 1 = 0 := by omega
      rw [this]; exact h0
    · have : hi - 1 < c := by omega
      exact le_of_lt ((lt_searchLeft_iff hn τ (by omega)).mp this)
  · have e : hi - 1 + 1 = hi := by omega
    rw [e]
    have : ¬ hi < c := by omega
    exact not_lt.mp (fun h => this ((lt_searchLeft_iff hn τ (by omega)).mpr h))
  · exact strictlyIncreasing_getD hs (by omega) (by omega)

theorem interpVal_eq {V} [AddCommGroup V] [Module ℝ V] (xs : List ℝ) (ys : List V) (τ : ℝ) (lo : ℕ) :
    interpVal xs ys τ (lo, lo + 1) =
      (1 - (τ - xs.getD lo 0) / (xs.getD (lo + 1) 0 - xs.getD lo 0)) • ys.getD lo 0 +
        ((τ - xs.getD lo 0) / (xs.getD (lo + 1) 0 - xs.getD lo 0)) • ys.getD (lo + 1) 0 := by
  simp only [interpVal, sub_smul, one_smul, smul_sub, smul_smul, div_eq_mul_inv, one_mul]
  abel

theorem interpAt_spec {V} [AddCommGroup V] [Module ℝ V] {xs : List ℝ} {ys : List V}
    (hs : StrictlyIncreasing xs) (hl : 2 ≤ xs.length) (hly : ys.length = xs.length) {τ : ℝ}
    (h0 : xs.getD 0 0 ≤ τ) (h1 : τ ≤ xs.getD (xs.length - 1) 0) :
    ∃ v, interpAt xs ys τ = .ok v ∧ IsLinInterp xs ys τ v := by
  obtain ⟨lo, e, hlo, a, b, c⟩ := interpLoc_spec hs hl h0 h1
  refine ⟨interpVal xs ys τ (lo, lo + 1), by simp [interpAt, hly, e], lo, xs.getD lo 0,
    xs.getD (lo + 1) 0, ys.getD lo 0, ys.getD (lo + 1) 0, ?_, ?_, ?_, ?_, c, a, b,
    interpVal_eq xs ys τ lo⟩
  · rw [getD_eq (by omega)]; exact List.getElem?_eq_getElem _
  · rw [getD_eq (by omega)]; exact List.getElem?_eq_getElem _
  · rw [getD_eq (by omega)]; exact List.getElem?_eq_getElem _
  · rw [getD_eq (by omega)]; exact List.getElem?_eq_getElem _

theorem Spec.IsLinInterp.knot {V} [AddCommGroup V] [Module ℝ V] {xs : List ℝ} {ys : List V}
    (hs : StrictlyIncreasing xs) {τ : ℝ} {v y : V} (h : IsLinInterp xs ys τ v) {k : ℕ}
    (hk : xs[k]? = some τ) (hy : ys[k]? = some y) : v = y := by
  obtain ⟨j, x0, x1, y0, y1, e0, e1, f0, f1, hlt, hle0, hle1, rfl⟩ := h
  obtain ⟨hkl, hkv⟩ := List.getElem?_eq_some_iff.mp hk
  obtain ⟨hjl, hjv⟩ := List.getElem?_eq_some_iff.mp e0
  obtain ⟨hj1l, hj1v⟩ := List.getElem?_eq_some_iff.mp e1
  have hmono := List.pairwise_iff_getElem.mp hs
  have hjk : j ≤ k := by
    by_contra hc
    have := hmono k j hkl hjl (by omega)
    rw [hkv, hjv] at this; linarith
  have hkj : k ≤ j + 1 := by
    by_contra hc
    have := hmono (j + 1) k hj1l hkl (by omega)
    rw [hkv, hj1v] at this; linarith
  rcases (by omega : k = j ∨ k = j + 1) with rfl | rfl
  · rw [hk] at e0; cases e0
    rw [hy] at f0; cases f0
    simp
  · rw [hk] at e1; cases e1
    rw [hy] at f1; cases f1
    have : (τ - x0) / (τ - x0) = 1 := div_self (by linarith)
    rw [this]; simp

/-- Linear interpolation over strictly increasing times is a function of the time. -/
theorem Spec.IsLinInterp.unique {V} [AddCommGroup V] [Module ℝ V] {xs : List ℝ} {ys : List V}
    (hs : StrictlyIncreasing xs) {τ : ℝ} {v v' : V} (h : IsLinInterp xs ys τ v)
    (h' : IsLinInterp xs ys τ v') : v = v' := by
  have H := h
  have H' := h'
  obtain ⟨j, x0, x1, y0, y1, e0, e1, f0, f1, hlt, hle0, hle1, hv⟩ := h
  obtain ⟨k, z0, z1, w0, w1, g0, g1, q0, q1, klt, kle0, kle1, hv'⟩ := h'
  have hmono := List.pairwise_iff_getElem.mp hs
  obtain ⟨a0, b0⟩ := List.getElem?_eq_some_iff.mp e0
  obtain ⟨a1, b1⟩ := List.getElem?_eq_some_iff.mp e1
  obtain ⟨c0, d0⟩ := List.getElem?_eq_some_iff.mp g0
  obtain ⟨c1, d1⟩ := List.getElem?_eq_some_iff.mp g1
  rcases Nat.lt_trichotomy j k with hjk | rfl | hjk
  · -- x1 ≤ z0, hence τ = x1 = z0
    have hle : x1 ≤ z0 := by
      rcases Nat.lt_or_eq_of_le (Nat.succ_le_of_lt hjk) with h2 | h2
      · have := hmono (j + 1) k a1 c0 h2; rw [b1, d0] at this; exact this.le
      · have : x1 = z0 := by rw [← b1, ← d0]; congr 1
        exact this.le
    have hτ : τ = x1 := le_antisymm hle1 (by linarith)
    have hz : z0 = τ := le_antisymm kle0 (by linarith)
    have hk : k = j + 1 := by
      by_contra hc
      have := hmono (j + 1) k a1 c0 (by omega); rw [b1, d0] at this; linarith
    subst hk
    subst hz
    rw [H.knot hs g0 q0, H'.knot hs g0 q0]
  · rw [e0] at g0; cases g0
    rw [e1] at g1; cases g1
    rw [f0] at q0; cases q0
    rw [f1] at q1; cases q1
    rw [hv, hv']
  · have hle : z1 ≤ x0 := by
      rcases Nat.lt_or_eq_of_le (Nat.succ_le_of_lt hjk) with h2 | h2
      · have := hmono (k + 1) j c1 a0 h2; rw [d1, b0] at this; exact this.le
      · have : z1 = x0 := by rw [← d1, ← b0]; congr 1
        exact this.le
    have hτ : τ = z1 := le_antisymm kle1 (by linarith)
    have hz : x0 = τ := le_antisymm hle0 (by linarith)
    have hk : j = k + 1 := by
      by_contra hc
      have := hmono (k + 1) j c1 a0 (by omega); rw [d1, b0] at this; linarith
    subst hk
    subst hz
    rw [H.knot hs e0 f0, H'.knot hs e0 f0]

/-! ### discrete frames -/

/-- The row in force at one time, as computed by the overwriting loop. -/
noncomputable def holdAt {α} (rows : List α) (events : List ℝ) (r0 : α) (τ : ℝ) : α := by
  classical exact
  (List.zip rows events).foldl (fun o ev => if τ ≥ ev.2 then ev.1 else o) r0

theorem discreteRows_eq {α} (r0 : α) (rows : List α) (events ts : List ℝ) :
    discreteRows (r0 :: rows) events ts = .ok (ts.map (holdAt (r0 :: rows) events r0)) := by
  classical
  simp only [discreteRows]
  congr 1
  have : ∀ (z : List (α × ℝ)) (f : ℝ → α),
      z.foldl (fun out ev => List.zipWith (fun o τ => if τ ≥ ev.2 then ev.1 else o) out ts)
        (ts.map f) =
      ts.map (fun τ => z.foldl (fun o ev => if τ ≥ ev.2 then ev.1 else o) (f τ)) := by
    intro z
    induction z with
    | nil => intro f; simp
    | cons e z ih =>
      intro f
      simp only [List.foldl_cons]
      have hzip : List.zipWith (fun o τ => if τ ≥ e.2 then e.1 else o) (List.map f ts) ts =
          ts.map (fun τ => if τ ≥ e.2 then e.1 else f τ) := by
        rw [List.zipWith_map_left]
        induction ts with
        | nil => rfl
        | cons t ts ih2 => simp
      rw [hzip, ih]
  have h2 := this ((r0 :: rows).zip events) (fun _ => r0)
  simp only [List.map_const'] at h2
  rw [h2]
  rfl

theorem holdAt_spec {α} {rows : List α} {events : List ℝ} (hl : rows.length = events.length)
    (hs : NonDecreasing events) (hne : events ≠ []) {r0 : α} (hr0 : rows[0]? = some r0) (τ : ℝ) :
    ∃ k, IsCurrentEvent events τ k ∧ rows[k]? = some (holdAt rows events r0 τ) := by
  classical
  -- general statement for an accumulated prefix
  have key : ∀ (rows : List α) (events : List ℝ), rows.length = events.length →
      NonDecreasing events → ∀ r, 
      (∃ (k : ℕ) (e : ℝ), events[k]? = some e ∧ e ≤ τ ∧ (∀ (j : ℕ) e', k < j → events[j]? = some e' → τ < e') ∧
        rows[k]? = some (holdAt rows events r τ)) ∨
      ((∀ (j : ℕ) e', events[j]? = some e' → τ < e') ∧ holdAt rows events r τ = r) := by
    intro rows
    induction rows with
    | nil =>
      intro events hl _ r
      right
      have : events = [] := by simpa using hl.symm
      subst this
      simp [holdAt]
    | cons x rows ih =>
      intro events hl hs r
      cases events with
      | nil => simp at hl
      | cons e events =>
        have hp := List.pairwise_cons.mp hs
        have hstep : holdAt (x :: rows) (e :: events) r τ =
            holdAt rows events (if τ ≥ e then x else r) τ := by simp [holdAt]
        rw [hstep]
        rcases ih events (by simpa using hl) hp.2 (if τ ≥ e then x else r) with
          ⟨k, e', h1, h2, h3, h4⟩ | ⟨h1, h2⟩
        · left
          refine ⟨k + 1, e', by simpa using h1, h2, ?_, by simpa using h4⟩
          intro j e'' hj he
          cases j with
          | zero => omega
          | succ j => exact h3 j e'' (by omega) (by simpa using he)
        · by_cases hτ : τ ≥ e
          · left
            refine ⟨0, e, by simp, hτ, ?_, ?_⟩
            · intro j e'' hj he
              cases j with
              | zero => omega
              | succ j => exact h1 j e'' (by simpa using he)
            · rw [h2]; simp [hτ]
          · right
            refine ⟨?_, by rw [h2]; simp [hτ]⟩
            intro j e'' he
            cases j with
            | zero => simp at he; subst he; exact not_le.mp hτ
            | succ j => exact h1 j e'' (by simpa using he)
  rcases key rows events hl hs r0 with ⟨k, e, h1, h2, h3, h4⟩ | ⟨h1, h2⟩
  · exact ⟨k, .inl ⟨e, h1, h2, h3⟩, h4⟩
  · exact ⟨0, .inr ⟨rfl, hne, h1⟩, by rw [h2]; exact hr0⟩

theorem Spec.IsCurrentEvent.unique {events : List ℝ} {τ : ℝ} {k k' : ℕ}
    (h : IsCurrentEvent events τ k) (h' : IsCurrentEvent events τ k') : k = k' := by
  rcases h with ⟨e, h1, h2, h3⟩ | ⟨rfl, _, h3⟩ <;> rcases h' with ⟨e', g1, g2, g3⟩ | ⟨rfl, _, g3⟩
  · rcases Nat.lt_trichotomy k k' with hk | hk | hk
    · exact absurd (h3 k' e' hk g1) (not_lt.mpr g2)
    · exact hk
    · exact absurd (g3 k e hk h1) (not_lt.mpr h2)
  · exact absurd (g3 k e h1) (not_lt.mpr h2)
  · exact absurd (h3 k' e' g1) (not_lt.mpr g2)
  · rfl

end RBM
