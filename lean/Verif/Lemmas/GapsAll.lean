import Verif.Spec.GapsAll
import Verif.Lemmas.GapsLookup
import Verif.Lemmas.GapsTransform
import Verif.Lemmas.AxisSame
import Verif.Lemmas.BroadcastAll

/-!
The functions on arrays with missing entries respect the relation "every number is that of the completion" (and, with `full`, "and no number
is missing").
-/

namespace RBM

open Matrix Spec

/-- `g` is missing or is `a`; with `full` it is `a`. -/
def Fit {α : Type} (full : Bool) (g : Option α) (a : α) : Prop := (∀ x, g = some x → a = x) ∧ (full = true → g ≠ none)

theorem fit_some {α : Type} (full : Bool) (a : α) : Fit full (some a) a := ⟨(fun x h => by cases h; rfl), (fun _ h => by cases h)⟩

theorem fit_none {α : Type} {full : Bool} {a : α} (h : Fit full none a) : full = false := by
  cases full with
  | false => rfl
  | true => exact absurd rfl (h.2 rfl)

theorem fit_of_false {α : Type} {full : Bool} (h : full = false) (a : α) : Fit full none a :=
  ⟨(fun x h => by cases h), (fun h' => by rw [h] at h'; cases h')⟩

theorem fit_map {α β : Type} {full : Bool} (f : α → β) {g : Option α} {a : α} (h : Fit full g a) : Fit full (g.map f) (f a) := by
  cases g with
  | none => exact fit_of_false (fit_none h) _
  | some x => cases h.1 x rfl; exact fit_some full _

theorem fit_nan2 {full : Bool} (f : ℝ → ℝ → ℝ) {x y : Option ℝ} {x' y' : ℝ} (hx : Fit full x x') (hy : Fit full y y') :
    Fit full (nan2 f x y) (f x' y') := by
  cases x with
  | none => rw [nan2_none_left]; exact fit_of_false (fit_none hx) _
  | some x => cases y with
    | none => rw [nan2_none_right]; exact fit_of_false (fit_none hy) _
    | some y => cases hx.1 x rfl; cases hy.1 y rfl; exact fit_some full _

theorem fit_mul {full : Bool} {x y : Option Quat} {x' y' : Quat} (hx : Fit full x x') (hy : Fit full y y') : Fit full (mulGaps x y) (x' * y') := by
  cases x with
  | none => exact fit_of_false (fit_none hx) _
  | some x => cases y with
    | none => exact fit_of_false (fit_none hy) _
    | some y => cases hx.1 x rfl; cases hy.1 y rfl; exact fit_some full _

theorem fit_quat {full : Bool} {w x y z : Option ℝ} {w' x' y' z' : ℝ} (hw : Fit full w w') (hx : Fit full x x') (hy : Fit full y y')
    (hz : Fit full z z') : Fit full (quatGaps w x y z) (⟨w', x', y', z'⟩ : Quat) := by
  cases w with
  | none => exact fit_of_false (fit_none hw) _
  | some w => cases x with
    | none => exact fit_of_false (fit_none hx) _
    | some x => cases y with
      | none => exact fit_of_false (fit_none hy) _
      | some y => cases z with
        | none => exact fit_of_false (fit_none hz) _
        | some z => cases hw.1 w rfl; cases hx.1 x rfl; cases hy.1 y rfl; cases hz.1 z rfl; exact fit_some full _

theorem fit_cross {full : Bool} {r v : Fin 3 → Option ℝ} {r' v' : Vec} (hr : ∀ k, Fit full (r k) (r' k)) (hv : ∀ k, Fit full (v k) (v' k)) (k : Fin 3) :
    Fit full (crossNan2 r v k) ((r' ⨯₃ v') k) := by
  have e : (r' ⨯₃ v') k = r' (k + 1) * v' (k + 2) - r' (k + 2) * v' (k + 1) := by
    rw [cross_apply]; fin_cases k <;> rfl
  rw [e]
  exact fit_nan2 _ (fit_nan2 _ (hr _) (hv _)) (fit_nan2 _ (hr _) (hv _))

theorem fit_mulVec {full : Bool} (m : Matrix (Fin 3) (Fin 3) ℝ) {v : Fin 3 → Option ℝ} {v' : Vec} (hv : ∀ k, Fit full (v k) (v' k)) (k : Fin 3) :
    Fit full (mulVecNan m v k) ((m *ᵥ v') k) := by
  have e : (m *ᵥ v') k = m k 0 * v' 0 + m k 1 * v' 1 + m k 2 * v' 2 := by
    simp only [Matrix.mulVec, dotProduct, Fin.sum_univ_three]
  rw [e]
  exact fit_nan2 _ (fit_nan2 _ (fit_map _ (hv 0)) (fit_map _ (hv 1))) (fit_map _ (hv 2))

/-! ### arrays -/

/-- Arrays of the same shape, related entry by entry. -/
def NDRel {α β : Type} (R : α → β → Prop) (a : ND α) (b : ND β) : Prop := a.shape = b.shape ∧ ∀ idx, Valid a.shape idx → R (a.get idx) (b.get idx)

section

variable {α β α' β' γ γ' : Type} {R : α → α' → Prop} {S : β → β' → Prop} {T : γ → γ' → Prop}

theorem NDRel.ndim {a : ND α} {b : ND α'} (h : NDRel R a b) : a.ndim = b.ndim := by simp only [ND.ndim, h.1]

theorem rel_map {a : ND α} {b : ND α'} (h : NDRel R a b) {f : α → γ} {g : α' → γ'} (hf : ∀ x y, R x y → T (f x) (g y)) : NDRel T (a.map f) (b.map g) :=
  ⟨h.1, fun idx hv => hf _ _ (h.2 idx hv)⟩

theorem rel_swapaxesZ {a : ND α} {b c' : ND α'} (h : NDRel R a b) {i j : ℤ} (e : b.swapaxesZ i j = .ok c') :
    ∃ c, a.swapaxesZ i j = .ok c ∧ NDRel R c c' := by
  simp only [ND.swapaxesZ, h.ndim] at e ⊢
  cases hi : normAxis i b.ndim with
  | none => rw [hi] at e; cases e
  | some i => cases hj : normAxis j b.ndim with
    | none => rw [hi, hj] at e; cases e
    | some j =>
      rw [hi, hj] at e
      cases e
      refine ⟨_, rfl, by simp only [ND.swapaxes, h.1], fun idx hv => ?_⟩
      have h1 : i < a.shape.length := by have := normAxis_lt hi; rw [← h.ndim] at this; exact this
      have h2 : j < a.shape.length := by have := normAxis_lt hj; rw [← h.ndim] at this; exact this
      exact h.2 _ ((valid_swapL_iff h1 h2).mp hv)

theorem bshapeEq_bcast {s t r : List ℕ} (h : ND.bshapeEq s t = some r) : Bcast s r ∧ Bcast t r := by
  induction s generalizing t r with
  | nil => cases t with
    | nil => cases h; exact ⟨.nil, .nil⟩
    | cons b t => simp [ND.bshapeEq] at h
  | cons a s ih => cases t with
    | nil => simp [ND.bshapeEq] at h
    | cons b t =>
      simp only [ND.bshapeEq] at h
      cases e : ND.bshapeEq s t with
      | none => rw [e] at h; cases h
      | some u =>
        rw [e] at h
        simp only at h
        obtain ⟨h1, h2⟩ := ih e
        split_ifs at h with c1 c2 c3
        · cases h; exact ⟨.cons (.inl rfl) h1, .cons (.inl c1.symm) h2⟩
        · cases h; exact ⟨.cons (.inr c2) h1, .cons (.inl rfl) h2⟩
        · cases h; exact ⟨.cons (.inl rfl) h1, .cons (.inr c3) h2⟩

theorem valid_drop {sh idx : List ℕ} (h : Valid sh idx) (k : ℕ) : Valid (sh.drop k) (idx.drop k) :=
  valid_iff_forall₂.mpr (List.forall₂_drop k (valid_iff_forall₂.mp h))

theorem bshape_valid {s t r idx : List ℕ} (h : ND.bshape s t = some r) (hv : Valid r idx) :
    Valid s (ND.bidx s (idx.drop (idx.length - s.length))) ∧ Valid t (ND.bidx t (idx.drop (idx.length - t.length))) := by
  have hl := bshape_length h
  have hi := hv.length
  obtain ⟨h1, h2⟩ := bshapeEq_bcast h
  have h1 := fit_drop (n := 0) h1
  have h2 := fit_drop (n := 0) h2
  rw [show idx.length - s.length = t.length - s.length by omega, show idx.length - t.length = s.length - t.length by omega]
  exact ⟨valid_bidx h1 (valid_drop hv _), valid_bidx h2 (valid_drop hv _)⟩

theorem rel_bop {f : α → β → γ} {g : α' → β' → γ'} (hf : ∀ a a' b b', R a a' → S b b' → T (f a b) (g a' b')) {a : ND α} {a' : ND α'} {b : ND β}
    {b' : ND β'} (ha : NDRel R a a') (hb : NDRel S b b') {c' : ND γ'} (e : ND.bop g a' b' = .ok c') : ∃ c, ND.bop f a b = .ok c ∧ NDRel T c c' := by
  simp only [ND.bop, ← ha.1, ← hb.1] at e ⊢
  cases hs : ND.bshape a.shape b.shape with
  | none => rw [hs] at e; cases e
  | some sh =>
    rw [hs] at e
    cases e
    refine ⟨_, rfl, rfl, fun idx hv => ?_⟩
    obtain ⟨h1, h2⟩ := bshape_valid hs hv
    have e1 := ha.2 _ h1
    have e2 := hb.2 _ h2
    simp only [ND.bget, ND.ndim, ← ha.1, ← hb.1]
    exact hf _ _ _ _ e1 e2

theorem valid_insertIdx {sh idx : List ℕ} {p n k : ℕ} (h : Valid sh idx) (hk : k < n) : Valid (sh.insertIdx p n) (idx.insertIdx p k) := by
  induction sh generalizing idx p with
  | nil =>
    cases idx with
    | cons => simp [Valid] at h
    | nil => cases p with
      | zero => exact ⟨hk, trivial⟩
      | succ p => simp [Valid]
  | cons m sh ih =>
    cases idx with
    | nil => simp [Valid] at h
    | cons i idx =>
      cases p with
      | zero => exact ⟨hk, h⟩
      | succ p => exact ⟨h.1, ih h.2⟩

theorem eraseIdx_insertIdx' (l : List ℕ) (p k : ℕ) (hp : p ≤ l.length) : (l.insertIdx p k).eraseIdx p = l := by
  induction l generalizing p with
  | nil => simp at hp; subst hp; rfl
  | cons a l ih => cases p with
    | zero => rfl
    | succ p => simp at hp; simp [ih p hp]

theorem getD_insertIdx (l : List ℕ) (p k : ℕ) (hp : p ≤ l.length) : (l.insertIdx p k).getD p 0 = k := by
  induction l generalizing p with
  | nil => simp at hp; subst hp; rfl
  | cons a l ih => cases p with
    | zero => rfl
    | succ p => simp at hp; simpa using ih p hp

theorem valid_moveL {sh idx : List ℕ} {i j : ℕ} (hi : i < sh.length) (hj : j < sh.length) (hv : Valid (moveL i j sh) idx) : Valid sh (moveL j i idx) := by
  have hl : (moveL i j sh).length = sh.length := moveL_length hi hj
  have hle : j ≤ (sh.eraseIdx i).length := by rw [List.length_eraseIdx_of_lt hi]; omega
  obtain ⟨h1, h2⟩ := valid_eraseIdx (p := j) (by omega) hv
  simp only [moveL] at h1 h2
  rw [eraseIdx_insertIdx' _ _ _ hle] at h1
  rw [getD_insertIdx _ _ _ hle] at h2
  have h3 := valid_insertIdx (p := i) h1 h2
  rw [insertIdx_eraseIdx hi] at h3
  rw [show sh.set i (sh.getD i 0) = sh by
    rw [List.getD_eq_getElem?_getD, List.getElem?_eq_getElem hi]; simp] at h3
  exact h3

theorem rel_moveaxis {a : ND α} {a' : ND α'} (h : NDRel R a a') {i j : ℕ} (hi : i < a.ndim) (hj : j < a.ndim) :
    NDRel R (a.moveaxis i j) (a'.moveaxis i j) :=
  ⟨by simp only [ND.moveaxis, h.1], fun _ hv => h.2 _ (valid_moveL hi hj hv)⟩

theorem rel_expandDims1 {a : ND α} {a' : ND α'} (h : NDRel R a a') (h1 : 1 ≤ a.ndim) : NDRel R a.expandDims1 a'.expandDims1 := by
  refine ⟨by simp only [ND.expandDims1, h.1], fun idx hv => h.2 _ ?_⟩
  have hl : 1 ≤ a.shape.length := h1
  obtain ⟨h2, _⟩ := valid_eraseIdx (p := 1) (by
    show 1 < (a.shape.insertIdx 1 1).length
    rw [List.length_insertIdx_of_le_length hl]; omega) hv
  simp only [ND.expandDims1] at h2
  rwa [eraseIdx_insertIdx' _ _ _ hl] at h2

theorem rel_expandSingleton {a : ND α} {a' : ND α'} (h : NDRel R a a') (n : ℕ) : NDRel R (expandSingletonAxes a n) (expandSingletonAxes a' n) := by
  simp only [expandSingletonAxes, h.ndim]
  by_cases h1 : a'.ndim > 1
  · rw [if_pos h1, if_pos h1]
    have h2 : 1 ≤ a.ndim := by rw [h.ndim]; omega
    clear h1
    generalize n - 2 = k
    induction k generalizing a a' with
    | zero => exact h
    | succ k ih =>
      simp only [Function.iterate_succ, Function.comp]
      refine ih (rel_expandDims1 h h2) ?_
      simp only [ND.ndim, ND.expandDims1]
      rw [List.length_insertIdx_of_le_length h2]; omega
  · rw [if_neg h1, if_neg h1]; exact h

theorem rel_tile {a : ND α} {a' : ND α'} (h : NDRel R a a') (n : ℕ) : NDRel R (a.tileN1 n) (a'.tileN1 n) := by
  obtain ⟨sh, f⟩ := a
  obtain ⟨sh', g⟩ := a'
  obtain ⟨h1, h2⟩ := h
  simp only at h1 h2
  subst h1
  match sh, h2 with
  | [], h2 => exact ⟨rfl, fun _ _ => h2 [] trivial⟩
  | [k], h2 =>
    refine ⟨rfl, fun idx hv => h2 _ ?_⟩
    match idx, hv with
    | [_, _], hv => exact hv.2
  | x :: y :: sh, h2 =>
    refine ⟨rfl, fun idx hv => h2 _ ?_⟩
    simp only [ND.tileN1] at hv
    set p := (x :: y :: sh).length - 2 with hp
    have hpl : p < (x :: y :: sh).length := by simp [hp]
    obtain ⟨hl, hv⟩ := valid_iff.mp hv
    have hl' : idx.length = (x :: y :: sh).length := by simpa using hl
    have h0 := hv p (by simpa using hpl)
    rw [List.getD_eq_getElem?_getD (l := (x :: y :: sh).set p _), List.getElem?_set_self hpl, Option.getD_some] at h0
    have hpos : 0 < (x :: y :: sh).getD p 0 := by
      rcases Nat.eq_zero_or_pos ((x :: y :: sh).getD p 0) with h | h
      · rw [h] at h0; simp at h0
      · exact h
    refine valid_iff.mpr ⟨by simpa using hl', fun k hk => ?_⟩
    by_cases hkp : p = k
    · subst hkp
      rw [List.getD_eq_getElem?_getD (l := idx.set p _), List.getElem?_set_self (by omega), Option.getD_some]
      exact Nat.mod_lt _ hpos
    · rw [List.getD_eq_getElem?_getD (l := idx.set p _), List.getElem?_set_ne hkp, ← List.getD_eq_getElem?_getD]
      have := hv k (by simpa using hk)
      rw [List.getD_eq_getElem?_getD (l := (x :: y :: sh).set p _), List.getElem?_set_ne hkp, ← List.getD_eq_getElem?_getD] at this
      exact this

end

end RBM
