import Verif.Model.Transform
import Mathlib.Data.List.Forall2
import Mathlib.Data.List.InsertIdx

namespace RBM

variable {α β γ : Type _}

/-! ### valid indices -/

theorem valid_iff_forall₂ {sh idx : List ℕ} : Valid sh idx ↔ List.Forall₂ (fun n i => i < n) sh idx := by
  induction sh generalizing idx with
  | nil => cases idx <;> simp [Valid]
  | cons n sh ih => cases idx <;> simp [Valid, ih]

theorem Valid.length {sh idx : List ℕ} (h : Valid sh idx) : idx.length = sh.length :=
  (valid_iff_forall₂.mp h).length_eq.symm

theorem valid_iff {sh idx : List ℕ} :
    Valid sh idx ↔ idx.length = sh.length ∧ ∀ k < sh.length, idx.getD k 0 < sh.getD k 0 := by
  induction sh generalizing idx with
  | nil => cases idx <;> simp [Valid]
  | cons n sh ih =>
    cases idx with
    | nil => simp [Valid]
    | cons i idx =>
      simp only [Valid, ih, List.length_cons, Nat.add_right_cancel_iff]
      constructor
      · rintro ⟨h1, h2, h3⟩
        refine ⟨h2, fun k hk => ?_⟩
        cases k with
        | zero => simpa using h1
        | succ k => simpa using h3 k (by omega)
      · rintro ⟨h2, h3⟩
        refine ⟨by simpa using h3 0 (by omega), h2, fun k hk => ?_⟩
        simpa using h3 (k + 1) (by omega)

theorem valid_append {s1 s2 i1 i2 : List ℕ} (hl : i1.length = s1.length) :
    Valid (s1 ++ s2) (i1 ++ i2) ↔ Valid s1 i1 ∧ Valid s2 i2 := by
  induction s1 generalizing i1 with
  | nil => simp at hl; subst hl; simp [Valid]
  | cons n s1 ih =>
    cases i1 with
    | nil => simp at hl
    | cons i i1 => simp [Valid, ih (by simpa using hl), and_assoc]

theorem valid_append_exists {s1 s2 idx : List ℕ} (h : Valid (s1 ++ s2) idx) :
    ∃ i1 i2, idx = i1 ++ i2 ∧ Valid s1 i1 ∧ Valid s2 i2 := by
  have hl := h.length
  rw [List.length_append] at hl
  refine ⟨idx.take s1.length, idx.drop s1.length, (List.take_append_drop _ _).symm, ?_⟩
  rw [← valid_append (by simp; omega), List.take_append_drop]
  exact h

theorem valid_snoc {sh idx : List ℕ} {n : ℕ} (h : Valid (sh ++ [n]) idx) :
    ∃ i k, idx = i ++ [k] ∧ Valid sh i ∧ k < n := by
  obtain ⟨i1, i2, rfl, h1, h2⟩ := valid_append_exists h
  match i2, h2 with
  | [k], h2 => exact ⟨i1, k, rfl, h1, h2.1⟩

theorem valid_snoc_mk {sh i : List ℕ} {n k : ℕ} (h : Valid sh i) (hk : k < n) : Valid (sh ++ [n]) (i ++ [k]) :=
  (valid_append h.length).mpr ⟨h, hk, trivial⟩

/-! ### swapping -/

@[simp] theorem swapL_length (i j : ℕ) (l : List ℕ) : (swapL i j l).length = l.length := by simp [swapL]

theorem swapL_getD {i j : ℕ} {l : List ℕ} (hi : i < l.length) (hj : j < l.length) (k : ℕ) :
    (swapL i j l).getD k 0 = if k = j then l.getD i 0 else if k = i then l.getD j 0 else l.getD k 0 := by
  simp only [swapL, List.getD_eq_getElem?_getD, List.getElem?_set]
  by_cases h1 : k = j
  · subst h1; simp [hj]
  · by_cases h2 : k = i
    · subst h2; simp [h1, hi, Ne.symm h1]
    · simp [h1, h2, Ne.symm h1, Ne.symm h2]

theorem list_ext_getD {l m : List ℕ} (hl : l.length = m.length) (h : ∀ k < l.length, l.getD k 0 = m.getD k 0) : l = m := by
  apply List.ext_getElem hl
  intro k h1 h2
  have := h k h1
  simpa [List.getD_eq_getElem?_getD, h1, h2] using this

theorem swapL_swapL {i j : ℕ} {l : List ℕ} (hi : i < l.length) (hj : j < l.length) :
    swapL i j (swapL i j l) = l := by
  apply list_ext_getD (by simp)
  intro k hk
  rw [swapL_getD (by simpa) (by simpa), swapL_getD hi hj, swapL_getD hi hj, swapL_getD hi hj]
  by_cases h1 : k = j
  · subst h1
    by_cases h2 : i = k
    · simp [h2]
    · simp [h2]
  · by_cases h2 : k = i
    · subst h2; simp [h1]
    · simp [h1, h2]

theorem swapL_self {i : ℕ} {l : List ℕ} (hi : i < l.length) : swapL i i l = l := by
  apply list_ext_getD (by simp)
  intro k hk
  rw [swapL_getD hi hi]
  split <;> simp_all

theorem swapL_comm {i j : ℕ} {l : List ℕ} (hi : i < l.length) (hj : j < l.length) : swapL i j l = swapL j i l := by
  apply list_ext_getD (by simp)
  intro k hk
  rw [swapL_getD hi hj, swapL_getD hj hi]
  by_cases h1 : k = j
  · by_cases h2 : k = i
    · simp [← h1, ← h2]
    · simp [h1]; intro h; subst h; exact absurd h1 h2
  · by_cases h2 : k = i
    · simp [h2]; intro h; subst h; rfl
    · simp [h1, h2]

theorem valid_swapL {i j : ℕ} {sh idx : List ℕ} (hi : i < sh.length) (hj : j < sh.length)
    (h : Valid sh idx) : Valid (swapL i j sh) (swapL i j idx) := by
  obtain ⟨hl, hv⟩ := valid_iff.mp h
  refine valid_iff.mpr ⟨by simp [hl], fun k hk => ?_⟩
  rw [swapL_getD (by omega) (by omega), swapL_getD hi hj]
  simp only [swapL_length] at hk
  split
  · exact hv i hi
  · split
    · exact hv j hj
    · exact hv k hk

theorem valid_swapL_iff {i j : ℕ} {sh idx : List ℕ} (hi : i < sh.length) (hj : j < sh.length) :
    Valid (swapL i j sh) idx ↔ Valid sh (swapL i j idx) := by
  constructor
  · intro h
    have := valid_swapL (by simpa) (by simpa) h (i := i) (j := j)
    rwa [swapL_swapL hi hj] at this
  · intro h
    have hl := h.length
    simp at hl
    have := valid_swapL hi hj h
    rwa [swapL_swapL (by omega) (by omega)] at this

/-! ### axes -/

theorem normAxis_lt {ax : ℤ} {n p : ℕ} (h : normAxis ax n = some p) : p < n := by
  simp only [normAxis] at h
  split at h
  · simp only [Option.some.injEq] at h; omega
  · split at h
    · simp only [Option.some.injEq] at h; omega
    · simp at h

theorem normAxis_neg_one {n : ℕ} (h : 0 < n) : normAxis (-1) n = some (n - 1) := by
  simp only [normAxis]
  rw [if_neg (by omega), if_pos (by omega)]
  congr 1
  omega

theorem normAxis_zero {n : ℕ} (h : 0 < n) : normAxis 0 n = some 0 := by
  simp only [normAxis]
  rw [if_pos (by omega)]; rfl

theorem normAxis_nat {n p : ℕ} (h : p < n) : normAxis p n = some p := by
  simp only [normAxis]
  rw [if_pos (by omega)]; simp

/-! ### moving an axis to and from the end -/

theorem moveL_to_last {p : ℕ} {l : List ℕ} (hp : p < l.length) :
    moveL p (l.length - 1) l = l.eraseIdx p ++ [l.getD p 0] := by
  simp only [moveL]
  rw [show l.length - 1 = (l.eraseIdx p).length by rw [List.length_eraseIdx_of_lt hp]]
  exact List.insertIdx_length_self

theorem moveL_from_last {p : ℕ} {l : List ℕ} {k : ℕ} :
    moveL l.length p (l ++ [k]) = l.insertIdx p k := by
  simp only [moveL]
  congr 1
  · rw [List.eraseIdx_append_of_length_le (by simp)]; simp
  · simp

theorem insertIdx_eraseIdx {p k : ℕ} {l : List ℕ} (hp : p < l.length) :
    (l.eraseIdx p).insertIdx p k = l.set p k := by
  induction l generalizing p with
  | nil => simp at hp
  | cons a l ih =>
    cases p with
    | zero => simp
    | succ p => simp at hp; simp [ih hp]

theorem valid_eraseIdx {sh idx : List ℕ} {p : ℕ} (hp : p < sh.length) (h : Valid sh idx) :
    Valid (sh.eraseIdx p) (idx.eraseIdx p) ∧ idx.getD p 0 < sh.getD p 0 := by
  induction sh generalizing idx p with
  | nil => simp at hp
  | cons n sh ih =>
    cases idx with
    | nil => simp [Valid] at h
    | cons i idx =>
      obtain ⟨h1, h2⟩ := h
      cases p with
      | zero => simpa using ⟨h2, h1⟩
      | succ p =>
        simp only [List.length_cons, Nat.add_lt_add_iff_right] at hp
        have := ih hp h2
        simpa [Valid, h1] using this

theorem valid_set {sh idx : List ℕ} {p k : ℕ} (h : Valid sh idx) (hk : k < sh.getD p 0) :
    Valid sh (idx.set p k) := by
  induction sh generalizing idx p with
  | nil => simp at hk
  | cons n sh ih =>
    cases idx with
    | nil => simp [Valid] at h
    | cons i idx =>
      obtain ⟨h1, h2⟩ := h
      cases p with
      | zero => simp at hk; exact ⟨hk, h2⟩
      | succ p => simp at hk; exact ⟨h1, ih h2 (by simpa using hk)⟩

/-! ### broadcasting -/

/-- A shape that broadcasts to another one of the same length. -/
def Bcast (s t : List ℕ) : Prop := List.Forall₂ (fun m n => m = n ∨ m = 1) s t

theorem Bcast.refl (s : List ℕ) : Bcast s s := by
  induction s with
  | nil => exact .nil
  | cons a s ih => exact .cons (.inl rfl) ih

theorem Bcast.length {s t : List ℕ} (h : Bcast s t) : s.length = t.length := h.length_eq

theorem bshapeEq_left {s t : List ℕ} (h : Bcast s t) : ND.bshapeEq s t = some t := by
  induction h with
  | nil => rfl
  | cons h _ ih =>
    simp only [ND.bshapeEq, ih]
    rcases h with rfl | rfl
    · simp
    · split
      · rename_i h; rw [h]
      · simp

theorem bshapeEq_right {s t : List ℕ} (h : Bcast s t) : ND.bshapeEq t s = some t := by
  induction h with
  | nil => rfl
  | @cons a b _ _ h _ ih =>
    simp only [ND.bshapeEq, ih]
    rcases h with rfl | rfl
    · simp
    · by_cases hb : b = 1
      · simp [hb]
      · simp [hb]

theorem padShape_self (s : List ℕ) {n : ℕ} (h : n ≤ s.length) : ND.padShape n s = s := by
  simp [ND.padShape, Nat.sub_eq_zero_of_le h]

theorem bshape_left {s t : List ℕ} (h : Bcast s t) : ND.bshape s t = some t := by
  simp only [ND.bshape]
  rw [padShape_self _ h.length.ge, padShape_self _ h.length.le, bshapeEq_left h]

theorem bshape_right {s t : List ℕ} (h : Bcast s t) : ND.bshape t s = some t := by
  simp only [ND.bshape]
  rw [padShape_self _ h.length.le, padShape_self _ h.length.ge, bshapeEq_right h]

/-- Broadcasting of a shorter shape. -/
theorem bshape_pad {s t : List ℕ} (h : Bcast (List.replicate (t.length - s.length) 1 ++ s) t) :
    ND.bshape s t = some t := by
  have hl : s.length ≤ t.length := by have := h.length; simp at this; omega
  simp only [ND.bshape]
  rw [padShape_self t hl]
  exact bshapeEq_left h

theorem bshape_pad' {s t : List ℕ} (h : Bcast (List.replicate (t.length - s.length) 1 ++ s) t) :
    ND.bshape t s = some t := by
  have hl : s.length ≤ t.length := by have := h.length; simp at this; omega
  simp only [ND.bshape]
  rw [padShape_self t hl]
  exact bshapeEq_right h

theorem bidx_valid {sh idx : List ℕ} (h : Valid sh idx) : ND.bidx sh idx = idx := by
  induction sh generalizing idx with
  | nil => cases idx with
    | nil => rfl
    | cons => simp [Valid] at h
  | cons n sh ih =>
    cases idx with
    | nil => simp [Valid] at h
    | cons i idx =>
      obtain ⟨h1, h2⟩ := h
      simp only [ND.bidx, ih h2]
      split
      · congr 1; omega
      · rfl

theorem bidx_length {s idx : List ℕ} (h : s.length = idx.length) : (ND.bidx s idx).length = s.length := by
  induction s generalizing idx with
  | nil => simp [ND.bidx]
  | cons n s ih => cases idx with
    | nil => simp at h
    | cons i idx => simp [ND.bidx, ih (by simpa using h)]

theorem valid_bidx {s t idx : List ℕ} (h : Bcast s t) (hv : Valid t idx) : Valid s (ND.bidx s idx) := by
  induction h generalizing idx with
  | nil => simp [ND.bidx, Valid]
  | @cons a b _ _ h _ ih =>
    cases idx with
    | nil => simp [Valid] at hv
    | cons i idx =>
      obtain ⟨h1, h2⟩ := hv
      refine ⟨?_, ih h2⟩
      split
      · omega
      · rcases h with rfl | rfl
        · exact h1
        · simp_all

theorem bget_same (a : ND α) {idx : List ℕ} (h : idx.length = a.ndim) : a.bget idx = a.get (ND.bidx a.shape idx) := by
  simp [ND.bget, h]

theorem bget_valid (a : ND α) {idx : List ℕ} (h : Valid a.shape idx) : a.bget idx = a.get idx := by
  rw [bget_same a h.length, bidx_valid h]

theorem bop_left (f : α → β → γ) (a : ND α) (b : ND β) (h : Bcast a.shape b.shape) :
    ND.bop f a b = .ok ⟨b.shape, fun idx => f (a.bget idx) (b.bget idx)⟩ := by
  simp [ND.bop, bshape_left h]

theorem bop_right (f : α → β → γ) (a : ND α) (b : ND β) (h : Bcast b.shape a.shape) :
    ND.bop f a b = .ok ⟨a.shape, fun idx => f (a.bget idx) (b.bget idx)⟩ := by
  simp [ND.bop, bshape_right h]

theorem Bcast.eraseIdx {s t : List ℕ} (h : Bcast s t) (p : ℕ) : Bcast (s.eraseIdx p) (t.eraseIdx p) := by
  induction h generalizing p with
  | nil => exact .nil
  | cons h hs ih => cases p with
    | zero => exact hs
    | succ p => exact .cons h (ih p)

theorem Bcast.append {s t s' t' : List ℕ} (h : Bcast s t) (h' : Bcast s' t') : Bcast (s ++ s') (t ++ t') :=
  List.rel_append h h'

end RBM
