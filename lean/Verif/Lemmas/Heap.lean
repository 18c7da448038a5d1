import Verif.Model.Heap
import Verif.Lemmas.RotateND

namespace RBM.Heap

open RBM

/-! ### what existed is not changed -/

/-- All buffers of `m` are still there in `m'`, with the same contents. -/
structure Keeps (m m' : Mem) : Prop where
  size : m.size ≤ m'.size
  same : ∀ b < m.size, m'.buffer b = m.buffer b

theorem Keeps.refl (m : Mem) : Keeps m m := ⟨le_rfl, fun _ _ => rfl⟩

theorem Keeps.trans {a b c : Mem} (h1 : Keeps a b) (h2 : Keeps b c) : Keeps a c :=
  ⟨h1.size.trans h2.size, fun i hi => (h2.same i (hi.trans_le h1.size)).trans (h1.same i hi)⟩

theorem Keeps.read {m m' : Mem} (h : Keeps m m') {r : NdRef} (hr : r.buf < m.size) : m'.read r = m.read r := by
  simp only [Mem.read, h.same _ hr]

theorem keeps_new (m : Mem) (c : ND ℝ) : Keeps m (new c m).2 := by
  refine ⟨by simp [new, Mem.size], fun b hb => ?_⟩
  simp only [Mem.size] at hb
  simp [new, Mem.buffer, List.getD_eq_getElem?_getD, List.getElem?_append_left hb]

/-- Program `p` behaves like the computation `v` on values, related by `R`, and changes no existing
buffer. -/
def Runs {α : Type} {β : Type _} (p : HP α) (m : Mem) (v : Res β) (R : α → β → Mem → Prop) : Prop :=
  ∃ m', Keeps m m' ∧ ((∃ a x, p m = (.ok a, m') ∧ v = .ok x ∧ R a x m') ∨ ∃ e, p m = (.error e, m') ∧ v = .error e)

theorem Runs.keeps {α : Type} {β : Type _} {p : HP α} {m : Mem} {v : Res β} {R : α → β → Mem → Prop} (h : Runs p m v R) :
    Keeps m (p m).2 := by
  obtain ⟨m', hk, ⟨a, x, e, _⟩ | ⟨e, he, _⟩⟩ := h
  · rw [e]; exact hk
  · rw [he]; exact hk

theorem Runs.bind {α γ : Type} {β δ : Type _} {p : HP α} {f : α → HP γ} {m : Mem} {v : Res β} {g : β → Res δ}
    {R : α → β → Mem → Prop} {S : γ → δ → Mem → Prop} (h : Runs p m v R)
    (hf : ∀ a x m', Keeps m m' → R a x m' → Runs (f a) m' (g x) S) :
    Runs (p >>= f) m (v.bind g) S := by
  obtain ⟨m', hk, ⟨a, x, e, rfl, hr⟩ | ⟨e, he, rfl⟩⟩ := h
  · obtain ⟨m2, hk2, h2⟩ := hf a x m' hk hr
    have e1 : (p >>= f) m = f a m' := by simp only [Bind.bind, e]
    refine ⟨m2, hk.trans hk2, ?_⟩
    rw [e1]; exact h2
  · refine ⟨m', hk, .inr ⟨e, ?_, rfl⟩⟩
    simp only [Bind.bind, he]

theorem Runs.pure {α : Type} {β : Type _} {a : α} {x : β} {m : Mem} {R : α → β → Mem → Prop} (h : R a x m) :
    Runs (Pure.pure a) m (.ok x) R := ⟨m, .refl m, .inl ⟨a, x, rfl, rfl, h⟩⟩

theorem Runs.lift {α : Type} (x : Res α) (m : Mem) : Runs (lift x) m x (fun a b m' => a = b ∧ m' = m) := by
  cases x with
  | error e => exact ⟨m, .refl m, .inr ⟨e, rfl, rfl⟩⟩
  | ok a => exact ⟨m, .refl m, .inl ⟨a, a, rfl, rfl, rfl, rfl⟩⟩

theorem Runs.error {α : Type} {β : Type _} (e : PyErr) (m : Mem) (R : α → β → Mem → Prop) :
    Runs (Heap.lift (.error e)) m (.error e) R := ⟨m, .refl m, .inr ⟨e, rfl, rfl⟩⟩

theorem Runs.get (r : NdRef) (m : Mem) : Runs (get r) m (.ok (m.read r)) (fun a b m' => a = b ∧ m' = m) :=
  ⟨m, .refl m, .inl ⟨_, _, rfl, rfl, rfl, rfl⟩⟩

theorem Runs.mono {α : Type} {β : Type _} {p : HP α} {m : Mem} {v : Res β} {R S : α → β → Mem → Prop} (h : Runs p m v R)
    (hi : ∀ a x m', Keeps m m' → R a x m' → S a x m') : Runs p m v S := by
  obtain ⟨m', hk, ⟨a, x, e, hv, hr⟩ | h⟩ := h
  · exact ⟨m', hk, .inl ⟨a, x, e, hv, hi a x m' hk hr⟩⟩
  · exact ⟨m', hk, .inr h⟩

/-- Steps that neither fail nor touch the memory. -/
theorem Runs.step {α γ : Type} {δ : Type _} {p : HP α} {f : α → HP γ} {m : Mem} {a : α} {w : Res δ} {S : γ → δ → Mem → Prop}
    (e : p m = (.ok a, m)) (h : Runs (f a) m w S) : Runs (p >>= f) m w S := by
  have e1 : (p >>= f) m = f a m := by simp only [Bind.bind, e]
  obtain ⟨m', hk, h⟩ := h
  exact ⟨m', hk, by rw [e1]; exact h⟩

/-- `r` is a new array with contents `c`. -/
structure IsNew (m : Mem) (r : NdRef) (c : ND ℝ) (m' : Mem) : Prop where
  value : m'.read r = c
  fresh : m.size ≤ r.buf
  known : r.buf < m'.size

theorem IsNew.keeps {m m' m'' : Mem} {r : NdRef} {c : ND ℝ} (h : IsNew m r c m') (hk : Keeps m' m'') : IsNew m r c m'' :=
  ⟨(hk.read h.known).trans h.value, h.fresh, h.known.trans_le hk.size⟩

theorem IsNew.before {m0 m m' : Mem} {r : NdRef} {c : ND ℝ} (h : IsNew m r c m') (hk : Keeps m0 m) : IsNew m0 r c m' :=
  ⟨h.value, hk.size.trans h.fresh, h.known⟩

theorem IsNew.apart {m m' : Mem} {r : NdRef} {c : ND ℝ} (h : IsNew m r c m') {r' : NdRef} (hr : r'.buf < m.size) : r.buf ≠ r'.buf := by
  have := h.fresh
  omega

theorem read_new (m : Mem) (c : ND ℝ) : (new c m).2.read ⟨m.size, c.shape, id⟩ = c := by
  simp [Mem.read, new, Mem.buffer, Mem.size]

theorem Runs.new (c : ND ℝ) (m : Mem) : Runs (new c) m (.ok c) (IsNew m) :=
  ⟨_, keeps_new m c, .inl ⟨_, _, rfl, rfl, read_new m c, le_rfl, by simp [Heap.new, Mem.size]⟩⟩

/-- Steps that allocate. -/
theorem Runs.bindNew {γ : Type} {δ : Type _} {c : ND ℝ} {f : NdRef → HP γ} {m : Mem} {w : Res δ} {S : γ → δ → Mem → Prop}
    (h : ∀ r m', Keeps m m' → IsNew m r c m' → Runs (f r) m' w S) : Runs (Heap.new c >>= f) m w S := by
  have h1 : IsNew m ⟨m.size, c.shape, id⟩ c (Heap.new c m).2 := ⟨read_new m c, le_rfl, by simp [Heap.new, Mem.size]⟩
  obtain ⟨m', hk, hh⟩ := h _ _ (keeps_new m c) h1
  exact ⟨m', (keeps_new m c).trans hk, hh⟩

/-! ### arguments -/

/-- The values of an argument. -/
def ArrayLike.read (m : Mem) : ArrayLike → ND ℝ
  | .array r => m.read r
  | .nested c => c

/-- The argument exists. -/
def ArrayLike.Known (m : Mem) : ArrayLike → Prop
  | .array r => r.buf < m.size
  | .nested _ => True

theorem ArrayLike.Known.keeps {m m' : Mem} {a : ArrayLike} (h : a.Known m) (hk : Keeps m m') :
    a.Known m' ∧ a.read m' = a.read m := by
  cases a with
  | array r => exact ⟨lt_of_lt_of_le h hk.size, hk.read h⟩
  | nested c => exact ⟨trivial, rfl⟩

theorem Runs.asarray {a : ArrayLike} {m : Mem} (h : a.Known m) :
    Runs (asarray a) m (.ok (a.read m)) (fun r c m' => m'.read r = c ∧ r.buf < m'.size) := by
  cases a with
  | array r => exact Runs.pure ⟨rfl, h⟩
  | nested c => exact (Runs.new c m).mono fun r c m' _ h => ⟨h.value, h.known⟩

theorem Runs.swapRef (r : NdRef) (i j : ℤ) (m : Mem) :
    Runs (swapRef r i j) m ((m.read r).swapaxesZ i j) (fun r' c m' => m' = m ∧ r'.buf = r.buf ∧ m.read r' = c) := by
  simp only [Heap.swapRef, ND.swapaxesZ]
  have : (m.read r).ndim = r.shape.length := rfl
  rw [this]
  cases normAxis i r.shape.length with
  | none => exact Runs.error _ _ _
  | some i =>
    cases normAxis j r.shape.length with
    | none => exact Runs.error _ _ _
    | some j => exact Runs.pure ⟨rfl, rfl, rfl⟩

/-! ### arrays by rows -/

theorem vecsOf_ofVecs (v : Arr Vec) : vecsOf (ND.ofVecs v) = v := by
  cases v with
  | one v =>
    simp only [vecsOf, ND.ofVecs]
    congr 1
    funext i
    simp
  | many l =>
    simp only [vecsOf, ND.ofVecs, vecRows]
    congr 1
    apply List.ext_getElem (by simp)
    intro k h1 h2
    simp only [List.getElem_map, List.getElem_range]
    funext i
    simp [List.getD_eq_getElem?_getD, List.getElem?_eq_getElem h2]

/-- One row as a quaternion. -/
def qrow (a : ND ℝ) (k : ℕ) : Quat := ⟨a.get [k, 0], a.get [k, 1], a.get [k, 2], a.get [k, 3]⟩

theorem quatRows_eq (a : ND ℝ) (n : ℕ) : quatRows a n = (List.range n).map (qrow a) := rfl

theorem quatsOf_ofQuats (q : Arr Quat) : quatsOf (ND.ofQuats q) = q := by
  cases q with
  | one q => simp only [quatsOf, ND.ofQuats]; rfl
  | many l =>
    simp only [quatsOf, ND.ofQuats]
    congr 1
    have key : ∀ (k : ℕ) (q : Quat), l[k]? = some q → (quatRows ⟨[l.length, 4], fun idx => qcomp (l.getD (idx.getD 0 0) 0) (idx.getD 1 0)⟩ l.length)[k]? = some q := by
      intro k q hk
      have hl := (List.getElem?_eq_some_iff.mp hk).1
      have e : l.getD k 0 = q := by rw [List.getD_eq_getElem?_getD, hk]; rfl
      rw [quatRows_eq, List.getElem?_map, List.getElem?_range hl, Option.map_some]
      congr 1
    apply List.ext_getElem?
    intro k
    cases hk : l[k]? with
    | some q => exact key k q hk
    | none =>
      rw [List.getElem?_eq_none_iff] at hk ⊢
      rw [quatRows_eq, List.length_map, List.length_range]
      exact hk

theorem stampList_stampArray (l : List ℝ) : stampList (stampArray l) = l := by
  simp only [stampList, stampArray]
  apply List.ext_getElem (by simp)
  intro k h1 h2
  simp [List.getD_eq_getElem?_getD, List.getElem?_eq_getElem h2]

/-! ### in-place writes to whole arrays -/

theorem write_size (m : Mem) (r : NdRef) (c : List ℕ → ℝ) : (m.write r c).size = m.size := by
  simp [Mem.write, Mem.size]

theorem write_other {m : Mem} {r : NdRef} {c : List ℕ → ℝ} {b : ℕ} (h : b ≠ r.buf) : (m.write r c).buffer b = m.buffer b := by
  simp only [Mem.write, Mem.buffer, List.getD_eq_getElem?_getD, List.getElem?_set]
  rw [if_neg (Ne.symm h)]

theorem keeps_write {m m' : Mem} (h : Keeps m m') {r : NdRef} (hr : m.size ≤ r.buf) (c : List ℕ → ℝ) :
    Keeps m (m'.write r c) :=
  ⟨by rw [write_size]; exact h.size, fun b hb => by rw [write_other (by omega)]; exact h.same b hb⟩

/-- Entries of an array that was not made by a view. -/
theorem write_whole {m : Mem} {b : ℕ} {sh : List ℕ} (hb : b < m.size) (c : List ℕ → ℝ) {idx : List ℕ} (hv : Valid sh idx) :
    ((m.write ⟨b, sh, id⟩ c).read ⟨b, sh, id⟩).get idx = c idx := by
  classical
  simp only [Mem.read, Mem.write, Mem.buffer, id]
  simp only [Mem.size] at hb
  rw [List.getD_eq_getElem?_getD, List.getElem?_set, if_pos rfl]
  simp only [hb, if_true, Option.getD_some]
  have h : ∃ x, Valid sh x ∧ x = idx := ⟨idx, hv, rfl⟩
  rw [dif_pos h, h.choose_spec.2]

theorem vecRows_congr {a b : ND ℝ} {n : ℕ} (h : ∀ k < n, ∀ i < 3, a.get [k, i] = b.get [k, i]) : vecRows a n = vecRows b n := by
  apply List.map_congr_left
  intro k hk
  funext i
  exact h k (List.mem_range.mp hk) i i.2

theorem quatRows_congr {a b : ND ℝ} {n : ℕ} (h : ∀ k < n, ∀ i < 4, a.get [k, i] = b.get [k, i]) : quatRows a n = quatRows b n := by
  rw [quatRows_eq, quatRows_eq]
  apply List.map_congr_left
  intro k hk
  have := h k (List.mem_range.mp hk)
  unfold qrow
  rw [this 0 (by norm_num), this 1 (by norm_num), this 2 (by norm_num), this 3 (by norm_num)]

end RBM.Heap
