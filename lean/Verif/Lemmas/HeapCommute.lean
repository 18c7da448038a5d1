import Verif.Lemmas.HeapRegister
import Verif.Spec.Memory

namespace RBM.Heap

open RBM

theorem write_comm {m : Mem} {r w : NdRef} (h : r.buf ≠ w.buf) (c d : List ℕ → ℝ) : (m.write r c).write w d = (m.write w d).write r c := by
  have h1 : (m.write r c).buffer w.buf = m.buffer w.buf := write_other (Ne.symm h)
  have h2 : (m.write w d).buffer r.buf = m.buffer r.buf := write_other h
  have e1 : (m.write r c).write w d = ⟨(m.write r c).cells.set w.buf fun j => open Classical in
    if h : ∃ idx, Valid w.shape idx ∧ w.index idx = j then d h.choose else (m.write r c).buffer w.buf j⟩ := rfl
  have e2 : (m.write w d).write r c = ⟨(m.write w d).cells.set r.buf fun j => open Classical in
    if h : ∃ idx, Valid r.shape idx ∧ r.index idx = j then c h.choose else (m.write w d).buffer r.buf j⟩ := rfl
  rw [e1, e2, h1, h2]
  simp only [Mem.write]
  rw [List.set_comm _ _ h]

theorem new_comm {m : Mem} {w : NdRef} (h : w.buf < m.size) (c : ND ℝ) (d : List ℕ → ℝ) :
    new c (m.write w d) = ((new c m).1, (new c m).2.write w d) := by
  have hb : (new c m).2.buffer w.buf = m.buffer w.buf := (keeps_new m c).same _ h
  have e1 : (new c m).2.write w d = ⟨(new c m).2.cells.set w.buf fun j => open Classical in
    if h : ∃ idx, Valid w.shape idx ∧ w.index idx = j then d h.choose else (new c m).2.buffer w.buf j⟩ := rfl
  rw [e1, hb]
  have hl : w.buf < m.cells.length := h
  simp only [new, write_size]
  simp only [Mem.write, List.set_append, if_pos hl]

/-- Overwriting an array before or after the program makes no difference. -/
def Commutes {α : Type} (w : NdRef) (d : List ℕ → ℝ) (p : HP α) (m : Mem) : Prop :=
  p (m.write w d) = ((p m).1, (p m).2.write w d) ∧ m.size ≤ (p m).2.size

theorem Commutes.pure {α : Type} {w : NdRef} {d : List ℕ → ℝ} (a : α) (m : Mem) : Commutes w d (Pure.pure a) m := ⟨rfl, le_rfl⟩

theorem Commutes.lift {α : Type} {w : NdRef} {d : List ℕ → ℝ} (a : Res α) (m : Mem) : Commutes w d (lift a) m := ⟨rfl, le_rfl⟩

theorem Commutes.new {w : NdRef} {d : List ℕ → ℝ} (c : ND ℝ) {m : Mem} (h : w.buf < m.size) : Commutes w d (new c) m :=
  ⟨new_comm h c d, (keeps_new m c).size⟩

theorem Commutes.bind {α β : Type} {w : NdRef} {d : List ℕ → ℝ} {p : HP α} {f : α → HP β} {m : Mem} (h : Commutes w d p m)
    (hf : ∀ a m', p m = (.ok a, m') → m.size ≤ m'.size → Commutes w d (f a) m') : Commutes w d (p >>= f) m := by
  obtain ⟨h1, h2⟩ := h
  rcases hp : p m with ⟨_ | a, m'⟩
  · rw [hp] at h1 h2
    refine ⟨?_, ?_⟩
    · simp only [Bind.bind, h1, hp]
    · simp only [Bind.bind, hp]; exact h2
  · rw [hp] at h1 h2
    obtain ⟨h3, h4⟩ := hf a m' hp h2
    refine ⟨?_, ?_⟩
    · simp only [Bind.bind, h1, hp]; exact h3
    · simp only [Bind.bind, hp]; exact h2.trans h4

theorem Commutes.asarray {w : NdRef} {d : List ℕ → ℝ} (a : ArrayLike) {m : Mem} (h : w.buf < m.size) : Commutes w d (asarray a) m := by
  cases a with
  | array r => exact .pure r m
  | nested c => exact .new c h

theorem commutes_initArrays {args : HArgs} (hi : args.inverse = false) {w : NdRef} {d : List ℕ → ℝ} {m : Mem} (h : w.buf < m.size) :
    Commutes w d (initArraysH args) m := by
  unfold initArraysH
  rw [hi]
  refine Commutes.bind ?_ fun ts m1 _ k1 => Commutes.bind ?_ fun t m2 _ k2 => Commutes.bind ?_ fun r m3 _ k3 => ?_
  · cases args.timestamps with
    | none => exact .pure _ _
    | some a =>
      refine Commutes.bind (.asarray a h) fun r m' _ _ => ?_
      split
      · exact .pure _ _
      · exact .lift _ _
  · cases args.translation with
    | none => exact .new _ (by omega)
    | some a =>
      refine Commutes.bind (.asarray a (by omega)) fun r m' _ _ => ?_
      split
      · exact .pure _ _
      · exact .lift _ _
  · cases args.rotation with
    | none =>
      refine Commutes.bind (.new _ (by omega)) fun r m' hr _ => ?_
      have hb : r.buf = m2.size := by cases hr; rfl
      have hne : r.buf ≠ w.buf := by omega
      refine ⟨?_, ?_⟩
      · simp only [Bind.bind, get, put, Pure.pure]
        have : (m'.write w d).read r = m'.read r := by simp only [Mem.read, write_other hne]
        rw [this, write_comm (Ne.symm hne)]
      · simp only [Bind.bind, get, put, Pure.pure, write_size]; exact le_rfl
    | some a =>
      refine Commutes.bind (.asarray a (by omega)) fun r m' _ _ => ?_
      split
      · exact .pure _ _
      · exact .lift _ _
  · exact .pure _ _

theorem construct_comm (s : HState) (n : Option String) (p : Option FrameRef) {args : HArgs} (hi : args.inverse = false) {w : NdRef}
    (d : List ℕ → ℝ) (h : w.buf < s.mem.size) :
    HState.construct { s with mem := s.mem.write w d } n p args =
      ({ (s.construct n p args).1 with mem := (s.construct n p args).1.mem.write w d }, (s.construct n p args).2) := by
  simp only [HState.construct]
  cases p with
  | none =>
    cases verifyRootH args with
    | error e => rfl
    | ok u =>
      simp only
      split <;> rfl
  | some ref =>
    simp only
    cases s.st.resolve ref with
    | error e => rfl
    | ok q =>
      simp only
      rcases (s.st.alloc n).setParent s.st.size (some q) with ⟨st2, e | u⟩
      · rfl
      · simp only
        rw [(commutes_initArrays hi h).1]
        rcases initArraysH args s.mem with ⟨e | ⟨t, r, ts⟩, m'⟩
        · rfl
        · simp only
          split <;> rfl

theorem register_comm (s : HState) (n : Option String) (p : Option FrameRef) {args : HArgs} (hi : args.inverse = false) (u : Bool) {w : NdRef}
    (d : List ℕ → ℝ) (h : w.buf < s.mem.size) :
    HState.registerFrame { s with mem := s.mem.write w d } n p args u =
      ({ (s.registerFrame n p args u).1 with mem := (s.registerFrame n p args u).1.mem.write w d }, (s.registerFrame n p args u).2) := by
  simp only [HState.registerFrame]
  rw [construct_comm s n p hi d h]
  rcases s.construct n p args with ⟨s', e | i⟩ <;> rfl

end RBM.Heap
