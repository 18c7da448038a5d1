import Verif.Spec.Registry
import Mathlib.Data.Finset.Card
import Mathlib.Data.List.Nodup

namespace RBM

open Spec

/-! ### dictionaries -/

theorem dictGet_set {α : Type _} (d : List (String × α)) (k k' : String) (v : α) :
    dictGet (dictSet d k v) k' = if k = k' then some v else dictGet d k' := by
  induction d with
  | nil => simp only [dictSet, dictGet, List.lookup]; by_cases h : k = k'
           · simp [h]
           · simp [h, beq_eq_false_iff_ne.mpr (Ne.symm h)]
  | cons e d ih =>
    obtain ⟨a, b⟩ := e
    simp only [dictGet] at ih
    by_cases h : a = k
    · subst h
      simp only [dictSet, dictGet, if_true, List.lookup]
      by_cases h' : a = k'
      · subst h'; simp
      · simp [h', beq_eq_false_iff_ne.mpr (Ne.symm h')]
    · simp only [dictSet, h, if_false, dictGet, List.lookup]
      by_cases h' : k' = a
      · subst h'; simp; exact fun hh => absurd hh.symm h
      · simp [beq_eq_false_iff_ne.mpr h', ih]

theorem dictGet_pop (d : List (String × ℕ)) (k k' : String) :
    dictGet (dictPop d k) k' = if k = k' then none else dictGet d k' := by
  induction d with
  | nil => simp [dictPop, dictGet]
  | cons e d ih =>
    obtain ⟨a, b⟩ := e
    simp only [dictGet, dictPop] at ih
    by_cases h : a = k
    · subst h
      simp only [dictPop, dictGet, List.filter]
      simp only [ne_eq, not_true, decide_false]
      rw [ih]
      by_cases h' : a = k'
      · simp [h']
      · simp [h', List.lookup, beq_eq_false_iff_ne.mpr (Ne.symm h')]
    · simp only [dictPop, dictGet, List.filter, ne_eq, h, not_false_eq_true, decide_true]
      by_cases h' : k' = a
      · subst h'; simp [List.lookup, Ne.symm h]
      · simp only [List.lookup, beq_eq_false_iff_ne.mpr h']; exact ih

/-! ### root paths -/

theorem Spec.RootPath.unique {par : ℕ → Option ℕ} {i : ℕ} {l l' : List ℕ}
    (h : RootPath par i l) (h' : RootPath par i l') : l = l' := by
  induction h generalizing l' with
  | root hr => cases h' with
    | root _ => rfl
    | step hp _ => rw [hr] at hp; cases hp
  | step hp _ ih => cases h' with
    | root hr => rw [hr] at hp; cases hp
    | step hp' h2 => rw [hp] at hp'; cases hp'; rw [ih h2]

/-- Every element of a root path has its own root path as a suffix. -/
theorem Spec.RootPath.suffix {par : ℕ → Option ℕ} {i j : ℕ} {l : List ℕ}
    (h : RootPath par i l) (hj : j ∈ l) : ∃ pre l', l = pre ++ l' ∧ RootPath par j l' := by
  induction h with
  | root hr => simp at hj; subst hj; exact ⟨[], _, rfl, .root hr⟩
  | step hp h ih =>
    rcases List.mem_cons.mp hj with rfl | hj
    · exact ⟨[], _, rfl, .step hp h⟩
    · obtain ⟨pre, l', rfl, h'⟩ := ih hj
      exact ⟨_ :: pre, l', rfl, h'⟩

theorem Spec.RootPath.nodup {par : ℕ → Option ℕ} {i : ℕ} {l : List ℕ}
    (h : RootPath par i l) : l.Nodup := by
  induction h with
  | root => simp
  | @step i p l hp h ih =>
    refine List.nodup_cons.mpr ⟨fun hm => ?_, ih⟩
    obtain ⟨pre, l', e, h'⟩ := h.suffix hm
    have := RootPath.unique h' (.step hp h)
    subst this
    have := congrArg List.length e
    simp at this
    omega

theorem Spec.RootPath.head {par : ℕ → Option ℕ} {i : ℕ} {l : List ℕ}
    (h : RootPath par i l) : ∃ l', l = i :: l' := by
  cases h with
  | root _ => exact ⟨[], rfl⟩
  | step _ _ => exact ⟨_, rfl⟩

theorem Spec.RootPath.mem_lt {par : ℕ → Option ℕ} {i n : ℕ} {l : List ℕ}
    (h : RootPath par i l) (hn : ∀ a b, par a = some b → b < n) (hi : i < n) :
    ∀ j ∈ l, j < n := by
  induction h with
  | root => simpa using hi
  | step hp _ ih =>
    intro j hj
    rcases List.mem_cons.mp hj with rfl | hj
    · exact hi
    · exact ih (hn _ _ hp) j hj

theorem Spec.RootPath.length_le {par : ℕ → Option ℕ} {i n : ℕ} {l : List ℕ}
    (h : RootPath par i l) (hn : ∀ a b, par a = some b → b < n) (hi : i < n) :
    l.length ≤ n := by
  have h1 : l.toFinset ⊆ Finset.range n := by
    intro j hj; simp at hj ⊢; exact h.mem_lt hn hi j hj
  have := Finset.card_le_card h1
  rwa [List.toFinset_card_of_nodup h.nodup, Finset.card_range] at this

theorem chainUp_eq {par : ℕ → Option ℕ} {i : ℕ} {l : List ℕ} (h : RootPath par i l) :
    ∀ {f}, l.length ≤ f → chainUp par f i = l := by
  induction h with
  | root hr => intro f hf; cases f with
    | zero => simp at hf
    | succ f => simp [chainUp, hr]
  | step hp h ih => intro f hf; cases f with
    | zero => simp at hf
    | succ f => simp only [chainUp, hp]; rw [ih (by simpa using hf)]

/-! ### well-formedness -/

/-- Internal invariant of the forest and the registry. -/
structure WF (s : State) : Prop where
  parent_lt : ∀ i p, s.parent i = some p → i < s.size ∧ p < s.size
  child_iff : ∀ i p, i ∈ s.children p ↔ s.parent i = some p
  nodup : ∀ p, (s.children p).Nodup
  path : ∀ i, ∃ l, RootPath s.parent i l
  reg_ok : ∀ n i, dictGet s.reg n = some i → i < s.size ∧ s.name i = some n

theorem WF.pathReverse {s : State} (h : WF s) {i : ℕ} (hi : i < s.size) :
    RootPath s.parent i (s.pathReverse i) := by
  obtain ⟨l, hl⟩ := h.path i
  have := hl.length_le (fun a b hab => (h.parent_lt a b hab).2) hi
  unfold State.pathReverse
  rw [chainUp_eq hl this]
  exact hl

theorem Spec.RootPath.mem_iff {s : State} {i j : ℕ} {l : List ℕ} (h : RootPath s.parent i l) :
    j ∈ l ↔ AncestorOrSelf s i j := by
  constructor
  · intro hj
    induction h with
    | root => simp at hj; subst hj; exact .refl
    | step hp _ ih =>
      rcases List.mem_cons.mp hj with rfl | hj
      · exact .refl
      · exact .head hp (ih hj)
  · intro hj
    induction hj using Relation.ReflTransGen.head_induction_on generalizing l with
    | refl => obtain ⟨l', rfl⟩ := h.head; simp
    | head hab _ ih =>
      cases h with
      | root hr => unfold ParentOf at hab; rw [hr] at hab; cases hab
      | step hp h => unfold ParentOf at hab; rw [hp] at hab; cases hab; simp [ih h]

theorem WF.acyclic {s : State} (h : WF s) (i : ℕ) : ¬ Ancestor s i i := by
  intro hc
  obtain ⟨l, hl⟩ := h.path i
  obtain ⟨p, hp, hpi⟩ := Relation.TransGen.head'_iff.mp hc
  cases hl with
  | root hr => unfold ParentOf at hp; rw [hr] at hp; cases hp
  | @step _ p' l' hp' hl' =>
    have : p = p' := by unfold ParentOf at hp; rw [hp'] at hp; cases hp; rfl
    subst this
    have hm : i ∈ l' := (RootPath.mem_iff hl').mpr hpi
    exact (List.nodup_cons.mp (RootPath.nodup (.step hp' hl'))).1 hm

/-! #### preservation -/

theorem wf_init : WF State.init := by
  refine ⟨?_, ?_, ?_, ?_, ?_⟩ <;> simp [State.init, dictGet]
  intro i; exact ⟨[i], .root rfl⟩

theorem wf_reg {s : State} (h : WF s) (d : List (String × ℕ))
    (hd : ∀ n i, dictGet d n = some i → i < s.size ∧ s.name i = some n) :
    WF { s with reg := d } :=
  ⟨h.parent_lt, h.child_iff, h.nodup, h.path, hd⟩

theorem wf_setData {s : State} (h : WF s) (i : ℕ) (d : FrameData) : WF (s.setData i d) :=
  ⟨h.parent_lt, h.child_iff, h.nodup, h.path, h.reg_ok⟩

theorem Spec.RootPath.update {par : ℕ → Option ℕ} {i : ℕ} {v : Option ℕ} {j : ℕ} {l : List ℕ}
    (h : RootPath par j l) (hi : i ∉ l) : RootPath (Function.update par i v) j l := by
  induction h with
  | @root k hr =>
    have : k ≠ i := by rintro rfl; simp at hi
    exact .root (by rw [Function.update_of_ne this, hr])
  | @step k p l hp _ ih =>
    have : k ≠ i := by rintro rfl; simp at hi
    exact .step (by rw [Function.update_of_ne this, hp]) (ih (fun hm => hi (List.mem_cons_of_mem _ hm)))

theorem wf_alloc {s : State} (h : WF s) (n : Option String) : WF (s.alloc n) := by
  have hf : s.parent s.size = none := by
    cases hp : s.parent s.size with
    | none => rfl
    | some p => exact absurd (h.parent_lt _ _ hp).1 (lt_irrefl _)
  have hc : s.children s.size = [] := by
    apply List.eq_nil_iff_forall_not_mem.mpr
    intro i hi
    exact absurd (h.parent_lt _ _ ((h.child_iff _ _).mp hi)).2 (lt_irrefl _)
  have e1 : (s.alloc n).parent = s.parent := by
    simp only [State.alloc]; rw [← hf]; exact Function.update_eq_self _ _
  have e2 : (s.alloc n).children = s.children := by
    simp only [State.alloc]; rw [← hc]; exact Function.update_eq_self _ _
  refine ⟨?_, ?_, ?_, ?_, ?_⟩
  · intro i p hp; rw [e1] at hp; have := h.parent_lt i p hp
    simp only [State.alloc]; omega
  · intro i p; rw [e1, e2]; exact h.child_iff i p
  · intro p; rw [e2]; exact h.nodup p
  · intro i; rw [e1]; exact h.path i
  · intro m i hm
    have := h.reg_ok m i hm
    refine ⟨Nat.lt_succ_of_lt this.1, ?_⟩
    simp only [State.alloc]
    rw [Function.update_of_ne (by omega)]; exact this.2

theorem alloc_parent {s : State} (h : WF s) (n : Option String) :
    (s.alloc n).parent = s.parent := by
  have hf : s.parent s.size = none := by
    cases hp : s.parent s.size with
    | none => rfl
    | some p => exact absurd (h.parent_lt _ _ hp).1 (lt_irrefl _)
  simp only [State.alloc]; rw [← hf]; exact Function.update_eq_self _ _

theorem alloc_children {s : State} (h : WF s) (n : Option String) :
    (s.alloc n).children = s.children := by
  have hc : s.children s.size = [] := by
    apply List.eq_nil_iff_forall_not_mem.mpr
    intro i hi
    exact absurd (h.parent_lt _ _ ((h.child_iff _ _).mp hi)).2 (lt_irrefl _)
  simp only [State.alloc]; rw [← hc]; exact Function.update_eq_self _ _

theorem parent_fresh {s : State} (h : WF s) {i : ℕ} (hi : s.size ≤ i) : s.parent i = none := by
  cases hp : s.parent i with
  | none => rfl
  | some p => exact absurd (h.parent_lt _ _ hp).1 (by omega)

/-- The result of `detach` in a well-formed state. -/
theorem detach_spec {s : State} (h : WF s) (i : ℕ) :
    ∃ s', s.detach i = (s', .ok ()) ∧ WF s' ∧ s'.parent = Function.update s.parent i none ∧
      s'.size = s.size ∧ s'.name = s.name ∧ s'.data = s.data ∧ s'.reg = s.reg ∧
      (∀ p, s'.children p = if s.parent i = some p then
        (s.children p).filter (fun c => decide (c ≠ i)) else s.children p) := by
  unfold State.detach
  cases hp : s.parent i with
  | none =>
    refine ⟨s, rfl, h, ?_, rfl, rfl, rfl, rfl, ?_⟩
    · rw [← hp, Function.update_eq_self]
    · simp
  | some p =>
    have hm : i ∈ s.children p := (h.child_iff i p).mpr hp
    simp only [hm, if_true]
    refine ⟨_, rfl, ⟨?_, ?_, ?_, ?_, ?_⟩, rfl, rfl, rfl, rfl, rfl, ?_⟩
    · intro j q hq
      simp only [Function.update_apply] at hq
      split at hq
      · cases hq
      · exact h.parent_lt j q hq
    · intro j q
      simp only [Function.update_apply]
      by_cases hq : q = p
      · subst hq
        simp only [if_true, List.mem_filter, h.child_iff, decide_eq_true_eq]
        by_cases hj : j = i
        · simp [hj]
        · simp [hj]
      · simp only [hq, if_false, h.child_iff]
        by_cases hj : j = i
        · subst hj; simp [hp]; exact fun e => hq e.symm
        · simp [hj]
    · intro q
      simp only [Function.update_apply]
      split
      · exact (h.nodup p).filter _
      · exact h.nodup q
    · intro j
      obtain ⟨l, hl⟩ := h.path j
      show ∃ l, RootPath (Function.update s.parent i none) j l
      clear hm hp
      induction hl with
      | @root k hr => exact ⟨[k], .root (by
          simp only [Function.update_apply]; split
          · rfl
          · exact hr)⟩
      | @step k q l hk _ ih =>
        by_cases hki : k = i
        · exact ⟨[k], .root (by simp [hki])⟩
        · obtain ⟨l', hl'⟩ := ih
          exact ⟨k :: l', .step (by rw [Function.update_of_ne hki, hk]) hl'⟩
    · exact h.reg_ok
    · intro q
      simp only [Function.update_apply]
      by_cases hq : q = p
      · subst hq; simp
      · simp [hq, Ne.symm hq]

/-- The result of `attach` for a detached node in a well-formed state. -/
theorem attach_spec {s : State} (h : WF s) {i p : ℕ} (hi : i < s.size) (hp : p < s.size)
    (hroot : s.parent i = none) (hloop : ¬ AncestorOrSelf s p i) :
    ∃ s', s.attach i (some p) = (s', .ok ()) ∧ WF s' ∧
      s'.parent = Function.update s.parent i (some p) ∧
      s'.size = s.size ∧ s'.name = s.name ∧ s'.data = s.data ∧ s'.reg = s.reg ∧
      (∀ q, s'.children q = if q = p then s.children p ++ [i] else s.children q) := by
  unfold State.attach
  have hm : i ∉ s.children p := by rw [h.child_iff, hroot]; simp
  simp only [hm, if_false]
  refine ⟨_, rfl, ⟨?_, ?_, ?_, ?_, ?_⟩, rfl, rfl, rfl, rfl, rfl, ?_⟩
  · intro j q hq
    simp only [Function.update_apply] at hq
    split at hq
    · cases hq; subst j; exact ⟨hi, hp⟩
    · exact h.parent_lt j q hq
  · intro j q
    simp only [Function.update_apply]
    by_cases hq : q = p
    · subst hq
      by_cases hj : j = i
      · simp [hj]
      · simp [hj, h.child_iff]
    · simp only [hq, if_false, h.child_iff]
      by_cases hj : j = i
      · subst hj; simp [hroot]; exact fun e => hq e.symm
      · simp [hj]
  · intro q
    simp only [Function.update_apply]
    split
    · exact List.nodup_append.mpr ⟨h.nodup p, by simp, by
        intro a ha b hb; simp at hb; subst hb; rintro rfl; exact hm ha⟩
    · exact h.nodup q
  · intro j
    obtain ⟨lp, hlp⟩ := h.path p
    have hni : i ∉ lp := fun hc => hloop ((RootPath.mem_iff hlp).mp hc)
    have hip : RootPath (Function.update s.parent i (some p)) i (i :: lp) :=
      .step (by simp) (hlp.update hni)
    obtain ⟨l, hl⟩ := h.path j
    show ∃ l, RootPath (Function.update s.parent i (some p)) j l
    induction hl with
    | @root k hr =>
      by_cases hki : k = i
      · subst hki; exact ⟨_, hip⟩
      · exact ⟨[k], .root (by rw [Function.update_of_ne hki, hr])⟩
    | @step k q l hk _ ih =>
      by_cases hki : k = i
      · subst hki; exact ⟨_, hip⟩
      · obtain ⟨l', hl'⟩ := ih
        exact ⟨k :: l', .step (by rw [Function.update_of_ne hki, hk]) hl'⟩
  · exact h.reg_ok
  · intro q
    simp only [Function.update_apply]

theorem ancestorOrSelf_detach {s s' : State} {i j : ℕ}
    (hp : s'.parent = Function.update s.parent i none) {k : ℕ}
    (h : AncestorOrSelf s' k j) : AncestorOrSelf s k j := by
  induction h with
  | refl => exact .refl
  | tail _ hab ih =>
    refine ih.tail ?_
    unfold ParentOf at *
    rw [hp] at hab
    simp only [Function.update_apply] at hab
    split at hab
    · cases hab
    · exact hab

/-- Complete description of the parent setter in a well-formed state. -/
theorem setParent_spec {s : State} (h : WF s) {i : ℕ} {v : Option ℕ} (hi : i < s.size)
    (hv : ∀ p, v = some p → p < s.size) :
    (∃ p, v = some p ∧ s.parent i ≠ v ∧ AncestorOrSelf s p i ∧
      s.setParent i v = (s, .error .loopError)) ∨
    (∃ s', (∀ p, v = some p → ¬ AncestorOrSelf s p i) ∧
      s.setParent i v = (s', .ok ()) ∧ WF s' ∧ s'.parent = Function.update s.parent i v ∧
      s'.size = s.size ∧ s'.name = s.name ∧ s'.data = s.data ∧ s'.reg = s.reg) := by
  unfold State.setParent
  by_cases hsame : s.parent i = v
  · right
    refine ⟨s, ?_, by simp [hsame], h, ?_, rfl, rfl, rfl, rfl⟩
    · intro p hp hc
      subst hp
      exact h.acyclic i (Relation.TransGen.head' hsame hc)
    · rw [← hsame, Function.update_eq_self]
  · simp only [hsame, if_false]
    obtain ⟨s', hd, hwf, hpar, hsz, hnm, hda, hre, _⟩ := detach_spec h i
    cases v with
    | none =>
      right
      refine ⟨s', by simp, ?_, hwf, hpar, hsz, hnm, hda, hre⟩
      simp [State.checkLoop, hd, State.attach]
    | some p =>
      have hmem := (RootPath.mem_iff (h.pathReverse (hv p rfl)) : i ∈ _ ↔ _)
      by_cases hanc : AncestorOrSelf s p i
      · left
        refine ⟨p, rfl, hsame, hanc, ?_⟩
        have : s.checkLoop i (some p) = .error .loopError := by
          simp only [State.checkLoop, hmem.mpr hanc, if_true]
          split <;> rfl
        rw [this]
      · right
        have hne : p ≠ i := by rintro rfl; exact hanc .refl
        have : s.checkLoop i (some p) = .ok () := by
          simp only [State.checkLoop, hne, if_false]
          rw [if_neg (fun hc => hanc (hmem.mp hc))]
        rw [this]
        simp only [hd]
        obtain ⟨s2, ha, hwf2, hpar2, hsz2, hnm2, hda2, hre2, _⟩ :=
          attach_spec hwf (i := i) (p := p) (by rw [hsz]; exact hi) (by rw [hsz]; exact hv p rfl)
            (by rw [hpar]; simp) (fun hc => hanc (ancestorOrSelf_detach hpar hc))
        refine ⟨s2, by simpa using hanc, ha, hwf2, ?_, by rw [hsz2, hsz], by rw [hnm2, hnm],
          by rw [hda2, hda], by rw [hre2, hre]⟩
        rw [hpar2, hpar]; simp

end RBM
