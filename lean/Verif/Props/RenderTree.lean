import Verif.Spec.Outline
import Verif.Lemmas.Tree
import Verif.Lemmas.Registry
import Verif.Lemmas.Example

/-!
C65: `render_tree`.
-/

namespace RBM.Props

open RBM RBM.Spec

theorem withContinues_fst (l : List ℕ) : (withContinues l).map Prod.fst = l := by
  induction l with
  | nil => rfl
  | cons c l ih =>
    cases l with
    | nil => rfl
    | cons d l => simp [withContinues] at ih ⊢; exact ih

theorem renderRows_snd (children : ℕ → List ℕ) (f : ℕ) : ∀ cont i, (renderRows children f cont i).map Prod.snd = preorder children f i := by
  induction f with
  | zero => intro cont i; rfl
  | succ f ih =>
    intro cont i
    simp only [renderRows, preorder, List.map_cons, List.map_flatMap, ih]
    congr 1
    conv_rhs => rw [← withContinues_fst (children i)]
    rw [List.flatMap_map]

theorem withContinues_flag {l : List ℕ} (hn : l.Nodup) {c : ℕ} {b : Bool} (h : (c, b) ∈ withContinues l) : b = false ↔ l.getLast? = some c := by
  induction l with
  | nil => simp [withContinues] at h
  | cons x l ih =>
    cases l with
    | nil =>
      simp [withContinues] at h
      simp [h.1, h.2]
    | cons y l =>
      simp only [withContinues, List.mem_cons] at h
      obtain ⟨hx, hn⟩ := List.nodup_cons.mp hn
      rcases h with h | h
      · simp only [Prod.mk.injEq] at h
        obtain ⟨rfl, rfl⟩ := h
        constructor
        · intro h; cases h
        · intro h
          rw [List.getLast?_cons_cons] at h
          exact absurd (List.mem_of_getLast? h) hx
      · rw [List.getLast?_cons_cons]
        exact ih hn (by simpa [withContinues] using h)

theorem flatMap_split {α β : Type} (g : α → List β) (cs : List α) {X Y : List β} {r : β} (h : cs.flatMap g = X ++ r :: Y) :
    ∃ cs1 c cs2 X' Y', cs = cs1 ++ c :: cs2 ∧ g c = X' ++ r :: Y' ∧ X = cs1.flatMap g ++ X' := by
  induction cs generalizing X with
  | nil => simp at h
  | cons c cs ih =>
    rw [List.flatMap_cons, List.append_eq_append_iff] at h
    rcases h with ⟨X', hX, h⟩ | ⟨C, hC, h⟩
    · obtain ⟨cs1, c', cs2, X'', Y', h1, h2, h3⟩ := ih h
      exact ⟨c :: cs1, c', cs2, X'', Y', by simp [h1], h2, by simp [hX, h3]⟩
    · cases C with
      | nil =>
        simp only [List.nil_append] at h
        obtain ⟨cs1, c', cs2, X'', Y', h1, h2, h3⟩ := ih (X := []) (by simpa using h.symm)
        refine ⟨c :: cs1, c', cs2, X'', Y', by simp [h1], h2, ?_⟩
        rw [List.flatMap_cons, List.append_assoc, ← h3, List.append_nil]
        simpa using hC.symm
      | cons x C =>
        simp only [List.cons_append, List.cons.injEq] at h
        obtain ⟨rfl, rfl⟩ := h
        exact ⟨[], c, cs, X, C, rfl, hC, rfl⟩

theorem renderRows_deep (children : ℕ → List ℕ) (f : ℕ) : ∀ cont i, ∀ r ∈ renderRows children f cont i, cont.length ≤ r.1.length := by
  induction f with
  | zero => intro cont i r hr; simp [renderRows] at hr
  | succ f ih =>
    intro cont i r hr
    simp only [renderRows, List.mem_cons, List.mem_flatMap] at hr
    rcases hr with rfl | ⟨c, -, hr⟩
    · exact le_rfl
    · have := ih _ _ r hr
      simp at this
      omega

theorem renderRows_parent (children : ℕ → List ℕ) (f : ℕ) : ∀ cont i X r Y, renderRows children f cont i = X ++ r :: Y →
    (X = [] ∧ r = (cont, i)) ∨ ∃ X1 q X2 b, X = X1 ++ q :: X2 ∧ r.1 = q.1 ++ [b] ∧ (r.2, b) ∈ withContinues (children q.2) ∧
      ∀ m ∈ X2, r.1.length ≤ m.1.length := by
  induction f with
  | zero => intro cont i X r Y h; simp [renderRows] at h
  | succ f ih =>
    intro cont i X r Y h
    simp only [renderRows] at h
    cases X with
    | nil =>
      simp only [List.nil_append, List.cons.injEq] at h
      exact Or.inl ⟨rfl, h.1.symm⟩
    | cons x X =>
      simp only [List.cons_append, List.cons.injEq] at h
      obtain ⟨rfl, h⟩ := h
      right
      obtain ⟨cs1, c, cs2, X', Y', h1, h2, h3⟩ := flatMap_split _ _ h
      rcases ih _ _ _ _ _ h2 with ⟨rfl, rfl⟩ | ⟨X1, q, X2, b, g1, g2, g3, g4⟩
      · refine ⟨[], (cont, i), X, c.2, rfl, rfl, ?_, ?_⟩
        · rw [h1]; simp
        · intro m hm
          rw [h3, List.append_nil, List.mem_flatMap] at hm
          obtain ⟨c', -, hm⟩ := hm
          have := renderRows_deep children f _ _ m hm
          simpa using this
      · exact ⟨(cont, i) :: cs1.flatMap (fun c => renderRows children f (cont ++ [c.2]) c.1) ++ X1, q, X2, b, by simp [h3, g1], g2, g3, g4⟩

theorem preorder_order {s : State} (h : WF s) : ∀ (n i p : ℕ) (l : List ℕ), l.length = n → PathTo s.parent i p l → ∀ f, n + 1 < f →
    (s.children p).Sublist (preorder s.children f i) := by
  intro n
  induction n with
  | zero =>
    intro i p l hn hl f hf
    obtain ⟨f, rfl⟩ : ∃ k, f = k + 2 := ⟨f - 2, by omega⟩
    cases hl with
    | here =>
      simp only [preorder]
      refine List.Sublist.cons _ ?_
      have : ∀ cs : List ℕ, cs.Sublist (cs.flatMap fun c => c :: (s.children c).flatMap (preorder s.children f)) := by
        intro cs
        induction cs with
        | nil => simp
        | cons c cs ih =>
          rw [List.flatMap_cons, List.cons_append]
          exact (ih.trans (List.sublist_append_right _ _)).cons_cons _
      exact this _
    | up => simp at hn
  | succ n ih =>
    intro i p l hn hl f hf
    obtain ⟨f, rfl⟩ : ∃ k, f = k + 1 := ⟨f - 1, by omega⟩
    have : ∃ c l', s.parent c = some i ∧ PathTo s.parent c p l' ∧ l'.length = n := by
      clear ih hf
      induction hl generalizing n with
      | here => simp at hn
      | @up a q l' ha hp hl ihl =>
        cases n with
        | zero =>
          cases hl with
          | here => exact ⟨a, [], hp, .here, rfl⟩
          | up => simp at hn
        | succ n =>
          obtain ⟨c, l'', h1, h2, h3⟩ := ihl n (by simpa using hn)
          refine ⟨c, a :: l'', h1, ?_, by simp [h3]⟩
          refine .up ?_ hp h2
          rintro rfl
          exact h.acyclic a (Relation.TransGen.head'_iff.mpr ⟨q, hp, anc_of_pathTo h2⟩)
    obtain ⟨c, l', h1, h2, h3⟩ := this
    have hsub := ih c p l' h3 h2 f (by omega)
    simp only [preorder]
    refine List.Sublist.cons _ (hsub.trans ?_)
    rw [List.flatMap]
    exact List.sublist_flatten_of_mem (List.mem_map.mpr ⟨c, h.children_of.mpr h1, rfl⟩)

theorem len4 : "│   ".length = 4 ∧ "    ".length = 4 ∧ "├── ".length = 4 ∧ "└── ".length = 4 := by
  refine ⟨by rfl, by rfl, by rfl, by rfl⟩

theorem join_length (l : List Bool) : (String.join (l.map fun c => if c then "│   " else "    ")).length = 4 * l.length := by
  induction l with
  | nil => rfl
  | cons c l ih =>
    rw [List.map_cons, String.join_cons, String.length_append, ih]
    obtain ⟨e1, e2, -, -⟩ := len4
    cases c <;> simp [e1, e2] <;> omega

/-- `render_tree(root)` prints an outline of the frames below `root`. -/
theorem C65_outline {s : State} {h : List Event} (hr : Reachable s h) {root : FrameRef} {i : ℕ} (hi : s.resolve root = .ok i) (hsz : i < s.size) :
    ∃ lines rows, s.renderTree root = .ok lines ∧ Outline s i rows ∧ List.Forall₂ (fun x line => ShowsFrame s x.1 x.2 line) rows lines := by
  have hwf := hr.wf
  let R := renderRows s.children s.size [] i
  have hsnd : (R.map fun x => (x.1.length, x.2)).map Prod.snd = s.preOrder i := by
    rw [List.map_map]
    exact renderRows_snd s.children s.size [] i
  refine ⟨R.map fun r => renderPre r.1 ++ (s.name r.2).getD "None", R.map fun x => (x.1.length, x.2), by simp only [State.renderTree, hi]; rfl, ⟨?_, ?_, ?_, ?_, ?_⟩, ?_⟩
  · rw [hsnd]; exact nodup_preOrder hwf i
  · intro j; rw [hsnd]; exact mem_preOrder hwf hsz j
  · obtain ⟨f, hf⟩ : ∃ f, s.size = f + 1 := ⟨s.size - 1, by omega⟩
    simp only [R, hf, renderRows, List.map_cons, List.length_nil]
    exact ⟨_, rfl⟩
  · intro before after d j hrows hne
    obtain ⟨X, Z, hR, hX, hZ⟩ := List.map_eq_append_iff.mp hrows
    obtain ⟨r, Y, rfl, hr', hY⟩ := List.map_eq_cons_iff.mp hZ
    rcases renderRows_parent s.children s.size [] i X r Y hR with ⟨rfl, -⟩ | ⟨X1, q, X2, b, h1, h2, h3, h4⟩
    · exact absurd hX.symm (by simpa using hne)
    · simp only [Prod.mk.injEq] at hr'
      obtain ⟨rfl, rfl⟩ := hr'
      refine ⟨X1.map fun x => (x.1.length, x.2), q.1.length, q.2, X2.map fun x => (x.1.length, x.2), by rw [← hX, h1]; simp, ?_, by simp [h2], ?_⟩
      · have hc : r.2 ∈ s.children q.2 := by
          rw [← withContinues_fst (s.children q.2)]
          exact List.mem_map.mpr ⟨_, h3, rfl⟩
        exact hwf.children_of.mp hc
      · intro x hx
        obtain ⟨m, hm, rfl⟩ := List.mem_map.mp hx
        exact h4 m hm
  · intro p hp
    rw [hsnd]
    by_cases hc : s.children p = []
    · rw [hc]; exact List.nil_sublist _
    · obtain ⟨c, hc⟩ := List.exists_mem_of_ne_nil _ hc
      have hcp := hwf.children_of.mp hc
      obtain ⟨l, hl⟩ := pathTo_of_anc hwf hp
      have hci : c ≠ i := by
        rintro rfl
        exact hwf.acyclic c (Relation.TransGen.head'_iff.mpr ⟨p, hcp, hp⟩)
      have := pathTo_length_lt hwf (.up hci hcp hl) (hwf.parent_lt c p hcp).1
      exact preorder_order hwf _ i p l rfl hl s.size (by simpa using this)
  · rw [List.forall₂_map_left_iff, List.forall₂_map_right_iff, List.forall₂_same]
    intro r hrm
    obtain ⟨X, Y, hXY⟩ := List.append_of_mem hrm
    have key := renderRows_parent s.children s.size [] i X r Y hXY
    refine ⟨renderPre r.1, rfl, ?_, ?_⟩
    · rcases List.eq_nil_or_concat r.1 with h0 | ⟨c, b, h0⟩
      · rw [h0]; simp [renderPre]
      · rw [h0, List.concat_eq_append]
        simp only [renderPre, List.getLast?_append, List.getLast?_singleton, Option.some_or, List.dropLast_concat]
        rw [String.length_append, join_length]
        obtain ⟨-, -, e3, e4⟩ := len4
        cases b <;> simp [e3, e4] <;> omega
    · intro p hd hp
      rcases key with ⟨-, h2⟩ | ⟨X1, q, X2, b, h1, h2, h3, h4⟩
      · rw [h2] at hd; simp at hd
      · have hc : r.2 ∈ s.children q.2 := by
          rw [← withContinues_fst (s.children q.2)]
          exact List.mem_map.mpr ⟨_, h3, rfl⟩
        have hpq : p = q.2 := by
          have := hwf.children_of.mp hc
          unfold ParentOf at this
          rw [hp] at this
          exact Option.some.inj this
        subst hpq
        have hflag := withContinues_flag (hwf.nodup q.2) h3
        refine ⟨String.join (q.1.map fun c => if c then "│   " else "    "), ?_⟩
        rw [h2]
        simp only [renderPre, List.getLast?_append, List.getLast?_singleton, Option.some_or, List.dropLast_concat]
        cases b with
        | false => rw [if_pos (hflag.mp rfl)]; simp
        | true =>
          have : ¬ (s.children q.2).getLast? = some r.2 := fun e => by have := hflag.mpr e; cases this
          simp [this]

/-- Unknown names and other objects are refused. -/
theorem C65_error (s : State) (n : String) (hn : dictGet s.reg n = none) :
    s.renderTree (.byName n) = .error .valueError ∧ s.renderTree .other = .error .typeError := by
  simp [State.renderTree, State.resolve, hn]

/-- The tree of the example. -/
example : Ex.s4.renderTree (.byName "world") = .ok ["world", "├── a", "│   └── b", "└── c"] := by
  rw [Ex.s4_eq]
  simp [State.renderTree, State.resolve, dictGet, List.lookup, renderRows, withContinues, renderPre, String.join]

end RBM.Props
