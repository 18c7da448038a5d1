import Verif.Model.Tree
import Verif.Lemmas.Forest
import Mathlib.Data.List.Nodup

/-!
Preorder enumeration of the frames below a frame.
-/

namespace RBM

open RBM.Spec

/-- Height of a frame above the bound. -/
theorem WF.children_of {s : State} (h : WF s) {i c : ℕ} : c ∈ s.children i ↔ ParentOf s c i := h.child_iff c i

theorem mem_preorder_anc {s : State} (h : WF s) (f i j : ℕ) (hj : j ∈ preorder s.children f i) : AncestorOrSelf s j i := by
  induction f generalizing i with
  | zero => simp [preorder] at hj
  | succ f ih =>
    simp only [preorder, List.mem_cons, List.mem_flatMap] at hj
    rcases hj with rfl | ⟨c, hc, hj⟩
    · exact .refl
    · exact (ih c hj).trans (.single (h.children_of.mp hc))

theorem anc_of_pathTo {s : State} {c a : ℕ} {l : List ℕ} (h : PathTo s.parent c a l) : AncestorOrSelf s a c := by
  induction h with
  | here => exact .refl
  | up _ hp _ ih => exact .head hp ih

/-- Going down at most `f` levels. -/
theorem mem_preorder_of_path {s : State} (h : WF s) {i j : ℕ} {l : List ℕ} (hl : PathTo s.parent i j l) :
    ∀ f, l.length < f → j ∈ preorder s.children f i := by
  -- walk the path from the top: induction on the length
  have key : ∀ (n : ℕ) (i j : ℕ) (l : List ℕ), l.length = n → PathTo s.parent i j l → ∀ f, n < f → j ∈ preorder s.children f i := by
    intro n
    induction n with
    | zero =>
      intro i j l hn hl f hf
      cases hl with
      | here => obtain ⟨f, rfl⟩ := Nat.exists_eq_succ_of_ne_zero (by omega : f ≠ 0); simp [preorder]
      | up => simp at hn
    | succ n ih =>
      intro i j l hn hl f hf
      obtain ⟨f, rfl⟩ := Nat.exists_eq_succ_of_ne_zero (by omega : f ≠ 0)
      -- the last element of the path is a child of `i`
      have : ∃ c l', s.parent c = some i ∧ PathTo s.parent c j l' ∧ l'.length = n := by
        clear ih hf
        induction hl generalizing n with
        | here => simp at hn
        | @up a p l' ha hp hl ihl =>
          cases n with
          | zero =>
            cases hl with
            | here => exact ⟨a, [], hp, .here, rfl⟩
            | up => simp at hn
          | succ n =>
            obtain ⟨c, l'', h1, h2, h3⟩ := ihl n (by simpa using hn)
            refine ⟨c, a :: l'', h1, ?_, by simp [h3]⟩
            refine .up ?_ hp h2
            rintro rfl
            -- `a` would be its own ancestor
            exact h.acyclic a (Relation.TransGen.head'_iff.mpr ⟨p, hp, anc_of_pathTo h2⟩)
      obtain ⟨c, l', h1, h2, h3⟩ := this
      simp only [preorder, List.mem_cons, List.mem_flatMap]
      exact Or.inr ⟨c, h.children_of.mpr h1, ih c j l' h3 h2 f (by omega)⟩
  exact key _ i j l rfl hl

theorem pathTo_of_anc {s : State} (h : WF s) {i j : ℕ} (hj : AncestorOrSelf s j i) : ∃ l, PathTo s.parent i j l := by
  induction hj using Relation.ReflTransGen.head_induction_on with
  | refl => exact ⟨[], .here⟩
  | @head a b hab hb ih =>
    obtain ⟨l, hl⟩ := ih
    refine ⟨a :: l, .up ?_ hab hl⟩
    rintro rfl
    exact h.acyclic a (Relation.TransGen.head'_iff.mpr ⟨b, hab, hb⟩)

theorem pathTo_rootPath {s : State} {i j : ℕ} {l m : List ℕ} (hl : PathTo s.parent i j l) (hm : RootPath s.parent i m) :
    RootPath s.parent j (l ++ m) := by
  induction hl with
  | here => exact hm
  | up _ hp _ ih => exact .step hp ih

theorem pathTo_length_lt {s : State} (h : WF s) {i j : ℕ} {l : List ℕ} (hl : PathTo s.parent i j l) (hj : j < s.size) : l.length < s.size := by
  obtain ⟨m, hm⟩ := h.path i
  have := (pathTo_rootPath hl hm).length_le (fun a b hab => (h.parent_lt a b hab).2) hj
  obtain ⟨m', rfl⟩ := RootPath.head hm
  simp only [List.length_append, List.length_cons] at this
  omega

theorem anc_lt {s : State} (h : WF s) {i j : ℕ} (hj : AncestorOrSelf s j i) (hi : i < s.size) : j < s.size := by
  rcases Relation.ReflTransGen.cases_head hj with rfl | ⟨p, hp, -⟩
  · exact hi
  · exact (h.parent_lt _ _ hp).1

/-- The preorder of a frame enumerates exactly the frames below it. -/
theorem mem_preOrder {s : State} (h : WF s) {i : ℕ} (hi : i < s.size) (j : ℕ) : j ∈ s.preOrder i ↔ AncestorOrSelf s j i := by
  constructor
  · exact mem_preorder_anc h _ i j
  · intro hj
    obtain ⟨l, hl⟩ := pathTo_of_anc h hj
    exact mem_preorder_of_path h hl _ (pathTo_length_lt h hl (anc_lt h hj hi))

/-- Two ancestors-or-self of a frame are comparable. -/
theorem anc_comparable {s : State} {j a b : ℕ} (ha : AncestorOrSelf s j a) (hb : AncestorOrSelf s j b) :
    AncestorOrSelf s a b ∨ AncestorOrSelf s b a := by
  induction ha using Relation.ReflTransGen.head_induction_on with
  | refl => exact Or.inl hb
  | @head x y hxy hy ih =>
    rcases Relation.ReflTransGen.cases_head hb with rfl | ⟨z, hz, hzb⟩
    · exact Or.inr (.head hxy hy)
    · have : y = z := by unfold ParentOf at hxy hz; rw [hxy] at hz; exact Option.some.inj hz
      subst this
      exact ih hzb

theorem siblings_disjoint {s : State} (h : WF s) {i c d j : ℕ} (hc : c ∈ s.children i) (hd : d ∈ s.children i) (hcd : c ≠ d)
    (jc : AncestorOrSelf s j c) (jd : AncestorOrSelf s j d) : False := by
  have pc := h.children_of.mp hc
  have pd := h.children_of.mp hd
  have cyc : ∀ x y : ℕ, ParentOf s x i → ParentOf s y i → x ≠ y → AncestorOrSelf s x y → False := by
    intro x y hx hy hxy hxy'
    rcases Relation.ReflTransGen.cases_head hxy' with rfl | ⟨z, hz, hzy⟩
    · exact hxy rfl
    · have : z = i := by unfold ParentOf at hx hz; rw [hx] at hz; exact (Option.some.inj hz).symm
      subst this
      exact h.acyclic z (Relation.TransGen.tail'_iff.mpr ⟨y, hzy, hy⟩)
  rcases anc_comparable jc jd with hx | hx
  · exact cyc c d pc pd hcd hx
  · exact cyc d c pd pc (Ne.symm hcd) hx

theorem nodup_preorder {s : State} (h : WF s) (f i : ℕ) : (preorder s.children f i).Nodup := by
  induction f generalizing i with
  | zero => simp [preorder]
  | succ f ih =>
    simp only [preorder]
    refine List.nodup_cons.mpr ⟨?_, ?_⟩
    · intro hm
      obtain ⟨c, hc, hm⟩ := List.mem_flatMap.mp hm
      exact h.acyclic i (Relation.TransGen.tail'_iff.mpr ⟨c, mem_preorder_anc h _ _ _ hm, h.children_of.mp hc⟩)
    · rw [List.nodup_flatMap]
      refine ⟨fun c _ => ih c, ?_⟩
      have := h.nodup i
      rw [List.nodup_iff_pairwise_ne] at this
      refine List.Pairwise.imp_of_mem ?_ this
      intro c d hc hd hcd j jc jd
      exact siblings_disjoint h hc hd hcd (mem_preorder_anc h _ _ _ jc) (mem_preorder_anc h _ _ _ jd)

theorem nodup_preOrder {s : State} (h : WF s) (i : ℕ) : (s.preOrder i).Nodup := nodup_preorder h _ _

theorem RootPath_last {s : State} {i : ℕ} {l : List ℕ} (h : RootPath s.parent i l) :
    ∃ r, l.getLast? = some r ∧ s.parent r = none ∧ AncestorOrSelf s i r := by
  induction h with
  | root hr => exact ⟨_, rfl, hr, .refl⟩
  | @step i p l hp hl ih =>
    obtain ⟨r, h1, h2, h3⟩ := ih
    refine ⟨r, ?_, h2, .head hp h3⟩
    obtain ⟨l', rfl⟩ := RootPath.head hl
    rw [List.getLast?_cons_cons]
    exact h1

theorem root_spec {s : State} (h : WF s) {i : ℕ} (hi : i < s.size) :
    s.parent (s.root i) = none ∧ AncestorOrSelf s i (s.root i) ∧ s.root i < s.size := by
  obtain ⟨r, h1, h2, h3⟩ := RootPath_last (h.pathReverse hi)
  have e : s.root i = r := by simp [State.root, h1]
  rw [e]
  refine ⟨h2, h3, ?_⟩
  have := (h.pathReverse hi).mem_lt (fun a b hab => (h.parent_lt a b hab).2) hi r ((RootPath.mem_iff (h.pathReverse hi)).mpr h3)
  exact this

theorem root_unique {s : State} {i r : ℕ} (h : AncestorOrSelf s i r) (hr : s.parent r = none) {r' : ℕ} (h' : AncestorOrSelf s i r')
    (hr' : s.parent r' = none) : r = r' := by
  have top : ∀ x y : ℕ, s.parent x = none → AncestorOrSelf s x y → x = y := by
    intro x y hx hxy
    rcases Relation.ReflTransGen.cases_head hxy with rfl | ⟨z, hz, -⟩
    · rfl
    · unfold ParentOf at hz; rw [hx] at hz; cases hz
  rcases anc_comparable h h' with hx | hx
  · exact top r r' hr hx
  · exact (top r' r hr' hx).symm

end RBM
