import Verif.Lemmas.Registry

namespace RBM

open Spec

/-- longest common prefix -/
def lcp : List ℕ → List ℕ → List ℕ
  | x :: p, y :: q => if x = y then x :: lcp p q else []
  | _, _ => []

/-- Equal entries at equal positions are preceded by equal prefixes. -/
def TreeProp (p q : List ℕ) : Prop :=
  ∀ k x, p[k]? = some x → q[k]? = some x → p.take k = q.take k

theorem calcCommon_eq_lcp : ∀ {p q : List ℕ}, TreeProp p q → calcCommon p q = lcp p q
  | [], q, _ => by simp [calcCommon, lcp]
  | x :: p, [], _ => by simp [calcCommon, lcp]
  | x :: p, y :: q, h => by
    by_cases hxy : x = y
    · subst hxy
      have h' : TreeProp p q := by
        intro k z hp hq
        have := h (k + 1) z (by simpa using hp) (by simpa using hq)
        simpa using this
      have := calcCommon_eq_lcp h'
      simp only [calcCommon] at this
      simp [calcCommon, lcp, this]
    · have : ∀ e ∈ List.zip (x :: p) (y :: q), e.1 ≠ e.2 := by
        intro e he heq
        obtain ⟨k, hk⟩ := List.mem_iff_getElem?.mp he
        obtain ⟨a, b⟩ := e
        simp only at heq; subst heq
        have hk' := List.getElem?_zip_eq_some.mp hk
        have := h k a hk'.1 hk'.2
        cases k with
        | zero => simp at hk'; exact hxy (hk'.1.trans hk'.2.symm)
        | succ k => simp at this; exact hxy this.1
      simp only [calcCommon, lcp, hxy, if_false]
      rw [List.filterMap_eq_nil_iff]
      intro e he
      simp [this e he]

theorem lcp_spec : ∀ (p q : List ℕ), ∃ p' q', p = lcp p q ++ p' ∧ q = lcp p q ++ q' ∧
    (∀ x y p'' q'', p' = x :: p'' → q' = y :: q'' → x ≠ y)
  | [], q => ⟨[], q, by simp [lcp], by simp [lcp], by simp⟩
  | x :: p, [] => ⟨x :: p, [], by simp [lcp], by simp [lcp], by simp⟩
  | x :: p, y :: q => by
    by_cases h : x = y
    · subst h
      obtain ⟨p', q', h1, h2, h3⟩ := lcp_spec p q
      refine ⟨p', q', ?_, ?_, h3⟩
      · simp only [lcp, if_true, List.cons_append]; rw [← h1]
      · simp only [lcp, if_true, List.cons_append]; rw [← h2]
    · refine ⟨x :: p, y :: q, by simp [lcp, h], by simp [lcp, h], ?_⟩
      intro a b c d e1 e2; cases e1; cases e2; exact h

/-- The position of `j` in a reversed root path determines the prefix. -/
theorem Spec.RootPath.reverse_prefix {par : ℕ → Option ℕ} {i j : ℕ} {l : List ℕ} (h : RootPath par i l)
    {k : ℕ} (hk : l.reverse[k]? = some j) : RootPath par j (l.reverse.take (k + 1)).reverse := by
  have hm : j ∈ l := List.mem_reverse.mp (List.mem_of_getElem? hk)
  obtain ⟨pre, l', e, h'⟩ := h.suffix hm
  obtain ⟨l'', rfl⟩ := h'.head
  subst e
  have hnd := h.nodup
  have hk2 : (pre ++ j :: l'').reverse[l''.length]? = some j := by
    simp [List.reverse_append, List.getElem?_append]
  have hkk : k = l''.length := by
    have hnd' := List.nodup_reverse.mpr hnd
    have h1 : k < (pre ++ j :: l'').reverse.length := (List.getElem?_eq_some_iff.mp hk).1
    exact (List.getElem?_inj h1 hnd').mp (hk.trans hk2.symm)
  subst hkk
  have : List.take (l''.length + 1) (pre ++ j :: l'').reverse = (j :: l'').reverse := by
    rw [List.reverse_append]
    rw [List.take_append_of_le_length (by simp)]
    rw [List.take_of_length_le (by simp)]
  rw [this, List.reverse_reverse]
  exact h'

theorem treeProp_paths {par : ℕ → Option ℕ} {a b : ℕ} {la lb : List ℕ}
    (ha : RootPath par a la) (hb : RootPath par b lb) : TreeProp la.reverse lb.reverse := by
  intro k x hp hq
  have h1 := ha.reverse_prefix hp
  have h2 := hb.reverse_prefix hq
  have h3 := List.reverse_injective (RootPath.unique h1 h2)
  have := congrArg (List.take k) h3
  simpa [List.take_take] using this

theorem pathTo_of_rootPath {par : ℕ → Option ℕ} {c : ℕ} {l2 : List ℕ} :
    ∀ {l : List ℕ} {a : ℕ}, RootPath par a (l ++ c :: l2) → PathTo par c a l
  | [], a, h => by
    obtain ⟨l', e⟩ := h.head
    cases e; exact .here
  | x :: l, a, h => by
    have hnd := h.nodup
    obtain ⟨l', e⟩ := h.head
    have hx : x = a := by cases e; rfl
    subst hx
    have hxc : x ≠ c := by
      rintro rfl
      simp at hnd
    generalize hl : x :: l ++ c :: l2 = m at h
    cases h with
    | root _ => simp at hl
    | step hp h' =>
      simp only [List.cons_append, List.cons.injEq, true_and] at hl
      subst hl
      exact .up hxc hp (pathTo_of_rootPath h')

theorem pathTo_reverse_append {par : ℕ → Option ℕ} {c a : ℕ} {l lc : List ℕ} (h : PathTo par c a l)
    (hc : RootPath par c lc) : RootPath par a (l ++ lc) := by
  induction h with
  | here => simpa using hc
  | up _ hp _ ih => exact .step hp ih

theorem ancestorOrSelf_of_pathTo {s : State} {c a : ℕ} {l : List ℕ} (h : PathTo s.parent c a l) :
    AncestorOrSelf s a c := by
  induction h with
  | here => exact .refl
  | up _ hp _ ih => exact .head hp ih

/-- Main fact about `Walker.walk`. -/
theorem walk_spec {s : State} (h : WF s) {a b : ℕ} (ha : a < s.size) (hb : b < s.size) :
    ((¬ ∃ c, AncestorOrSelf s a c ∧ AncestorOrSelf s b c) ∧
      walkPaths (s.path a) (s.path b) = .error .walkError) ∨
    (∃ c up down, NearestCommon s a b c ∧ PathTo s.parent c a up ∧
      PathTo s.parent c b down.reverse ∧ walkPaths (s.path a) (s.path b) = .ok (up, down)) := by
  have pa := h.pathReverse ha
  have pb := h.pathReverse hb
  have htp := treeProp_paths pa pb
  have hcc := calcCommon_eq_lcp htp
  obtain ⟨p', q', e1, e2, e3⟩ := lcp_spec (s.pathReverse a).reverse (s.pathReverse b).reverse
  set L := lcp (s.pathReverse a).reverse (s.pathReverse b).reverse with hL
  have hmemL : ∀ d, AncestorOrSelf s a d → AncestorOrSelf s b d → d ∈ L := by
    intro d hda hdb
    obtain ⟨pre1, l1, f1, g1⟩ := pa.suffix ((RootPath.mem_iff pa).mpr hda)
    obtain ⟨pre2, l2, f2, g2⟩ := pb.suffix ((RootPath.mem_iff pb).mpr hdb)
    have := RootPath.unique g1 g2
    subst this
    obtain ⟨l', rfl⟩ := g1.head
    rw [hL, f1, f2, List.reverse_append, List.reverse_append]
    have : ∀ (r x y : List ℕ), ∀ z ∈ r, z ∈ lcp (r ++ x) (r ++ y) := by
      intro r x y
      induction r with
      | nil => simp
      | cons w r ih =>
        intro z hz
        simp only [List.cons_append, lcp, if_true]
        rcases List.mem_cons.mp hz with rfl | hz
        · simp
        · exact List.mem_cons_of_mem _ (ih z hz)
    exact this _ _ _ d (by simp)
  by_cases hLnil : L = []
  · left
    refine ⟨?_, ?_⟩
    · rintro ⟨c, h1, h2⟩
      have := hmemL c h1 h2
      rw [hLnil] at this; simp at this
    · have hne : (s.path a).head? ≠ (s.path b).head? := by
        intro heq
        rw [hLnil] at e1 e2
        simp only [List.nil_append] at e1 e2
        have hpn : (s.pathReverse a).reverse ≠ [] := by
          obtain ⟨l', e⟩ := pa.head; rw [e]; simp
        have hqn : (s.pathReverse b).reverse ≠ [] := by
          obtain ⟨l', e⟩ := pb.head; rw [e]; simp
        obtain ⟨x, p'', hx⟩ := List.exists_cons_of_ne_nil (e1 ▸ hpn)
        obtain ⟨y, q'', hy⟩ := List.exists_cons_of_ne_nil (e2 ▸ hqn)
        have := e3 x y p'' q'' hx hy
        unfold State.path at heq
        rw [e1, e2, hx, hy] at heq
        simp at heq
        exact this heq
      simp [walkPaths, hne]
  · right
    obtain ⟨L', c, hLc⟩ : ∃ L' c, L = L' ++ [c] := ⟨L.dropLast, L.getLast hLnil, (List.dropLast_append_getLast hLnil).symm⟩
    have ra : s.pathReverse a = p'.reverse ++ c :: L'.reverse := by
      have := congrArg List.reverse e1
      simpa [hLc] using this
    have rb : s.pathReverse b = q'.reverse ++ c :: L'.reverse := by
      have := congrArg List.reverse e2
      simpa [hLc] using this
    have pta : PathTo s.parent c a p'.reverse := pathTo_of_rootPath (ra ▸ pa)
    have ptb : PathTo s.parent c b q'.reverse := pathTo_of_rootPath (rb ▸ pb)
    refine ⟨c, p'.reverse, q', ⟨ancestorOrSelf_of_pathTo pta, ancestorOrSelf_of_pathTo ptb, ?_⟩,
      pta, ptb, ?_⟩
    · intro d hda hdb
      have hd := hmemL d hda hdb
      have hc : c ∈ s.pathReverse a := by rw [ra]; simp
      obtain ⟨pre, lc, f, g⟩ := pa.suffix hc
      obtain ⟨lc', rfl⟩ := g.head
      rw [ra] at f
      have hnd := pa.nodup
      have hlen : pre = p'.reverse ∧ lc' = L'.reverse := by
        have hnd1 := ra ▸ hnd
        have h1 : c ∉ p'.reverse := by
          intro hc; exact (List.disjoint_of_nodup_append hnd1) hc (by simp)
        have hnd2 := f ▸ hnd1
        have h2 : c ∉ pre := by
          intro hc; exact (List.disjoint_of_nodup_append hnd2) hc (by simp)
        rcases List.append_eq_append_iff.mp f with ⟨z, z1, z2⟩ | ⟨z, z1, z2⟩
        · cases z with
          | nil => simp at z1 z2; exact ⟨z1, z2.symm⟩
          | cons w z => simp at z2; exact absurd (by rw [z1, ← z2.1]; simp) h2
        · cases z with
          | nil => simp at z1 z2; exact ⟨z1.symm, z2⟩
          | cons w z => simp at z2; exact absurd (by rw [z1, ← z2.1]; simp) h1
      rw [hlen.2] at g
      refine (RootPath.mem_iff g).mp ?_
      rw [hLc] at hd
      simp at hd ⊢
      tauto
    · have hhead : (s.path a).head? = (s.path b).head? := by
        unfold State.path
        rw [e1, e2, hLc]
        simp
      have hcl : (calcCommon (s.path a) (s.path b)).length = L.length := by
        unfold State.path; rw [hcc]
      simp only [walkPaths, hhead, ne_eq, not_true, if_false, hcl]
      unfold State.path
      have d1 : (s.pathReverse a).reverse.drop L.length = p' := by
        conv_lhs => rw [e1]
        simp
      have d2 : (s.pathReverse b).reverse.drop L.length = q' := by
        conv_lhs => rw [e2]
        simp
      rw [d1, d2]

end RBM
