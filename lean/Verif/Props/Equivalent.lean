import Verif.Lemmas.Equivalent

/-!
C90: how the frames are attached to each other is a matter of bookkeeping.
-/

namespace RBM.Props

open RBM.Spec

/-- Two pairs of frames of two trees whose lookups pass the same timestamps and chain to the same transformation. -/
structure SameView (sq : SquadFn) (s s' : State) (a b a' b' : ℕ) : Prop where
  eq : a = b ↔ a' = b'
  ex : ∃ c la lb c' la' lb', NearestCommon s a b c ∧ PathTo s.parent c a la ∧ PathTo s.parent c b lb ∧ (∀ i ∈ la ++ lb, FrameOk true s i) ∧
    NearestCommon s' a' b' c' ∧ PathTo s'.parent c' a' la' ∧ PathTo s'.parent c' b' lb' ∧ (∀ i ∈ la' ++ lb', FrameOk true s' i) ∧
    (∀ disc, (la ++ lb.reverse).filterMap (stampsOf s disc) = (la' ++ lb'.reverse).filterMap (stampsOf s' disc)) ∧
    ∀ τ Pa Pb, List.Forall₂ (PoseOf sq s τ) la Pa → List.Forall₂ (PoseOf sq s τ) lb Pb → (∀ Q ∈ Pa ++ Pb, IsUnitQ Q.r) →
      ∃ Pa' Pb', List.Forall₂ (PoseOf sq s' τ) la' Pa' ∧ List.Forall₂ (PoseOf sq s' τ) lb' Pb' ∧
        (∀ Q ∈ Pa' ++ Pb', IsUnitQ Q.r) ∧ (chain Pb').inv.comp (chain Pa') = (chain Pb).inv.comp (chain Pa)

theorem poses_unit {sq : SquadFn} (hsq : SquadLaw sq) {s : State} {τ : ℝ} {l : List ℕ} {Ps : List Pose}
    (h : List.Forall₂ (PoseOf sq s τ) l Ps) (hok : ∀ i ∈ l, FrameOk true s i) : ∀ Q ∈ Ps, IsUnitQ Q.r := by
  induction h with
  | nil => simp
  | cons hx _ ih =>
    intro Q hQ
    rcases List.mem_cons.mp hQ with rfl | hQ
    · exact (poseOf_good (fun _ => hsq) (hok _ (List.mem_cons_self ..)) hx).2 rfl
    · exact ih (fun i h => hok i (List.mem_cons_of_mem _ h)) Q hQ

theorem SameView.lookup {sq : SquadFn} (hsq : SquadLaw sq) {s s' : State} {a b a' b' : ℕ} (hw : WF s) (hw' : WF s')
    (ha : a < s.size) (hb : b < s.size) (ha' : a' < s'.size) (hb' : b' < s'.size) (hv : SameView sq s s' a b a' b') :
    s'.lookupTransform sq a' (.byObj b') = s.lookupTransform sq a (.byObj b) := by
  obtain ⟨c, la, lb, c', la', lb', h1, h2, h3, h4, h5, h6, h7, h8, h9, h10⟩ := hv.ex
  refine mappedBy_id (lookup_mapped sq hsq hw hw' ha hb ha' hb' h1 h2 h3 h4 h5 h6 h7 h8 h9 _ ?_)
  intro τ Pa Pb k1 k2 k3
  obtain ⟨Pa', Pb', k4, k5, _, k6⟩ := h10 τ Pa Pb k1 k2 k3
  exact ⟨Pa', Pb', k4, k5, k6⟩

theorem SameView.facts {sq : SquadFn} (hsq : SquadLaw sq) {s s' : State} {a b a' b' : ℕ} (hw : WF s) (hw' : WF s')
    (hv : SameView sq s s' a b a' b') :
    PathAll s' a' b' (FrameOk true s') ∧ ∃ l l', Route s a b l ∧ Route s' a' b' l' ∧
      (∀ ats, outStamps s' l' ats = outStamps s l ats) ∧
      ∀ τ A A', IsTransformAt sq s a b τ A → IsTransformAt sq s' a' b' τ A' → A' = A := by
  obtain ⟨c, la, lb, c', la', lb', h1, h2, h3, h4, h5, h6, h7, h8, h9, h10⟩ := hv.ex
  have hp : PathAll s' a' b' (FrameOk true s') := ⟨c', la', lb', h5, h6, h7, h8⟩
  refine ⟨hp, _, _, ⟨c, la, lb, h1, h2, h3, rfl⟩, ⟨c', la', lb', h5, h6, h7, rfl⟩, ?_, ?_⟩
  · intro ats; simp only [outStamps, h9]
  · intro τ A A' hA hA'
    obtain ⟨⟨Pa, Pb, g1, g2, g3, rfl⟩, _⟩ := hA.chainAt hw (fun _ => hsq) h1 h2 h3 h4
    have hu : ∀ Q ∈ Pa ++ Pb, IsUnitQ Q.r := fun Q hQ => (List.mem_append.mp hQ).elim
      (poses_unit hsq g1 (fun i hi => h4 i (by simp [hi])) Q) (poses_unit hsq g2 (fun i hi => h4 i (by simp [hi])) Q)
    obtain ⟨Pa', Pb', k4, k5, k6, k7⟩ := h10 τ Pa Pb g1 g2 hu
    refine isTransformAt_unique hw' (fun _ => hsq) hp hA' ?_
    exact ChainAt.isTransformAt h5 h6 h7 ⟨Pa', Pb', k4, k5, fun Q hQ => (k6 Q hQ).ne_zero, k7.symm⟩

theorem merged_view (sq : SquadFn) (hsq : SquadLaw sq) (ht : SquadTurns sq) {s s' : State} {h h' : List Event}
    (hr : Reachable s h) (hr' : Reachable s' h') {φ : ℕ → ℕ} {f g : ℕ} {P : Pose} (hm : Merged s s' φ f g P)
    {a b : ℕ} (ha : a < s.size) (hb : b < s.size) (haf : a ≠ f) (hbf : b ≠ f) (hp : PathAll s a b (FrameOk true s)) :
    SameView sq s s' a b (φ a) (φ b) := by
  have hw := hr.wf
  have hw' := hr'.wf
  obtain ⟨c, la, lb, hc, hla, hlb, hok⟩ := hp
  have hgf : g ≠ f := by rintro rfl; exact hw.acyclic g (.single hm.parent)
  have hgl := (hw.parent_lt _ _ hm.parent).2
  have hcl := ancestorOrSelf_lt hw ha hc.1
  -- the common ancestor that stays, and the paths to it
  obtain ⟨c0, ma, mb, l0, hc0, hcf, h1, h2, h3, h4, h5, h6⟩ : ∃ c0 ma mb l0, c0 < s.size ∧ c0 ≠ f ∧
      PathTo s.parent c0 a (la ++ l0) ∧ PathTo s.parent c0 b (lb ++ l0) ∧ ma = la ++ l0 ∧ mb = lb ++ l0 ∧
      (l0 = [] ∨ l0 = [f]) ∧
      (∀ d, d ≠ f → AncestorOrSelf s a d → AncestorOrSelf s b d → AncestorOrSelf s c0 d) := by
    by_cases hcf : c = f
    · subst hcf
      have hpf : PathTo s.parent g c [c] := .up hgf.symm hm.parent .here
      refine ⟨g, _, _, [c], hgl, hgf, hla.append hw hpf, hlb.append hw hpf, rfl, rfl, .inr rfl, ?_⟩
      intro d hdf h1 h2
      rcases Relation.ReflTransGen.cases_head (hc.2.2 d h1 h2) with e | ⟨x, hx, h3⟩
      · exact absurd e.symm hdf
      · have : x = g := Option.some.inj (hx.symm.trans hm.parent)
        rw [this] at h3; exact h3
    · exact ⟨c, _, _, [], hcl, hcf, by simpa using hla, by simpa using hlb, rfl, rfl, .inl rfl, fun d _ h1 h2 => hc.2.2 d h1 h2⟩
  clear h3 h4
  obtain ⟨la', a1, a2, a3⟩ := merged_path sq ht hw hw' hm _ le_rfl hc0 ha hcf haf h1
  obtain ⟨lb', b1, b2, b3⟩ := merged_path sq ht hw hw' hm _ le_rfl hc0 hb hcf hbf h2
  have hok' : ∀ i ∈ la ++ lb ++ l0, i ≠ f → FrameOk true s i := by
    intro i hi hif
    rcases List.mem_append.mp hi with hi | hi
    · exact hok i hi
    · rcases h5 with rfl | rfl
      · simp at hi
      · simp at hi; exact absurd hi hif
  obtain ⟨a4, a5⟩ := a3 fun i hi => hok' i (by simp at hi ⊢; tauto)
  obtain ⟨b4, b5⟩ := b3 fun i hi => hok' i (by simp at hi ⊢; tauto)
  have hst : ∀ disc, l0.filterMap (stampsOf s disc) = [] := by
    intro disc
    rcases h5 with rfl | rfl
    · rfl
    · obtain ⟨dd, hp⟩ := hm.pose
      have : stampsOf s disc f = none := by simp only [stampsOf, hp, Option.bind_some]; split <;> rfl
      simp [this]
  have hnear : NearestCommon s' (φ a) (φ b) (φ c0) := by
    refine ⟨ancestorOrSelf_of_pathTo a1, ancestorOrSelf_of_pathTo b1, ?_⟩
    intro d' hd1 hd2
    obtain ⟨d, k1, k2, rfl, k3⟩ := merged_ancestor hw hm ha haf hd1
    obtain ⟨e, j1, j2, j3, j4⟩ := merged_ancestor hw hm hb hbf hd2
    have := hm.inj d e k1 j1 k2 j2 j3
    subst this
    obtain ⟨m, hm'⟩ := pathTo_exists hw (h6 d k2 k3 j4)
    obtain ⟨m', q1, _⟩ := merged_path sq ht hw hw' hm _ le_rfl k1 hc0 k2 hcf hm'
    exact ancestorOrSelf_of_pathTo q1
  refine ⟨⟨fun e => by rw [e], hm.inj a b ha hb haf hbf⟩, c, la, lb, φ c0, la', lb', hc, hla, hlb, hok, hnear, a1, b1,
    (fun i hi => (List.mem_append.mp hi).elim (a4 i) (b4 i)), ?_, ?_⟩
  · intro disc
    simp only [List.filterMap_append, List.filterMap_reverse, a2, b2, hst, List.append_nil]
  · intro τ Pa Pb hPa hPb hu
    have hua : ∀ Q ∈ Pa, IsUnitQ Q.r := fun Q hQ => hu Q (by simp [hQ])
    have hub : ∀ Q ∈ Pb, IsUnitQ Q.r := fun Q hQ => hu Q (by simp [hQ])
    obtain ⟨P0, e0, u0⟩ : ∃ P0, List.Forall₂ (PoseOf sq s τ) l0 P0 ∧ ∀ Q ∈ P0, IsUnitQ Q.r := by
      rcases h5 with rfl | rfl
      · exact ⟨[], .nil, by simp⟩
      · exact ⟨[P], .cons (poseOf_static sq hm.pose τ) .nil, by simpa using hm.unit⟩
    obtain ⟨Pa', q1, q2⟩ := a5 τ (Pa ++ P0) (List.rel_append hPa e0)
      (fun Q hQ => (List.mem_append.mp hQ).elim (hua Q) (u0 Q))
    obtain ⟨Pb', q3, q4⟩ := b5 τ (Pb ++ P0) (List.rel_append hPb e0)
      (fun Q hQ => (List.mem_append.mp hQ).elim (hub Q) (u0 Q))
    refine ⟨Pa', Pb', q1, q3, fun Q hQ => (List.mem_append.mp hQ).elim (poses_unit hsq q1 a4 Q) (poses_unit hsq q3 b4 Q), ?_⟩
    have na : ∀ Q ∈ Pa, Q.r ≠ 0 := fun Q hQ => (hua Q hQ).ne_zero
    have nb : ∀ Q ∈ Pb, Q.r ≠ 0 := fun Q hQ => (hub Q hQ).ne_zero
    have nm : ∀ Q ∈ P0, Q.r ≠ 0 := fun Q hQ => (u0 Q hQ).ne_zero
    have ca := chain_r_ne na
    have cb := chain_r_ne nb
    have cm := chain_r_ne nm
    rw [q2, q4, chain_append na nm, chain_append nb nm, Pose.comp_inv_rev cm cb,
      Pose.comp_assoc (Pose.inv_r_ne cb) (Pose.inv_r_ne cm),
      ← Pose.comp_assoc (Pose.inv_r_ne cm) cm, Pose.inv_comp cm, Pose.id_comp]

theorem recoordinated_view (sq : SquadFn) (hsq : SquadLaw sq) (ht : SquadTurns sq) {s s' : State} {h : List Event}
    (hr : Reachable s h) {w : ℕ} {G : Pose} (hm : Recoordinated s s' w G)
    {a b : ℕ} (ha : Ancestor s a w) (hb : Ancestor s b w) (hp : PathAll s a b (FrameOk true s)) :
    SameView sq s s' a b a b := by
  have hw := hr.wf
  obtain ⟨c, la, lb, hc, hla, hlb, hok⟩ := hp
  have hcw := hc.2.2 w ha.to_reflTransGen hb.to_reflTransGen
  have huu : ∀ {τ : ℝ} {Pa' Pb' : List Pose}, List.Forall₂ (PoseOf sq s' τ) la Pa' → List.Forall₂ (PoseOf sq s' τ) lb Pb' →
      ∀ Q ∈ Pa' ++ Pb', IsUnitQ Q.r := fun q1 q3 Q hQ => (List.mem_append.mp hQ).elim
    (poses_unit hsq q1 (fun i hi => recoord_ok hm (hok i (by simp [hi]))) Q)
    (poses_unit hsq q3 (fun i hi => recoord_ok hm (hok i (by simp [hi]))) Q)
  refine ⟨Iff.rfl, c, la, lb, c, la, lb, hc, hla, hlb, hok, recoord_nearest hm hc, by rw [hm.parent]; exact hla, by rw [hm.parent]; exact hlb,
    fun i hi => recoord_ok hm (hok i hi), fun disc => by congr 1; funext i; exact (recoord_stamps hm disc i).symm, ?_⟩
  intro τ Pa Pb hPa hPb hu
  rcases Relation.reflTransGen_iff_eq_or_transGen.mp hcw with e | hcw
  · subst e
    have nea : a ≠ w := by rintro rfl; exact hw.acyclic _ ha
    have neb : b ≠ w := by rintro rfl; exact hw.acyclic _ hb
    have hua : ∀ Q ∈ Pa, IsUnitQ Q.r := fun Q hQ => hu Q (by simp [hQ])
    have hub : ∀ Q ∈ Pb, IsUnitQ Q.r := fun Q hQ => hu Q (by simp [hQ])
    obtain ⟨Pa', q1, q2⟩ := recoord_moved sq ht hw hm hla nea (fun i hi => hok i (by simp [hi])) hPa hua
    obtain ⟨Pb', q3, q4⟩ := recoord_moved sq ht hw hm hlb neb (fun i hi => hok i (by simp [hi])) hPb hub
    refine ⟨Pa', Pb', q1, q3, huu q1 q3, ?_⟩
    have cb := chain_r_ne fun Q hQ => (hub Q hQ).ne_zero
    have cG := hm.unit.ne_zero
    rw [q2, q4, Pose.comp_inv_rev cG cb, Pose.comp_assoc (Pose.inv_r_ne cb) (Pose.inv_r_ne cG),
      ← Pose.comp_assoc (Pose.inv_r_ne cG) cG, Pose.inv_comp cG, Pose.id_comp]
  · have e1 := recoord_same sq hm (pathTo_below hw hla hcw) hPa
    have e2 := recoord_same sq hm (pathTo_below hw hlb hcw) hPb
    exact ⟨Pa, Pb, e1, e2, huu e1 e2, rfl⟩

/-- Removing a frame whose pose in its parent is fixed, and attaching what it carried to its parent
with the combined poses, changes no lookup between the remaining frames: same timestamps, same
translations, same rotations. -/
theorem C90_merged (sq : SquadFn) (hsq : SquadLaw sq) (ht : SquadTurns sq) {s s' : State} {h h' : List Event}
    (hr : Reachable s h) (hr' : Reachable s' h') {φ : ℕ → ℕ} {f g : ℕ} {P : Pose} (hm : Merged s s' φ f g P)
    {a b : ℕ} (ha : a < s.size) (hb : b < s.size) (haf : a ≠ f) (hbf : b ≠ f) (hp : PathAll s a b (FrameOk true s)) :
    s'.lookupTransform sq (φ a) (.byObj (φ b)) = s.lookupTransform sq a (.byObj b) := by
  exact (merged_view sq hsq ht hr hr' hm ha hb haf hbf hp).lookup hsq hr.wf hr'.wf ha hb (hm.frame a ha haf) (hm.frame b hb hbf)

/-- The choice of coordinates in a frame does not affect lookups between frames below it. -/
theorem C90_world_between (sq : SquadFn) (hsq : SquadLaw sq) (ht : SquadTurns sq) {s s' : State} {h h' : List Event}
    (hr : Reachable s h) (hr' : Reachable s' h') {w : ℕ} {G : Pose} (hm : Recoordinated s s' w G)
    {a b : ℕ} (ha : Ancestor s a w) (hb : Ancestor s b w) (hp : PathAll s a b (FrameOk true s)) :
    s'.lookupTransform sq a (.byObj b) = s.lookupTransform sq a (.byObj b) := by
  have hw := hr.wf
  have hlt : ∀ {a : ℕ}, Ancestor s a w → a < s.size := by
    intro a ha
    obtain ⟨x, hx, _⟩ := Relation.TransGen.head'_iff.mp ha
    exact (hw.parent_lt _ _ hx).1
  exact (recoordinated_view sq hsq ht hr hm ha hb hp).lookup hsq hr.wf hr'.wf (hlt ha) (hlt hb) (by rw [hm.size]; exact hlt ha)
    (by rw [hm.size]; exact hlt hb)

/-- Lookups into the frame whose coordinates changed change by exactly that rigid motion. -/
theorem C90_world_into (sq : SquadFn) (hsq : SquadLaw sq) (ht : SquadTurns sq) {s s' : State} {h h' : List Event}
    (hr : Reachable s h) (hr' : Reachable s' h') {w : ℕ} {G : Pose} (hm : Recoordinated s s' w G)
    {a : ℕ} (ha : Ancestor s a w) (hp : PathAll s a w (FrameOk true s)) :
    MappedBy (fun A => ⟨G.act A.t, G.r * A.r⟩) (s.lookupTransform sq a (.byObj w)) (s'.lookupTransform sq a (.byObj w)) := by
  have hw := hr.wf
  obtain ⟨x, hx, _⟩ := Relation.TransGen.head'_iff.mp ha
  obtain ⟨y, _, hy⟩ := Relation.TransGen.tail'_iff.mp ha
  have hal := (hw.parent_lt _ _ hx).1
  have hwl := (hw.parent_lt _ _ hy).2
  obtain ⟨c, la, lb, hc, hla, hlb, hok⟩ := hp
  have hcw : c = w := hc.unique hw ⟨ha.to_reflTransGen, .refl, fun d _ h => h⟩
  subst hcw
  have elb : lb = [] := hlb.unique .here
  subst elb
  have nea : a ≠ c := by rintro rfl; exact hw.acyclic _ ha
  refine lookup_mapped sq hsq hw hr'.wf hal hwl (by rw [hm.size]; exact hal) (by rw [hm.size]; exact hwl)
    hc hla hlb hok (recoord_nearest hm hc) (by rw [hm.parent]; exact hla) (by rw [hm.parent]; exact hlb)
    (fun i hi => recoord_ok hm (hok i hi)) (fun disc => by
      congr 1; funext i; exact (recoord_stamps hm disc i).symm) _ ?_
  intro τ Pa Pb hPa hPb hu
  cases hPb
  obtain ⟨Pa', q1, q2⟩ := recoord_moved sq ht hw hm hla nea (fun i hi => hok i (by simpa using hi)) hPa (by simpa using hu)
  refine ⟨Pa', [], q1, .nil, ?_⟩
  have e : ∀ A : Pose, (chain []).inv.comp A = A := by
    intro A; simp [chain, Pose.id, Pose.inv, Pose.comp]
  rw [e, e, q2]
  rfl

end RBM.Props
