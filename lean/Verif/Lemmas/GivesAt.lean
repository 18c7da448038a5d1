import Verif.Lemmas.Lookup

namespace RBM

open Spec

theorem poseOf_static (sq : SquadFn) {s : State} {i : ℕ} {P : Pose} (h : StaticPoseOf s i P) (τ : ℝ) :
    PoseOf sq s τ i P := by
  obtain ⟨disc, hd⟩ := h
  exact ⟨_, hd, .static⟩

theorem poseOf_unique {sq : SquadFn} {s : State} {mv : Bool} {i : ℕ} (h : FrameOk mv s i) {τ : ℝ}
    {P Q : Pose} (hP : PoseOf sq s τ i P) (hQ : PoseOf sq s τ i Q) : P = Q := by
  obtain ⟨d, hd, h1⟩ := hP
  obtain ⟨d', hd', h2⟩ := hQ
  have : d = d' := by rw [hd] at hd'; exact Option.some.inj hd'
  subst this
  cases mv with
  | true =>
    obtain ⟨d', hd', hg⟩ : ∃ d, s.data i = some d ∧ GoodData d := by simpa [FrameOk] using h
    rw [hd] at hd'; cases hd'
    exact isPoseAt_unique hg h1 h2
  | false =>
    obtain ⟨R, ⟨disc, hR⟩, _⟩ : ∃ P, StaticPoseOf s i P ∧ P.r ≠ 0 := by simpa [FrameOk] using h
    rw [hd] at hR; cases hR
    cases h1; cases h2; rfl

theorem poses_unique {sq : SquadFn} {s : State} {mv : Bool} {l : List ℕ} (h : ∀ i ∈ l, FrameOk mv s i) {τ : ℝ}
    {Ps Qs : List Pose} (hP : List.Forall₂ (PoseOf sq s τ) l Ps) (hQ : List.Forall₂ (PoseOf sq s τ) l Qs) :
    Ps = Qs := by
  induction hP generalizing Qs with
  | nil => cases hQ; rfl
  | cons h1 _ ih =>
    cases hQ with
    | cons h2 hQ =>
      rw [poseOf_unique (h _ (List.mem_cons_self ..)) h1 h2,
        ih (fun i hi => h i (List.mem_cons_of_mem _ hi)) hQ]

/-- What a lookup gives at a time, in terms of the chained poses. -/
theorem givesAt_chain (sq : SquadFn) {mv : Bool} (hsq : mv = true → SquadLaw sq) {s : State} (h : WF s) {a b : ℕ} (ha : a < s.size)
    (hb : b < s.size) {c : ℕ} {la lb : List ℕ} (hc : NearestCommon s a b c)
    (hla : PathTo s.parent c a la) (hlb : PathTo s.parent c b lb)
    (hg : ∀ i ∈ la ++ lb, FrameOk mv s i) {τ : ℝ} {A : Pose}
    (hA : GivesAt (s.lookupTransform sq a (.byObj b)) τ A) :
    ∃ Pa Pb, List.Forall₂ (PoseOf sq s τ) la Pa ∧ List.Forall₂ (PoseOf sq s τ) lb Pb ∧
      (∀ Q ∈ Pa ++ Pb, Q.r ≠ 0) ∧ (mv = true → ∀ Q ∈ Pa ++ Pb, IsUnitQ Q.r) ∧
      A = (chain Pb).inv.comp (chain Pa) := by
  have conv : ∀ {p : Pose → Prop} {l : List ℕ} {Ps : List Pose},
      List.Forall₂ (fun i P => StaticPoseOf s i P ∧ p P) l Ps →
      List.Forall₂ (PoseOf sq s τ) l Ps ∧ ∀ Q ∈ Ps, p Q := by
    intro p l Ps hf
    induction hf with
    | nil => exact ⟨.nil, by simp⟩
    | cons hx _ ih =>
      refine ⟨.cons (poseOf_static sq hx.1 τ) ih.1, ?_⟩
      intro Q hQ; rcases List.mem_cons.mp hQ with rfl | hQ; exacts [hx.2, ih.2 Q hQ]
  have fin : ∀ {Pa Pb}, s.lookupTransform sq a (.byObj b) =
        .ok (.one ((chain Pb).inv.comp (chain Pa)).t, .one ((chain Pb).inv.comp (chain Pa)).r, none) →
        A = (chain Pb).inv.comp (chain Pa) := by
    intro Pa Pb e
    rw [e] at hA
    rcases hA with hA | ⟨tl, rl, ts, k, hA, _⟩
    · simp only [Except.ok.injEq, Prod.mk.injEq, Arr.one.injEq, and_true] at hA
      exact (Pose.ext' hA.1 hA.2).symm
    · simp at hA
  cases mv with
  | true =>
    rcases lookup_good sq (hsq rfl) h ha hb hc hla hlb hg with ⟨_, _, Pa, Pb, hPa, hPb, e⟩ | ⟨_, ts, T, e, _, _, hT⟩
    · have ca := conv hPa
      have cb := conv hPb
      have hu : ∀ Q ∈ Pa ++ Pb, IsUnitQ Q.r := by
        intro Q hQ; rcases List.mem_append.mp hQ with hQ | hQ; exacts [ca.2 Q hQ, cb.2 Q hQ]
      exact ⟨Pa, Pb, ca.1, cb.1, fun Q hQ => (hu Q hQ).ne_zero, fun _ => hu, fin e⟩
    · rw [e] at hA
      rcases hA with hA | ⟨tl, rl, ts', k, hA, h1, h2, h3⟩
      · simp at hA
      · simp only [Except.ok.injEq, Prod.mk.injEq, Arr.many.injEq, Option.some.injEq] at hA
        obtain ⟨rfl, rfl, rfl⟩ := hA
        rw [List.getElem?_map, h1] at h2 h3
        simp only [Option.map_some, Option.some.injEq] at h2 h3
        obtain ⟨Pa, Pb, q1, q2, q3, q4⟩ := hT τ (List.mem_of_getElem? h1)
        exact ⟨Pa, Pb, q1, q2, fun Q hQ => (q3 Q hQ).ne_zero, fun _ => q3,
          by rw [← q4]; exact (Pose.ext' h2 h3).symm⟩
  | false =>
    have hg' : ∀ i ∈ la ++ lb, ∃ P, StaticPoseOf s i P ∧ P.r ≠ 0 := by simpa [FrameOk] using hg
    have hex : ∀ l : List ℕ, (∀ i ∈ l, ∃ P, StaticPoseOf s i P ∧ P.r ≠ 0) →
        ∃ Ps, List.Forall₂ (fun i P => StaticPoseOf s i P ∧ P.r ≠ 0) l Ps := by
      intro l
      induction l with
      | nil => intro _; exact ⟨[], .nil⟩
      | cons i l ih =>
        intro hl
        obtain ⟨Ps, hPs⟩ := ih fun j hj => hl j (List.mem_cons_of_mem _ hj)
        obtain ⟨P, hP⟩ := hl i (by simp)
        exact ⟨P :: Ps, .cons hP hPs⟩
    obtain ⟨Pa, hPa⟩ := hex la fun i hi => hg' i (by simp [hi])
    obtain ⟨Pb, hPb⟩ := hex lb fun i hi => hg' i (by simp [hi])
    have ca := conv hPa
    have cb := conv hPb
    refine ⟨Pa, Pb, ca.1, cb.1, ?_, by simp, fin (lookup_static sq h ha hb hc hla hlb hPa hPb)⟩
    intro Q hQ; rcases List.mem_append.mp hQ with hQ | hQ; exacts [ca.2 Q hQ, cb.2 Q hQ]

theorem forall₂_split {α β} {R : α → β → Prop} {l m : List α} {k : List β}
    (h : List.Forall₂ R (l ++ m) k) : ∃ k1 k2, k = k1 ++ k2 ∧ List.Forall₂ R l k1 ∧ List.Forall₂ R m k2 := by
  induction l generalizing k with
  | nil => exact ⟨[], k, rfl, .nil, h⟩
  | cons x l ih =>
    cases h with
    | @cons _ y _ k hx h =>
      obtain ⟨k1, k2, rfl, h1, h2⟩ := ih h
      exact ⟨y :: k1, k2, rfl, .cons hx h1, h2⟩

theorem nearest_exists {s : State} (h : WF s) {a b : ℕ} (ha : a < s.size) (hb : b < s.size) {d : ℕ}
    (h1 : AncestorOrSelf s a d) (h2 : AncestorOrSelf s b d) :
    ∃ c la lb, NearestCommon s a b c ∧ PathTo s.parent c a la ∧ PathTo s.parent c b lb := by
  rcases walk_spec h ha hb with ⟨hn, _⟩ | ⟨c, up, down, hc, hu, hd, _⟩
  · exact absurd ⟨d, h1, h2⟩ hn
  · exact ⟨c, up, down.reverse, hc, hu, hd⟩

/-- The same, relative to any common ancestor. -/
theorem givesAt_via (sq : SquadFn) {mv : Bool} (hsq : mv = true → SquadLaw sq) {s : State} (h : WF s) {a b : ℕ} (ha : a < s.size)
    (hb : b < s.size) {d : ℕ} {la lb : List ℕ}
    (hla : PathTo s.parent d a la) (hlb : PathTo s.parent d b lb)
    (hg : ∀ i ∈ la ++ lb, FrameOk mv s i) {τ : ℝ} {A : Pose}
    (hA : GivesAt (s.lookupTransform sq a (.byObj b)) τ A) {Pa Pb : List Pose}
    (hPa : List.Forall₂ (PoseOf sq s τ) la Pa) (hPb : List.Forall₂ (PoseOf sq s τ) lb Pb)
    (hn : ∀ Q ∈ Pa ++ Pb, Q.r ≠ 0) :
    A = (chain Pb).inv.comp (chain Pa) := by
  obtain ⟨c, la', lb', hc, h1, h2⟩ := nearest_exists h ha hb (ancestorOrSelf_of_pathTo hla)
    (ancestorOrSelf_of_pathTo hlb)
  obtain ⟨m, hm⟩ := pathTo_exists h (hc.2.2 d (ancestorOrSelf_of_pathTo hla) (ancestorOrSelf_of_pathTo hlb))
  have e1 := hla.unique (h1.append h hm)
  have e2 := hlb.unique (h2.append h hm)
  subst e1 e2
  obtain ⟨Qa, Qm, rfl, a1, a2⟩ := forall₂_split hPa
  obtain ⟨Qb, Qm', rfl, b1, b2⟩ := forall₂_split hPb
  have := poses_unique (fun i hi => hg i (by simp [hi])) a2 b2
  subst this
  obtain ⟨Ra, Rb, r1, r2, r3, _, rfl⟩ := givesAt_chain sq hsq h ha hb hc h1 h2
    (fun i hi => hg i (by simp at hi ⊢; tauto)) hA
  have ea := poses_unique (fun i hi => hg i (by simp [hi])) r1 a1
  have eb := poses_unique (fun i hi => hg i (by simp [hi])) r2 b1
  subst ea eb
  have na : ∀ Q ∈ Ra, Q.r ≠ 0 := fun Q hQ => r3 Q (by simp [hQ])
  have nb : ∀ Q ∈ Rb, Q.r ≠ 0 := fun Q hQ => r3 Q (by simp [hQ])
  have nm : ∀ Q ∈ Qm, Q.r ≠ 0 := fun Q hQ => hn Q (by simp [hQ])
  have ca := chain_r_ne na
  have cb := chain_r_ne nb
  have cm := chain_r_ne nm
  rw [chain_append na nm, chain_append nb nm, Pose.comp_inv_rev cm cb,
    Pose.comp_assoc (Pose.inv_r_ne cb) (Pose.inv_r_ne cm),
    ← Pose.comp_assoc (Pose.inv_r_ne cm) cm, Pose.inv_comp cm, Pose.id_comp]

theorem inAncestor_chain {parent : ℕ → Option ℕ} {pose : ℕ → Pose → Prop} {c a : ℕ} {l : List ℕ}
    (h : PathTo parent c a l) {Ps : List Pose} (hP : List.Forall₂ pose l Ps) (hn : ∀ Q ∈ Ps, Q.r ≠ 0)
    (p : Vec) : InAncestor parent pose c a p ((chain Ps).act p) := by
  induction h generalizing Ps p with
  | here =>
    cases hP
    have : (chain []).act p = p := by simp [chain, Pose.id, Pose.act]
    rw [this]; exact .here
  | up h1 h2 _ ih =>
    cases hP with
    | @cons _ Q _ Ps hQ hP =>
      refine .up h1 h2 hQ ?_
      have hn' : ∀ R ∈ Ps, R.r ≠ 0 := fun R hR => hn R (List.mem_cons_of_mem _ hR)
      have := ih hP hn' (Q.act p)
      rw [← Pose.comp_act (chain_r_ne hn') (hn Q (by simp))] at this
      exact this

theorem inAncestor_unique {parent : ℕ → Option ℕ} {pose : ℕ → Pose → Prop} {c a : ℕ} {l : List ℕ}
    (h : PathTo parent c a l) {Ps : List Pose} (hP : List.Forall₂ pose l Ps) (hn : ∀ Q ∈ Ps, Q.r ≠ 0)
    (hu : ∀ i ∈ l, ∀ P Q, pose i P → pose i Q → P = Q)
    {p P : Vec} (hp : InAncestor parent pose c a p P) : P = (chain Ps).act p := by
  induction h generalizing Ps p with
  | here =>
    cases hP
    have : (chain []).act p = p := by simp [chain, Pose.id, Pose.act]
    rw [this]
    cases hp with
    | here => rfl
    | up hn => exact absurd rfl hn
  | up h1 h2 _ ih =>
    cases hP with
    | @cons _ Q _ Ps hQ hP =>
      have hn' : ∀ R ∈ Ps, R.r ≠ 0 := fun R hR => hn R (List.mem_cons_of_mem _ hR)
      cases hp with
      | here => exact absurd rfl h1
      | @up _ k _ _ Q' _ h2' hQ' hp =>
        rw [h2] at h2'; cases h2'
        have := hu _ (List.mem_cons_self ..) _ _ hQ hQ'
        subst this
        have := ih hP hn' (fun i hi => hu i (List.mem_cons_of_mem _ hi)) hp
        rw [this, ← Pose.comp_act (chain_r_ne hn') (hn Q (by simp))]
        rfl

theorem orientInAncestor_chain {parent : ℕ → Option ℕ} {pose : ℕ → Pose → Prop} {c a : ℕ} {l : List ℕ}
    (h : PathTo parent c a l) {Ps : List Pose} (hP : List.Forall₂ pose l Ps)
    (q : Quat) : OrientInAncestor parent pose c a q ((chain Ps).r * q) := by
  induction h generalizing Ps q with
  | here =>
    cases hP
    have : (chain []).r * q = q := by simp [chain, Pose.id]
    rw [this]; exact .here
  | up h1 h2 _ ih =>
    cases hP with
    | @cons _ Q _ Ps hQ hP =>
      refine .up h1 h2 hQ ?_
      have := ih hP (Q.r * q)
      rw [← mul_assoc] at this
      exact this

end RBM
