import Verif.Props.Lookup
import Verif.Lemmas.TransformLaws

/-!
Changes of coordinates compose.
-/

namespace RBM

open RBM.Spec

/-- A chain through any common ancestor is a change of coordinates. -/
theorem isTransformAt_via {sq : SquadFn} {mv : Bool} {s : State} (h : WF s) {a b : ℕ} (ha : a < s.size)
    (hb : b < s.size) {d : ℕ} {la lb : List ℕ} (hla : PathTo s.parent d a la) (hlb : PathTo s.parent d b lb)
    (hg : ∀ i ∈ la ++ lb, FrameOk mv s i) {τ : ℝ} {Pa Pb : List Pose}
    (hPa : List.Forall₂ (PoseOf sq s τ) la Pa) (hPb : List.Forall₂ (PoseOf sq s τ) lb Pb) (hn : ∀ Q ∈ Pa ++ Pb, Q.r ≠ 0) :
    IsTransformAt sq s a b τ ((chain Pb).inv.comp (chain Pa)) ∧ PathAll s a b (FrameOk mv s) := by
  obtain ⟨c, la', lb', hc, h1, h2⟩ := nearest_exists h ha hb (ancestorOrSelf_of_pathTo hla) (ancestorOrSelf_of_pathTo hlb)
  obtain ⟨m, hm⟩ := pathTo_exists h (hc.2.2 d (ancestorOrSelf_of_pathTo hla) (ancestorOrSelf_of_pathTo hlb))
  have e1 := hla.unique (h1.append h hm)
  have e2 := hlb.unique (h2.append h hm)
  subst e1 e2
  obtain ⟨Qa, Qm, rfl, a1, a2⟩ := forall₂_split hPa
  obtain ⟨Qb, Qm', rfl, b1, b2⟩ := forall₂_split hPb
  have := poses_unique (fun i hi => hg i (by simp [hi])) a2 b2
  subst this
  have na : ∀ Q ∈ Qa, Q.r ≠ 0 := fun Q hQ => hn Q (by simp [hQ])
  have nb : ∀ Q ∈ Qb, Q.r ≠ 0 := fun Q hQ => hn Q (by simp [hQ])
  have nm : ∀ Q ∈ Qm, Q.r ≠ 0 := fun Q hQ => hn Q (by simp [hQ])
  have ca := chain_r_ne na
  have cb := chain_r_ne nb
  have cm := chain_r_ne nm
  have e : (chain (Qb ++ Qm)).inv.comp (chain (Qa ++ Qm)) = (chain Qb).inv.comp (chain Qa) := by
    rw [chain_append na nm, chain_append nb nm, Pose.comp_inv_rev cm cb,
      Pose.comp_assoc (Pose.inv_r_ne cb) (Pose.inv_r_ne cm),
      ← Pose.comp_assoc (Pose.inv_r_ne cm) cm, Pose.inv_comp cm, Pose.id_comp]
  rw [e]
  exact ⟨ChainAt.isTransformAt hc h1 h2 ⟨Qa, Qb, a1, b1, fun Q hQ => hn Q (by simp at hQ ⊢; tauto), rfl⟩,
    c, la', lb', hc, h1, h2, fun i hi => hg i (by simp at hi ⊢; tauto)⟩

/-- Changes of coordinates compose along any intermediate frame. -/
theorem isTransformAt_comp {sq : SquadFn} {mv : Bool} (hsq : mv = true → SquadLaw sq) {s : State} (hw : WF s)
    {a b c : ℕ} (ha : a < s.size) (hc : c < s.size) (hab : PathAll s a b (FrameOk mv s)) (hbc : PathAll s b c (FrameOk mv s))
    {τ : ℝ} {A B : Pose} (hA : IsTransformAt sq s a b τ A) (hB : IsTransformAt sq s b c τ B) :
    IsTransformAt sq s a c τ (B.comp A) ∧ PathAll s a c (FrameOk mv s) := by
  obtain ⟨d1, la, lb, hd1, hla, hlb, hok1⟩ := hab
  obtain ⟨d2, mb, mc, hd2, hmb, hmc, hok2⟩ := hbc
  obtain ⟨⟨Pa, Pb, h1, h2, h3, rfl⟩, _⟩ := hA.chainAt hw hsq hd1 hla hlb hok1
  obtain ⟨⟨Qb, Qc, g1, g2, g3, rfl⟩, _⟩ := hB.chainAt hw hsq hd2 hmb hmc hok2
  have na : ∀ Q ∈ Pa, Q.r ≠ 0 := fun Q hQ => h3 Q (by simp [hQ])
  have nb : ∀ Q ∈ Pb, Q.r ≠ 0 := fun Q hQ => h3 Q (by simp [hQ])
  have nb' : ∀ Q ∈ Qb, Q.r ≠ 0 := fun Q hQ => g3 Q (by simp [hQ])
  have nc : ∀ Q ∈ Qc, Q.r ≠ 0 := fun Q hQ => g3 Q (by simp [hQ])
  have ca := chain_r_ne na
  have cb := chain_r_ne nb
  have cb' := chain_r_ne nb'
  have cc := chain_r_ne nc
  rcases ancestors_comparable hd1.2.1 hd2.1 with hle | hle
  · obtain ⟨m, hm⟩ := pathTo_exists hw hle
    have e := hmb.unique (hlb.append hw hm)
    subst e
    obtain ⟨Qb1, Qm, rfl, q1, q2⟩ := forall₂_split g1
    have := poses_unique (fun i hi => hok1 i (by simp [hi])) q1 h2
    subst this
    have nm : ∀ Q ∈ Qm, Q.r ≠ 0 := fun Q hQ => g3 Q (by simp [hQ])
    have cm := chain_r_ne nm
    have key := isTransformAt_via (mv := mv) hw ha hc (hla.append hw hm) hmc
      (fun i hi => by
        simp only [List.mem_append] at hi
        rcases hi with (hi | hi) | hi
        · exact hok1 i (by simp [hi])
        · exact hok2 i (by simp [hi])
        · exact hok2 i (by simp [hi])) (List.rel_append h1 q2) g2
      (fun Q hQ => by
        simp only [List.mem_append] at hQ
        rcases hQ with (hQ | hQ) | hQ
        · exact na Q hQ
        · exact nm Q hQ
        · exact nc Q hQ)
    rw [chain_append na nm] at key
    rw [chain_append nb nm, Pose.comp_assoc (Pose.inv_r_ne cc) (Pose.comp_r_ne cm cb),
      Pose.comp_assoc cm cb, ← Pose.comp_assoc cb (Pose.inv_r_ne cb), Pose.comp_inv cb, Pose.id_comp]
    exact key
  · obtain ⟨m, hm⟩ := pathTo_exists hw hle
    have e := hlb.unique (hmb.append hw hm)
    subst e
    obtain ⟨Pb1, Pm, rfl, q1, q2⟩ := forall₂_split h2
    have := poses_unique (fun i hi => hok2 i (by simp [hi])) q1 g1
    subst this
    have nm : ∀ Q ∈ Pm, Q.r ≠ 0 := fun Q hQ => nb Q (by simp [hQ])
    have cm := chain_r_ne nm
    have key := isTransformAt_via (mv := mv) hw ha hc hla (hmc.append hw hm)
      (fun i hi => by
        simp only [List.mem_append] at hi
        rcases hi with hi | hi | hi
        · exact hok1 i (by simp [hi])
        · exact hok2 i (by simp [hi])
        · exact hok1 i (by simp [hi])) h1 (List.rel_append g2 q2)
      (fun Q hQ => by
        simp only [List.mem_append] at hQ
        rcases hQ with hQ | hQ | hQ
        · exact na Q hQ
        · exact nc Q hQ
        · exact nm Q hQ)
    rw [chain_append nc nm, Pose.comp_inv_rev cm cc, Pose.comp_assoc (Pose.inv_r_ne cc) (Pose.inv_r_ne cm)] at key
    rw [chain_append nb' nm, Pose.comp_inv_rev cm cb',
      Pose.comp_assoc (Pose.inv_r_ne cc) cb',
      Pose.comp_assoc (Pose.inv_r_ne cb') (Pose.inv_r_ne cm),
      ← Pose.comp_assoc cb' (Pose.inv_r_ne cb'), Pose.comp_inv cb', Pose.id_comp]
    exact key

end RBM
