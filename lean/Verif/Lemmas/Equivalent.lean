import Verif.Spec.Equivalent
import Verif.Props.TransformLaws

/-!
Lookups in two trees that describe the same bodies.
-/

namespace RBM

open RBM.Spec RBM.Props

/-- Lookups with the same timestamps on the way and corresponding poses. -/
theorem lookup_mapped (sq : SquadFn) (hsq : SquadLaw sq) {s s' : State} (h : WF s) (h' : WF s') {a b a' b' : ℕ}
    (ha : a < s.size) (hb : b < s.size) (ha' : a' < s'.size) (hb' : b' < s'.size)
    {c : ℕ} {la lb : List ℕ} (hc : NearestCommon s a b c) (hla : PathTo s.parent c a la) (hlb : PathTo s.parent c b lb)
    (hg : ∀ i ∈ la ++ lb, FrameOk true s i)
    {c' : ℕ} {la' lb' : List ℕ} (hc' : NearestCommon s' a' b' c') (hla' : PathTo s'.parent c' a' la')
    (hlb' : PathTo s'.parent c' b' lb') (hg' : ∀ i ∈ la' ++ lb', FrameOk true s' i)
    (hs : ∀ disc, (la ++ lb.reverse).filterMap (stampsOf s disc) = (la' ++ lb'.reverse).filterMap (stampsOf s' disc))
    (F : Pose → Pose)
    (hF : ∀ τ Pa Pb, List.Forall₂ (PoseOf sq s τ) la Pa → List.Forall₂ (PoseOf sq s τ) lb Pb →
      (∀ Q ∈ Pa ++ Pb, IsUnitQ Q.r) → ∃ Pa' Pb', List.Forall₂ (PoseOf sq s' τ) la' Pa' ∧ List.Forall₂ (PoseOf sq s' τ) lb' Pb' ∧
        (chain Pb').inv.comp (chain Pa') = F ((chain Pb).inv.comp (chain Pa))) :
    MappedBy F (s.lookupTransform sq a (.byObj b)) (s'.lookupTransform sq a' (.byObj b')) := by
  have conv : ∀ {s : State} {p : Pose → Prop} {l : List ℕ} {Ps : List Pose},
      List.Forall₂ (fun i P => StaticPoseOf s i P ∧ p P) l Ps → List.Forall₂ (PoseOf sq s 0) l Ps := by
    intro s p l Ps hf
    exact hf.imp fun i P hx => poseOf_static sq hx.1 0
  have ok' : ∀ {l : List ℕ}, (∀ i ∈ l, i ∈ la' ++ lb') → ∀ i ∈ l, FrameOk true s' i := fun hl i hi => hg' i (hl i hi)
  rcases lookup_good sq hsq h ha hb hc hla hlb hg with ⟨h1, h2, Pa, Pb, h3, h4, e⟩ | ⟨h1, ts, T, e, h2, h3, h4⟩
  · rcases lookup_good sq hsq h' ha' hb' hc' hla' hlb' hg' with ⟨k1, k2, Pa', Pb', k3, k4, e'⟩ | ⟨k1, ts', T', e', k2, k3, k4⟩
    · left
      refine ⟨_, e, ?_⟩
      rw [e']
      obtain ⟨Qa, Qb, q1, q2, q3⟩ := hF 0 Pa Pb (conv h3) (conv h4) (by
        have key : ∀ {l : List ℕ} {Ps : List Pose}, List.Forall₂ (fun i P => StaticPoseOf s i P ∧ IsUnitQ P.r) l Ps →
            ∀ Q ∈ Ps, IsUnitQ Q.r := by
          intro l Ps hf
          induction hf with
          | nil => simp
          | cons hx _ ih =>
            intro Q hQ
            rcases List.mem_cons.mp hQ with rfl | hQ
            exacts [hx.2, ih Q hQ]
        intro Q hQ
        rcases List.mem_append.mp hQ with hQ | hQ
        exacts [key h3 Q hQ, key h4 Q hQ])
      rw [← q3, poses_unique (ok' (by simp; tauto)) q1 (conv k3), poses_unique (ok' (by simp; tauto)) q2 (conv k4)]
    · rw [hs] at h1 h2
      rcases k1 with k1 | k1
      · exact absurd h1 k1
      · exact absurd h2 k1
  · rcases lookup_good sq hsq h' ha' hb' hc' hla' hlb' hg' with ⟨k1, k2, Pa', Pb', k3, k4, e'⟩ | ⟨k1, ts', T', e', k2, k3, k4⟩
    · rw [hs, hs] at h1
      rcases h1 with h1 | h1
      · exact absurd k1 h1
      · exact absurd k2 h1
    · right
      have ets : ts' = ts := by
        rw [hs, hs] at h2
        rcases h2 with ⟨x, xs, g1, g2⟩ | ⟨g1, g2⟩
        · rcases k2 with ⟨x', xs', k5, k6⟩ | ⟨k5, k6⟩
          · rw [g1] at k5
            obtain ⟨rfl, rfl⟩ := List.cons.inj k5
            rw [k6, g2]
          · rw [g1] at k5; simp at k5
        · rcases k2 with ⟨x', xs', k5, k6⟩ | ⟨k5, k6⟩
          · rw [g1] at k5; simp at k5
          · rw [k6, g2]
      subst ets
      refine ⟨ts', T, e, ?_⟩
      have key : ∀ τ ∈ ts', T' τ = F (T τ) := by
        intro τ hτ
        obtain ⟨Pa, Pb, p1, p2, p3, p4⟩ := h4 τ hτ
        obtain ⟨Pa', Pb', r1, r2, r3, r4⟩ := k4 τ hτ
        obtain ⟨Qa, Qb, q1, q2, q3⟩ := hF τ Pa Pb p1 p2 p3
        rw [r4, p4, ← q3, poses_unique (ok' (by simp; tauto)) q1 r1, poses_unique (ok' (by simp; tauto)) q2 r2]
      rw [e']
      congr 2
      · congr 1
        exact List.map_congr_left fun τ hτ => by rw [key τ hτ]
      · congr 2
        exact List.map_congr_left fun τ hτ => by rw [key τ hτ]

theorem mappedBy_id {res res' : Res (Arr Vec × Arr Quat × Option (List ℝ))} (h : MappedBy (fun A => A) res res') : res' = res := by
  rcases h with ⟨A, e, e'⟩ | ⟨ts, T, e, e'⟩
  · rw [e, e']
  · rw [e, e']

/-! ### moved poses -/

theorem isLinInterp_act {xs : List ℝ} {ys : List Vec} {τ : ℝ} {v : Vec} (G : Pose) (h : IsLinInterp xs ys τ v) :
    IsLinInterp xs (ys.map G.act) τ (G.act v) := by
  obtain ⟨k, x0, x1, y0, y1, h1, h2, h3, h4, h5, h6, h7, rfl⟩ := h
  refine ⟨k, x0, x1, G.act y0, G.act y1, h1, h2, by simp [h3], by simp [h4], h5, h6, h7, ?_⟩
  simp only [Pose.act, rot_add, rot_smul, smul_add]
  module

theorem isLinInterp_inRange {V} [AddCommGroup V] [Module ℝ V] {xs : List ℝ} {ys : List V} {τ : ℝ} {v : V} (hs : StrictlyIncreasing xs)
    (h : IsLinInterp xs ys τ v) : InRange xs τ := by
  obtain ⟨k, x0, x1, y0, y1, h1, h2, h3, h4, h5, h6, h7, -⟩ := h
  exact ⟨fun x hx => ((inRange_mem hs (List.mem_of_getElem? h1)).1 x hx).trans h6,
    fun x hx => h7.trans ((inRange_mem hs (List.mem_of_getElem? h2)).2 x hx)⟩

theorem movedBy_pose {sq : SquadFn} (ht : SquadTurns sq) {G : Pose} (hG : IsUnitQ G.r) {d d' : FrameData} (hm : MovedBy G d d')
    (hg : GoodData d) {τ : ℝ} {Q : Pose} (hQ : IsPoseAt sq d τ Q) : IsPoseAt sq d' τ (G.comp Q) := by
  cases hm with
  | static => cases hQ; exact .static
  | @timed tr ro ev disc =>
    cases hQ with
    | discrete h1 h2 h3 => exact .discrete h1 (by rw [List.getElem?_map, h2]; rfl) (by rw [List.getElem?_map, h3]; rfl)
    | continuous h1 =>
      cases hg with
      | continuous g1 g2 g3 g4 g5 =>
        have := IsPoseAt.continuous (sq := sq) (ro := ro.map fun q => G.r * q) (isLinInterp_act G h1)
        rw [ht G.r ro ev τ hG g2 g3 g4 g5 (isLinInterp_inRange g4 h1)] at this
        exact this

theorem movedBy_good {G : Pose} (hG : IsUnitQ G.r) {d d' : FrameData} (hm : MovedBy G d d') (hg : GoodData d) : GoodData d' := by
  have hu : ∀ {ro : List Quat}, (∀ q ∈ ro, IsUnitQ q) → ∀ q ∈ ro.map (fun q => G.r * q), IsUnitQ q := by
    intro ro h q hq
    obtain ⟨q', h', rfl⟩ := List.mem_map.mp hq
    exact hG.mul (h q' h')
  cases hm with
  | static => cases hg with | static h => exact .static (hG.mul h)
  | timed =>
    cases hg with
    | discrete h1 h2 h3 h4 h5 => exact .discrete (by simpa using h1) (by simpa using h2) h3 h4 (hu h5)
    | continuous h1 h2 h3 h4 h5 => exact .continuous (by simpa using h1) (by simpa using h2) h3 h4 (hu h5)

theorem movedBy_stamps {G : Pose} {d d' : FrameData} (hm : MovedBy G d d') : d'.timestamps = d.timestamps ∧ d'.discrete = d.discrete := by
  cases hm <;> exact ⟨rfl, rfl⟩

theorem frameOk_true {s : State} {i : ℕ} : FrameOk true s i ↔ ∃ d, s.data i = some d ∧ GoodData d := by simp [FrameOk]

/-! ### a merged mounting frame -/

section
variable {s s' : State} {φ : ℕ → ℕ} {f g : ℕ} {P : Pose}

/-- A path between frames that stay, in the tree without `f`. -/
theorem merged_path (sq : SquadFn) (ht : SquadTurns sq) (hw : WF s) (hw' : WF s') (hm : Merged s s' φ f g P) (n : ℕ) :
    ∀ {c a : ℕ} {l : List ℕ}, l.length ≤ n → c < s.size → a < s.size → c ≠ f → a ≠ f → PathTo s.parent c a l →
    ∃ l', PathTo s'.parent (φ c) (φ a) l' ∧
      (∀ disc, l'.filterMap (stampsOf s' disc) = l.filterMap (stampsOf s disc)) ∧
      ((∀ i ∈ l, i ≠ f → FrameOk true s i) → (∀ i ∈ l', FrameOk true s' i) ∧
        ∀ τ Ps, List.Forall₂ (PoseOf sq s τ) l Ps → (∀ Q ∈ Ps, IsUnitQ Q.r) →
          ∃ Ps', List.Forall₂ (PoseOf sq s' τ) l' Ps' ∧ chain Ps' = chain Ps) := by
  induction n with
  | zero =>
    intro c a l hl _ _ _ _ hp
    cases hp with
    | here => exact ⟨[], .here, by simp, fun _ => ⟨by simp, fun τ Ps h _ => by cases h; exact ⟨[], .nil, rfl⟩⟩⟩
    | up => simp at hl
  | succ n ih =>
    intro c a l hl hc ha hcf haf hp
    cases hp with
    | here => exact ⟨[], .here, by simp, fun _ => ⟨by simp, fun τ Ps h _ => by cases h; exact ⟨[], .nil, rfl⟩⟩⟩
    | @up _ p l hac hpa hp =>
      have hac' : φ a ≠ φ c := fun e => hac (hm.inj a c ha hc haf hcf e)
      have hpl := (hw.parent_lt a p hpa).2
      by_cases hpf : p = f
      · subst hpf
        cases hp with
        | here => exact absurd rfl hcf
        | @up _ g' l _ hpp hp =>
          have hgg : g' = g := Option.some.inj (hpp.symm.trans hm.parent)
          subst hgg
          have hgp : g' ≠ p := by
            rintro rfl; exact hw.acyclic g' (.single hpp)
          obtain ⟨l', i1, i2, i3⟩ := ih (by simp at hl; omega) hc (hw.parent_lt _ _ hpp).2 hcf hgp hp
          obtain ⟨e1, d, d', hd, hd', hmv⟩ := hm.child a hpa
          refine ⟨φ a :: l', .up hac' e1 i1, ?_, ?_⟩
          · intro disc
            have ea : stampsOf s' disc (φ a) = stampsOf s disc a := by
              simp only [stampsOf, hd, hd', Option.bind_some, (movedBy_stamps hmv).1, (movedBy_stamps hmv).2]
            have ep : stampsOf s disc p = none := by
              obtain ⟨dd, hp⟩ := hm.pose
              simp only [stampsOf, hp, Option.bind_some]; split <;> rfl
            simp only [List.filterMap_cons, ea, ep, i2]
          · intro hok
            obtain ⟨j1, j2⟩ := i3 fun i hi => hok i (by simp [hi])
            obtain ⟨d0, hd0, hgd⟩ := frameOk_true.mp (hok a (by simp) haf)
            rw [hd] at hd0; cases hd0
            refine ⟨?_, ?_⟩
            · intro i hi
              rcases List.mem_cons.mp hi with rfl | hi
              · exact frameOk_true.mpr ⟨d', hd', movedBy_good hm.unit hmv hgd⟩
              · exact j1 i hi
            · intro τ Ps hPs hu
              obtain ⟨Q, Ps1, hQ, hPs1, rfl⟩ := List.forall₂_cons_left_iff.mp hPs
              obtain ⟨R, Ps, hR, hPs2, rfl⟩ := List.forall₂_cons_left_iff.mp hPs1
              have hRP : R = P := poseOf_unique (mv := false) (by simp only [FrameOk, Bool.false_eq_true, if_false]; exact ⟨P, hm.pose, hm.unit.ne_zero⟩) hR (poseOf_static sq hm.pose τ)
              subst hRP
              obtain ⟨Ps', g1, g2⟩ := j2 τ Ps hPs2 fun Q hQ => hu Q (by simp [hQ])
              obtain ⟨dq, hdq, hQ⟩ := hQ
              rw [hd] at hdq; cases hdq
              refine ⟨R.comp Q :: Ps', .cons ⟨d', hd', movedBy_pose ht hm.unit hmv hgd hQ⟩ g1, ?_⟩
              simp only [chain, g2]
              ext1
              · have h0 : (chain Ps).r ≠ 0 := chain_r_ne fun Q hQ => (hu Q (by simp [hQ])).ne_zero
                simp only [Pose.comp, rot_add]
                rw [rot_mul _ _ h0 hm.unit.ne_zero]; abel
              · simp only [Pose.comp, mul_assoc]
      · obtain ⟨e1, e2⟩ := hm.other a ha haf (by rw [hpa]; simpa using hpf)
        obtain ⟨l', i1, i2, i3⟩ := ih (by simp at hl; omega) hc hpl hcf hpf hp
        refine ⟨φ a :: l', .up hac' (by rw [e1, hpa]; rfl) i1, ?_, ?_⟩
        · intro disc
          have ea : stampsOf s' disc (φ a) = stampsOf s disc a := by simp only [stampsOf, e2]
          simp only [List.filterMap_cons, ea, i2]
        · intro hok
          obtain ⟨j1, j2⟩ := i3 fun i hi => hok i (by simp [hi])
          refine ⟨?_, ?_⟩
          · intro i hi
            rcases List.mem_cons.mp hi with rfl | hi
            · have := hok a (by simp) haf
              rw [frameOk_true] at this ⊢
              rw [e2]; exact this
            · exact j1 i hi
          · intro τ Ps hPs hu
            cases hPs with
            | @cons _ Q _ Ps hQ hPs =>
              obtain ⟨Ps', g1, g2⟩ := j2 τ Ps hPs fun Q hQ => hu Q (by simp [hQ])
              refine ⟨Q :: Ps', .cons ?_ g1, by simp only [chain, g2]⟩
              obtain ⟨d, hd, hQ⟩ := hQ
              exact ⟨d, by rw [e2, hd], hQ⟩

/-- Ancestors in the tree without `f` come from ancestors in the tree with it. -/
theorem merged_ancestor (hw : WF s) (hm : Merged s s' φ f g P) {a d' : ℕ} (ha : a < s.size) (haf : a ≠ f)
    (h : AncestorOrSelf s' (φ a) d') : ∃ d, d < s.size ∧ d ≠ f ∧ d' = φ d ∧ AncestorOrSelf s a d := by
  induction h with
  | refl => exact ⟨a, ha, haf, rfl, .refl⟩
  | @tail x y _ hxy ih =>
    obtain ⟨d, hd, hdf, rfl, hd'⟩ := ih
    have hxy : s'.parent (φ d) = some y := hxy
    by_cases hp : s.parent d = some f
    · have e := (hm.child d hp).1
      rw [hxy] at e; cases e
      refine ⟨g, (hw.parent_lt _ _ hm.parent).2, ?_, rfl, (hd'.tail hp).tail hm.parent⟩
      rintro rfl; exact hw.acyclic g (.single hm.parent)
    · have e := (hm.other d hd hdf hp).1
      rw [hxy] at e
      cases hpd : s.parent d with
      | none => rw [hpd] at e; simp at e
      | some q =>
        rw [hpd] at e; cases e
        exact ⟨q, (hw.parent_lt _ _ hpd).2, fun e => hp (by rw [hpd, e]), rfl, hd'.tail hpd⟩

theorem ancestorOrSelf_lt (hw : WF s) {a d : ℕ} (ha : a < s.size) (h : AncestorOrSelf s a d) : d < s.size := by
  rcases Relation.ReflTransGen.cases_tail h with e | ⟨x, _, hx⟩
  · rw [e]; exact ha
  · exact (hw.parent_lt x d hx).2

end

/-! ### other coordinates in an ancestor -/

section
variable {s s' : State} {w : ℕ} {G : Pose}

theorem recoord_stamps (hm : Recoordinated s s' w G) (disc : Bool) (i : ℕ) : stampsOf s' disc i = stampsOf s disc i := by
  by_cases hp : s.parent i = some w
  · obtain ⟨d, d', hd, hd', hmv⟩ := hm.child i hp
    simp only [stampsOf, hd, hd', Option.bind_some, (movedBy_stamps hmv).1, (movedBy_stamps hmv).2]
  · simp only [stampsOf, hm.other i hp]

theorem recoord_ok (hm : Recoordinated s s' w G) {i : ℕ} (h : FrameOk true s i) : FrameOk true s' i := by
  rw [frameOk_true] at h ⊢
  obtain ⟨d0, hd0, hg⟩ := h
  by_cases hp : s.parent i = some w
  · obtain ⟨d, d', hd, hd', hmv⟩ := hm.child i hp
    rw [hd0] at hd; cases hd
    exact ⟨d', hd', movedBy_good hm.unit hmv hg⟩
  · exact ⟨d0, by rw [hm.other i hp, hd0], hg⟩

theorem recoord_nearest (hm : Recoordinated s s' w G) {a b c : ℕ} (h : NearestCommon s a b c) : NearestCommon s' a b c := by
  have e : ParentOf s' = ParentOf s := by funext i p; simp only [ParentOf, hm.parent]
  simp only [NearestCommon, AncestorOrSelf, e] at h ⊢
  exact h

/-- Paths that do not end in `w` or above keep their poses. -/
theorem recoord_same (sq : SquadFn) (hm : Recoordinated s s' w G) {l : List ℕ} (hl : ∀ i ∈ l, s.parent i ≠ some w) {τ : ℝ}
    {Ps : List Pose} (h : List.Forall₂ (PoseOf sq s τ) l Ps) : List.Forall₂ (PoseOf sq s' τ) l Ps := by
  induction h with
  | nil => exact .nil
  | @cons i Q l Ps hQ _ ih =>
    refine .cons ?_ (ih fun i hi => hl i (by simp [hi]))
    obtain ⟨d, hd, hQ⟩ := hQ
    exact ⟨d, by rw [hm.other i (hl i (by simp)), hd], hQ⟩

/-- Paths that end in `w` are moved by `G`. -/
theorem recoord_moved (sq : SquadFn) (ht : SquadTurns sq) (hw : WF s) (hm : Recoordinated s s' w G) {a : ℕ} {l : List ℕ}
    (hp : PathTo s.parent w a l) (ha : a ≠ w) (hok : ∀ i ∈ l, FrameOk true s i) {τ : ℝ} {Ps : List Pose}
    (h : List.Forall₂ (PoseOf sq s τ) l Ps) (hu : ∀ Q ∈ Ps, IsUnitQ Q.r) :
    ∃ Ps', List.Forall₂ (PoseOf sq s' τ) l Ps' ∧ chain Ps' = G.comp (chain Ps) := by
  induction hp generalizing Ps with
  | here => exact absurd rfl ha
  | @up a p l hn hpa hp ih =>
    obtain ⟨Q, Ps1, hQ, hPs1, rfl⟩ := List.forall₂_cons_left_iff.mp h
    have hu1 : ∀ Q ∈ Ps1, IsUnitQ Q.r := fun R hR => hu R (by simp [hR])
    obtain ⟨d, hd, hQ⟩ := hQ
    by_cases hpw : p = w
    · subst hpw
      cases hp with
      | up hn => exact absurd rfl hn
      | here =>
        cases hPs1
        obtain ⟨d0, d', hd0, hd', hmv⟩ := hm.child a hpa
        rw [hd] at hd0; cases hd0
        obtain ⟨d1, hd1, hg⟩ := frameOk_true.mp (hok a (by simp))
        rw [hd] at hd1; cases hd1
        refine ⟨[G.comp Q], .cons ⟨d', hd', movedBy_pose ht hm.unit hmv hg hQ⟩ .nil, ?_⟩
        simp only [chain, Pose.id_comp]
    · obtain ⟨Ps', g1, g2⟩ := ih hpw (fun i hi => hok i (by simp [hi])) hPs1 hu1
      refine ⟨Q :: Ps', .cons ⟨d, by rw [hm.other a (by rw [hpa]; simpa using hpw), hd], hQ⟩ g1, ?_⟩
      simp only [chain, g2]
      exact Pose.comp_assoc hm.unit.ne_zero (chain_r_ne fun Q hQ => (hu1 Q hQ).ne_zero)

/-- Frames on a path to a frame strictly below `w` are not attached to `w`. -/
theorem pathTo_below (hw : WF s) {a c : ℕ} {l : List ℕ} (hp : PathTo s.parent c a l) (hc : Ancestor s c w) :
    ∀ i ∈ l, s.parent i ≠ some w := by
  induction hp with
  | here => simp
  | @up x p l hn hpx hp ih =>
    intro i hi e
    rcases List.mem_cons.mp hi with rfl | hi
    · have : p = w := Option.some.inj (hpx.symm.trans e)
      subst this
      exact hw.acyclic p (Relation.TransGen.trans_right (ancestorOrSelf_of_pathTo hp) hc)
    · exact ih i hi e

end

end RBM
