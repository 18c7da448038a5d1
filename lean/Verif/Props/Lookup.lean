import Verif.Lemmas.GivesAt
import Verif.Lemmas.Example2

/-!
Lookups of transformations: C10-C14, C20-C24, C27, C28.
`PathAll s a b (FrameOk mv s)` says that every frame the lookup passes through is well-formed with
unit rotations (`mv = true`) or static with nonzero rotation (`mv = false`).
-/

namespace RBM.Props

open Spec

/-! ### C10 -/

/-- The looked-up transformation maps the coordinates in `a` of every point to the coordinates in
`b` of the same point, and orientations likewise (static and moving frames, at every time for which
the lookup gives a result): `p` in `a` and `A.act p` in `b` are the same point of the nearest common
ancestor `c`. -/
theorem C10_coordinate_change (sq : SquadFn) {mv : Bool} (hsq : mv = true → SquadLaw sq) {s : State}
    {h : List Event} (hr : Reachable s h) {a b : ℕ} (ha : a < s.size) (hb : b < s.size)
    (hp : PathAll s a b (FrameOk mv s)) {τ : ℝ} {A : Pose}
    (hA : GivesAt (s.lookupTransform sq a (.byObj b)) τ A) {c : ℕ} (hc : NearestCommon s a b c) :
    (∀ p, ∃ P, InAncestor s.parent (PoseOf sq s τ) c a p P ∧
      InAncestor s.parent (PoseOf sq s τ) c b (A.act p) P) ∧
    (∀ q, ∃ Q, OrientInAncestor s.parent (PoseOf sq s τ) c a q Q ∧
      OrientInAncestor s.parent (PoseOf sq s τ) c b (A.r * q) Q) := by
  obtain ⟨c', la, lb, hc', hla, hlb, hok⟩ := hp
  have := hc.unique hr.wf hc'
  subst this
  obtain ⟨Pa, Pb, h1, h2, h3, _, rfl⟩ := givesAt_chain sq hsq hr.wf ha hb hc hla hlb hok hA
  have na : ∀ Q ∈ Pa, Q.r ≠ 0 := fun Q hQ => h3 Q (by simp [hQ])
  have nb : ∀ Q ∈ Pb, Q.r ≠ 0 := fun Q hQ => h3 Q (by simp [hQ])
  have ca := chain_r_ne na
  have cb := chain_r_ne nb
  constructor
  · intro p
    refine ⟨_, inAncestor_chain hla h1 na p, ?_⟩
    have := inAncestor_chain hlb h2 nb (((chain Pb).inv.comp (chain Pa)).act p)
    rw [← Pose.comp_act cb (Pose.comp_r_ne (Pose.inv_r_ne cb) ca), ← Pose.comp_assoc cb (Pose.inv_r_ne cb),
      Pose.comp_inv cb, Pose.id_comp] at this
    exact this
  · intro q
    refine ⟨_, orientInAncestor_chain hla h1 q, ?_⟩
    have := orientInAncestor_chain hlb h2 (((chain Pb).inv.comp (chain Pa)).r * q)
    simp only [Pose.comp, Pose.inv, ← mul_assoc, mul_inv_cancel₀ cb, one_mul] at this
    exact this

/-- Uniqueness: if `p` (in `a`) and `p'` (in `b`) are the same point, then the transformation maps
`p` to `p'`. -/
theorem C10_coordinates_unique (sq : SquadFn) {mv : Bool} (hsq : mv = true → SquadLaw sq) {s : State}
    {h : List Event} (hr : Reachable s h) {a b : ℕ} (ha : a < s.size) (hb : b < s.size)
    (hp : PathAll s a b (FrameOk mv s)) {τ : ℝ} {A : Pose}
    (hA : GivesAt (s.lookupTransform sq a (.byObj b)) τ A) {c : ℕ} (hc : NearestCommon s a b c)
    {p p' P : Vec} (h1 : InAncestor s.parent (PoseOf sq s τ) c a p P)
    (h2 : InAncestor s.parent (PoseOf sq s τ) c b p' P) : A.act p = p' := by
  obtain ⟨c', la, lb, hc', hla, hlb, hok⟩ := hp
  have := hc.unique hr.wf hc'
  subst this
  obtain ⟨Pa, Pb, g1, g2, g3, _, rfl⟩ := givesAt_chain sq hsq hr.wf ha hb hc hla hlb hok hA
  have na : ∀ Q ∈ Pa, Q.r ≠ 0 := fun Q hQ => g3 Q (by simp [hQ])
  have nb : ∀ Q ∈ Pb, Q.r ≠ 0 := fun Q hQ => g3 Q (by simp [hQ])
  have ca := chain_r_ne na
  have cb := chain_r_ne nb
  have e1 := inAncestor_unique hla g1 na
    (fun i hi P Q => poseOf_unique (hok i (by simp [hi]))) h1
  have e2 := inAncestor_unique hlb g2 nb
    (fun i hi P Q => poseOf_unique (hok i (by simp [hi]))) h2
  rw [Pose.comp_act (Pose.inv_r_ne cb) ca, ← e1, e2, ← Pose.comp_act (Pose.inv_r_ne cb) cb,
    Pose.inv_comp cb]
  simp [Pose.id, Pose.act]

/-- On a path of static frames with nonzero rotations the lookup succeeds with a static result, so
the above applies. -/
theorem C10_static_total (sq : SquadFn) {s : State} {h : List Event} (hr : Reachable s h) {a b : ℕ}
    (ha : a < s.size) (hb : b < s.size) (hp : PathAll s a b (FrameOk false s)) :
    ∃ A : Pose, s.lookupTransform sq a (.byObj b) = .ok (.one A.t, .one A.r, none) ∧ A.r ≠ 0 := by
  obtain ⟨c, la, lb, hc, hla, hlb, hok⟩ := hp
  have hok' : ∀ i ∈ la ++ lb, ∃ P, StaticPoseOf s i P ∧ P.r ≠ 0 := by simpa [FrameOk] using hok
  have hex : ∀ l : List ℕ, (∀ i ∈ l, ∃ P, StaticPoseOf s i P ∧ P.r ≠ 0) →
      ∃ Ps, List.Forall₂ (fun i P => StaticPoseOf s i P ∧ P.r ≠ 0) l Ps ∧ ∀ P ∈ Ps, P.r ≠ 0 := by
    intro l
    induction l with
    | nil => intro _; exact ⟨[], .nil, by simp⟩
    | cons i l ih =>
      intro hl
      obtain ⟨Ps, hPs, hn⟩ := ih fun j hj => hl j (List.mem_cons_of_mem _ hj)
      obtain ⟨P, hP⟩ := hl i (by simp)
      refine ⟨P :: Ps, .cons hP hPs, ?_⟩
      intro Q hQ; rcases List.mem_cons.mp hQ with rfl | hQ; exacts [hP.2, hn Q hQ]
  obtain ⟨Pa, h1, na⟩ := hex la fun i hi => hok' i (by simp [hi])
  obtain ⟨Pb, h2, nb⟩ := hex lb fun i hi => hok' i (by simp [hi])
  exact ⟨_, lookup_static sq hr.wf ha hb hc hla hlb h1 h2,
    Pose.comp_r_ne (Pose.inv_r_ne (chain_r_ne nb)) (chain_r_ne na)⟩

/-- The example tree meets the hypotheses, from `b` (2) to `c` (3) through two levels. -/
theorem ex_pathAll_static : PathAll Ex.s4 2 3 (FrameOk false Ex.s4) := by
  have hw := Ex.reach4.wf
  have e := Ex.s4_eq
  have p2 : Ex.s4.parent 2 = some 1 := by rw [e]; simp
  have p1 : Ex.s4.parent 1 = some 0 := by rw [e]; simp
  have p3 : Ex.s4.parent 3 = some 0 := by rw [e]; simp
  obtain ⟨c, la, lb, hc, hla, hlb⟩ := nearest_exists hw (a := 2) (b := 3) (d := 0)
    (by rw [e]; norm_num) (by rw [e]; norm_num)
    (.head (show ParentOf _ _ _ from p2) (.single p1)) (.single p3)
  refine ⟨c, la, lb, hc, hla, hlb, ?_⟩
  have key : ∀ {l : List ℕ} {c a : ℕ}, PathTo Ex.s4.parent c a l → ∀ i ∈ l, i = 1 ∨ i = 2 ∨ i = 3 := by
    intro l c a hl
    induction hl with
    | here => simp
    | @up x p l _ hp _ ih =>
      intro i hi
      rcases List.mem_cons.mp hi with rfl | hi
      · rw [e] at hp; simp only at hp
        split_ifs at hp <;> simp_all
      · exact ih i hi
  intro i hi
  have : i = 1 ∨ i = 2 ∨ i = 3 := by
    rcases List.mem_append.mp hi with hi | hi
    · exact key hla i hi
    · exact key hlb i hi
  simp only [FrameOk, Bool.false_eq_true, if_false]
  rcases this with rfl | rfl | rfl
  · refine ⟨⟨![1, 2, 3], ⟨0, 0, 0, 1⟩⟩, ⟨false, by rw [e]; simp⟩, ?_⟩
    intro h; simpa using congrArg (fun q : Quat => q.imK) h
  · exact ⟨⟨![0, 1, 0], 1⟩, ⟨false, by rw [e]; simp⟩, one_ne_zero⟩
  · refine ⟨⟨0, ⟨0, 1, 0, 0⟩⟩, ⟨false, by rw [e]; simp⟩, ?_⟩
    intro h; simpa using congrArg (fun q : Quat => q.imI) h

/-- The moving example meets the hypotheses too (continuous `m` to discrete `d`). -/
theorem ex_pathAll_moving : PathAll Ex.m3 1 2 (FrameOk true Ex.m3) := by
  have hw := Ex.reachM.wf
  have e := Ex.m3_eq
  have p1 : Ex.m3.parent 1 = some 0 := by rw [e]; simp
  have p2 : Ex.m3.parent 2 = some 0 := by rw [e]; simp
  obtain ⟨c, la, lb, hc, hla, hlb⟩ := nearest_exists hw (a := 1) (b := 2) (d := 0)
    (by rw [e]; norm_num) (by rw [e]; norm_num) (.single p1) (.single p2)
  refine ⟨c, la, lb, hc, hla, hlb, ?_⟩
  have key : ∀ {l : List ℕ} {c a : ℕ}, PathTo Ex.m3.parent c a l → ∀ i ∈ l, i = 1 ∨ i = 2 := by
    intro l c a hl
    induction hl with
    | here => simp
    | @up x p l _ hp _ ih =>
      intro i hi
      rcases List.mem_cons.mp hi with rfl | hi
      · rw [e] at hp; simp only at hp
        split_ifs at hp <;> simp_all
      · exact ih i hi
  intro i hi
  have : i = 1 ∨ i = 2 := by
    rcases List.mem_append.mp hi with hi | hi
    · exact key hla i hi
    · exact key hlb i hi
  simp only [FrameOk, if_true]
  rcases this with rfl | rfl
  · exact ⟨Ex.dataM, by rw [e]; simp, Ex.goodM⟩
  · exact ⟨Ex.dataD, by rw [e]; simp, Ex.goodD⟩

/-! ### C11 -/

/-- Looking up a frame from itself gives the identity, whatever state its data is in. -/
theorem C11_self_lookup (sq : SquadFn) {s : State} {h : List Event} (hr : Reachable s h) {a : ℕ}
    (ha : a < s.size) : s.lookupTransform sq a (.byObj a) = .ok (.one 0, .one 1, none) := by
  have := lookup_static sq hr.wf ha ha (c := a) (la := []) (lb := []) (Pa := []) (Pb := [])
    ⟨.refl, .refl, fun d h _ => h⟩ .here .here .nil .nil
  rw [this]
  simp [chain, Pose.id, Pose.inv, Pose.comp]

example : (2 : ℕ) < Ex.s4.size := by rw [Ex.s4_eq]; norm_num

/-! ### C12 -/

theorem pathAll_symm {s : State} {a b : ℕ} {g : ℕ → Prop} (h : PathAll s a b g) : PathAll s b a g := by
  obtain ⟨c, la, lb, hc, hla, hlb, hok⟩ := h
  exact ⟨c, lb, la, ⟨hc.2.1, hc.1, fun d h1 h2 => hc.2.2 d h2 h1⟩, hlb, hla,
    fun i hi => hok i (by simp at hi ⊢; tauto)⟩

/-- At every time for which both lookups give a result, the transformation from `b` to `a` is the
inverse of the one from `a` to `b`. -/
theorem C12_inverse (sq : SquadFn) {mv : Bool} (hsq : mv = true → SquadLaw sq) {s : State}
    {h : List Event} (hr : Reachable s h) {a b : ℕ} (ha : a < s.size) (hb : b < s.size)
    (hp : PathAll s a b (FrameOk mv s)) {τ : ℝ} {A B : Pose}
    (hA : GivesAt (s.lookupTransform sq a (.byObj b)) τ A)
    (hB : GivesAt (s.lookupTransform sq b (.byObj a)) τ B) :
    B.r * A.r = 1 ∧ A.r * B.r = 1 ∧ (∀ p, B.act (A.act p) = p) ∧ (∀ p, A.act (B.act p) = p) := by
  obtain ⟨c, la, lb, hc, hla, hlb, hok⟩ := hp
  obtain ⟨Pa, Pb, h1, h2, h3, _, rfl⟩ := givesAt_chain sq hsq hr.wf ha hb hc hla hlb hok hA
  have na : ∀ Q ∈ Pa, Q.r ≠ 0 := fun Q hQ => h3 Q (by simp [hQ])
  have nb : ∀ Q ∈ Pb, Q.r ≠ 0 := fun Q hQ => h3 Q (by simp [hQ])
  have ca := chain_r_ne na
  have cb := chain_r_ne nb
  have hok' : ∀ i ∈ lb ++ la, FrameOk mv s i := fun i hi => hok i (by simp at hi ⊢; tauto)
  have e := givesAt_via sq hsq hr.wf hb ha hlb hla hok' hB h2 h1
    (fun Q hQ => h3 Q (by simp at hQ ⊢; tauto))
  set A := (chain Pb).inv.comp (chain Pa) with hA'
  have nA : A.r ≠ 0 := Pose.comp_r_ne (Pose.inv_r_ne cb) ca
  have eB : B = A.inv := by
    rw [e, hA', Pose.comp_inv_rev (Pose.inv_r_ne cb) ca, Pose.inv_inv cb]
  subst eB
  refine ⟨by simp [Pose.inv, nA], by simp [Pose.inv, nA], fun p => ?_, fun p => ?_⟩
  · rw [← Pose.comp_act (Pose.inv_r_ne nA) nA, Pose.inv_comp nA]; simp [Pose.id, Pose.act]
  · rw [← Pose.comp_act nA (Pose.inv_r_ne nA), Pose.comp_inv nA]; simp [Pose.id, Pose.act]

/-! ### C13 -/

/-- Transformations compose along any intermediate frame: `a → c` is `a → b` followed by `b → c`,
whether or not `b` lies between `a` and `c`, at every time for which the three lookups give a
result. -/
theorem C13_composition (sq : SquadFn) {mv : Bool} (hsq : mv = true → SquadLaw sq) {s : State}
    {h : List Event} (hr : Reachable s h) {a b c : ℕ} (ha : a < s.size) (hb : b < s.size)
    (hc : c < s.size) (hab : PathAll s a b (FrameOk mv s)) (hbc : PathAll s b c (FrameOk mv s))
    {τ : ℝ} {A B C : Pose} (hA : GivesAt (s.lookupTransform sq a (.byObj b)) τ A)
    (hB : GivesAt (s.lookupTransform sq b (.byObj c)) τ B)
    (hC : GivesAt (s.lookupTransform sq a (.byObj c)) τ C) :
    C.t = rot B.r A.t + B.t ∧ C.r = B.r * A.r := by
  suffices hh : C = B.comp A by rw [hh]; exact ⟨rfl, rfl⟩
  have hw := hr.wf
  obtain ⟨d1, la, lb, hd1, hla, hlb, hok1⟩ := hab
  obtain ⟨d2, mb, mc, hd2, hmb, hmc, hok2⟩ := hbc
  obtain ⟨Pa, Pb, h1, h2, h3, _, rfl⟩ := givesAt_chain sq hsq hw ha hb hd1 hla hlb hok1 hA
  obtain ⟨Qb, Qc, g1, g2, g3, _, rfl⟩ := givesAt_chain sq hsq hw hb hc hd2 hmb hmc hok2 hB
  have na : ∀ Q ∈ Pa, Q.r ≠ 0 := fun Q hQ => h3 Q (by simp [hQ])
  have nb : ∀ Q ∈ Pb, Q.r ≠ 0 := fun Q hQ => h3 Q (by simp [hQ])
  have nb' : ∀ Q ∈ Qb, Q.r ≠ 0 := fun Q hQ => g3 Q (by simp [hQ])
  have nc : ∀ Q ∈ Qc, Q.r ≠ 0 := fun Q hQ => g3 Q (by simp [hQ])
  have ca := chain_r_ne na
  have cb := chain_r_ne nb
  have cb' := chain_r_ne nb'
  have cc := chain_r_ne nc
  rcases ancestors_comparable hd1.2.1 hd2.1 with hle | hle
  · -- `d2` is above `d1`
    obtain ⟨m, hm⟩ := pathTo_exists hw hle
    have e := hmb.unique (hlb.append hw hm)
    subst e
    obtain ⟨Qb1, Qm, rfl, q1, q2⟩ := forall₂_split g1
    have := poses_unique (fun i hi => hok1 i (by simp [hi])) q1 h2
    subst this
    have nm : ∀ Q ∈ Qm, Q.r ≠ 0 := fun Q hQ => g3 Q (by simp [hQ])
    have cm := chain_r_ne nm
    have hPa' : List.Forall₂ (PoseOf sq s τ) (la ++ m) (Pa ++ Qm) := List.rel_append h1 q2
    have := givesAt_via sq hsq hw ha hc (hla.append hw hm) hmc
      (fun i hi => by
        simp only [List.mem_append] at hi
        rcases hi with (hi | hi) | hi
        · exact hok1 i (by simp [hi])
        · exact hok2 i (by simp [hi])
        · exact hok2 i (by simp [hi])) hC hPa' g2
      (fun Q hQ => by
        simp only [List.mem_append] at hQ
        rcases hQ with (hQ | hQ) | hQ
        · exact na Q hQ
        · exact nm Q hQ
        · exact nc Q hQ)
    rw [this, chain_append na nm, chain_append nb nm,
      Pose.comp_assoc (Pose.inv_r_ne cc) (Pose.comp_r_ne cm cb),
      Pose.comp_assoc cm cb, ← Pose.comp_assoc cb (Pose.inv_r_ne cb), Pose.comp_inv cb, Pose.id_comp]
  · -- `d1` is above `d2`
    obtain ⟨m, hm⟩ := pathTo_exists hw hle
    have e := hlb.unique (hmb.append hw hm)
    subst e
    obtain ⟨Pb1, Pm, rfl, q1, q2⟩ := forall₂_split h2
    have := poses_unique (fun i hi => hok2 i (by simp [hi])) q1 g1
    subst this
    have nm : ∀ Q ∈ Pm, Q.r ≠ 0 := fun Q hQ => nb Q (by simp [hQ])
    have cm := chain_r_ne nm
    have hPc' : List.Forall₂ (PoseOf sq s τ) (mc ++ m) (Qc ++ Pm) := List.rel_append g2 q2
    have := givesAt_via sq hsq hw ha hc hla (hmc.append hw hm)
      (fun i hi => by
        simp only [List.mem_append] at hi
        rcases hi with hi | hi | hi
        · exact hok1 i (by simp [hi])
        · exact hok2 i (by simp [hi])
        · exact hok1 i (by simp [hi])) hC h1 hPc'
      (fun Q hQ => by
        simp only [List.mem_append] at hQ
        rcases hQ with hQ | hQ | hQ
        · exact na Q hQ
        · exact nc Q hQ
        · exact nm Q hQ)
    rw [this, chain_append nc nm, chain_append nb' nm,
      Pose.comp_inv_rev cm cc, Pose.comp_inv_rev cm cb',
      Pose.comp_assoc (Pose.inv_r_ne cc) (Pose.inv_r_ne cm),
      Pose.comp_assoc (Pose.inv_r_ne cc) cb',
      Pose.comp_assoc (Pose.inv_r_ne cb') (Pose.inv_r_ne cm),
      ← Pose.comp_assoc cb' (Pose.inv_r_ne cb'), Pose.comp_inv cb', Pose.id_comp]

/-! ### C14 -/

/-- Looked-up transformations are proper rigid motions; the rotation is a unit quaternion if those
on the path are. -/
theorem C14_rigid (sq : SquadFn) {mv : Bool} (hsq : mv = true → SquadLaw sq) {s : State}
    {h : List Event} (hr : Reachable s h) {a b : ℕ} (ha : a < s.size) (hb : b < s.size)
    (hp : PathAll s a b (FrameOk mv s)) {τ : ℝ} {A : Pose}
    (hA : GivesAt (s.lookupTransform sq a (.byObj b)) τ A) :
    (mv = true → IsUnitQ A.r) ∧
    (∀ p p', Spec.dist (A.act p) (A.act p') = Spec.dist p p') ∧
    (∀ v w, dot (rot A.r v) (rot A.r w) = dot v w) ∧
    (∀ v w, cross (rot A.r v) (rot A.r w) = rot A.r (cross v w)) := by
  obtain ⟨c, la, lb, hc, hla, hlb, hok⟩ := hp
  obtain ⟨Pa, Pb, h1, h2, h3, h4, rfl⟩ := givesAt_chain sq hsq hr.wf ha hb hc hla hlb hok hA
  have na : ∀ Q ∈ Pa, Q.r ≠ 0 := fun Q hQ => h3 Q (by simp [hQ])
  have nb : ∀ Q ∈ Pb, Q.r ≠ 0 := fun Q hQ => h3 Q (by simp [hQ])
  have nA : ((chain Pb).inv.comp (chain Pa)).r ≠ 0 :=
    Pose.comp_r_ne (Pose.inv_r_ne (chain_r_ne nb)) (chain_r_ne na)
  refine ⟨fun hm => ?_, fun p p' => ?_, dot_rot _ nA, fun v w => cross_rot _ nA v w⟩
  · have := h4 hm
    exact (chain_unit fun Q hQ => this Q (by simp [hQ])).inv.mul (chain_unit fun Q hQ => this Q (by simp [hQ]))
  · simp only [Spec.dist, Pose.act]
    rw [show ∀ x y z : Vec, x + z - (y + z) = x - y by intros; abel, ← rot_sub, dot_rot _ nA]

/-! ### C22, C23 -/

theorem pathAll_route {s : State} (h : WF s) {a b : ℕ} {g : ℕ → Prop} (hp : PathAll s a b g) {l : List ℕ}
    (hl : Route s a b l) : ∃ c la lb, NearestCommon s a b c ∧ PathTo s.parent c a la ∧
      PathTo s.parent c b lb ∧ (∀ i ∈ la ++ lb, g i) ∧ l = la ++ lb.reverse := by
  obtain ⟨c, la, lb, hc, hla, hlb, hok⟩ := hp
  obtain ⟨c', la', lb', hc', hla', hlb', rfl⟩ := hl
  have := hc.unique h hc'
  subst this
  exact ⟨c, la', lb', hc, hla', hlb', by rw [← hla.unique hla', ← hlb.unique hlb']; exact hok, rfl⟩

/-- Lookups along well-formed frames never fail; the result has no timestamps (and single rows)
exactly if no frame on the route has timestamps, else one row per timestamp. -/
theorem C22_static_iff (sq : SquadFn) (hsq : SquadLaw sq) {s : State} {h : List Event}
    (hr : Reachable s h) {a b : ℕ} (ha : a < s.size) (hb : b < s.size)
    (hp : PathAll s a b (FrameOk true s)) {l : List ℕ} (hl : Route s a b l) :
    (((∀ i ∈ l, ∀ disc, stampsOf s disc i = none) ∧
        ∃ t r, s.lookupTransform sq a (.byObj b) = .ok (.one t, .one r, none)) ∨
      (¬ (∀ i ∈ l, ∀ disc, stampsOf s disc i = none) ∧
        ∃ tl rl ts, s.lookupTransform sq a (.byObj b) = .ok (.many tl, .many rl, some ts) ∧
          tl.length = ts.length ∧ rl.length = ts.length)) := by
  obtain ⟨c, la, lb, hc, hla, hlb, hok, rfl⟩ := pathAll_route hr.wf hp hl
  rcases lookup_good sq hsq hr.wf ha hb hc hla hlb hok with ⟨h1, h2, Pa, Pb, _, _, e⟩ | ⟨h1, ts, T, e, _⟩
  · left
    refine ⟨fun i hi disc => ?_, _, _, e⟩
    cases disc
    · exact List.filterMap_eq_nil_iff.mp h1 i hi
    · exact List.filterMap_eq_nil_iff.mp h2 i hi
  · right
    refine ⟨fun hn => ?_, _, _, ts, e, by simp, by simp⟩
    rcases h1 with h1 | h1
    · exact h1 (List.filterMap_eq_nil_iff.mpr fun i hi => hn i hi false)
    · exact h1 (List.filterMap_eq_nil_iff.mpr fun i hi => hn i hi true)

/-- If every frame on the path has at least two strictly increasing timestamps (continuous), at
least one non-decreasing event (discrete) or none (static), the lookup succeeds: no exception and no
NaN, for any overlap of the time ranges. -/
theorem C23_never_fails (sq : SquadFn) (hsq : SquadLaw sq) {s : State} {h : List Event}
    (hr : Reachable s h) {a b : ℕ} (ha : a < s.size) (hb : b < s.size)
    (hp : PathAll s a b (FrameOk true s)) : ∃ res, s.lookupTransform sq a (.byObj b) = .ok res := by
  obtain ⟨c, la, lb, hc, hla, hlb, hok⟩ := hp
  rcases lookup_good sq hsq hr.wf ha hb hc hla hlb hok with ⟨_, _, Pa, Pb, _, _, e⟩ | ⟨_, ts, T, e, _⟩
  · exact ⟨_, e⟩
  · exact ⟨_, e⟩

example : ∃ res, Ex.m3.lookupTransform Ex.holdSquad 1 (.byObj 2) = .ok res :=
  C23_never_fails _ Ex.holdSquad_law Ex.reachM (by rw [Ex.m3_eq]; norm_num) (by rw [Ex.m3_eq]; norm_num)
    ex_pathAll_moving

/-! ### C20, C21, C27 -/

open Classical in
/-- The returned timestamps: with `cont` the timestamps of the continuous frames on the route (in
order), exactly those timestamps of the first continuous frame that lie in the range of every
continuous frame, in the original order. -/
theorem C20_timestamps (sq : SquadFn) (hsq : SquadLaw sq) {s : State} {h : List Event}
    (hr : Reachable s h) {a b : ℕ} (ha : a < s.size) (hb : b < s.size)
    (hp : PathAll s a b (FrameOk true s)) {l : List ℕ} (hl : Route s a b l)
    {t : Arr Vec} {r : Arr Quat} {ts : Option (List ℝ)}
    (he : s.lookupTransform sq a (.byObj b) = .ok (t, r, ts)) {first : List ℝ} {rest : List (List ℝ)}
    (hcont : l.filterMap (stampsOf s false) = first :: rest) :
    ∃ out, ts = some out ∧ StrictlyIncreasing out ∧
      out = first.filter fun τ => decide (∀ y ∈ first :: rest, InRange y τ) := by
  obtain ⟨c, la, lb, hc, hla, hlb, hok, rfl⟩ := pathAll_route hr.wf hp hl
  have hinc : StrictlyIncreasing first := by
    have : first ∈ (la ++ lb.reverse).filterMap (stampsOf s false) := by rw [hcont]; simp
    obtain ⟨i, hi, hst⟩ := List.mem_filterMap.mp this
    obtain ⟨d, hd, hgd⟩ : ∃ d, s.data i = some d ∧ GoodData d := by
      simpa [FrameOk] using hok i (by simp at hi ⊢; exact hi)
    simp only [stampsOf, hd, Option.bind_some] at hst
    cases hgd with
    | static => simp at hst
    | discrete => simp at hst
    | continuous _ _ _ hs => simp at hst; subst hst; exact hs
  rcases lookup_good sq hsq hr.wf ha hb hc hla hlb hok with ⟨h1, _⟩ | ⟨_, ts', T, e, h2, _⟩
  · rw [hcont] at h1; simp at h1
  · rw [he] at e
    simp only [Except.ok.injEq, Prod.mk.injEq] at e
    rcases h2 with ⟨x, xs, hx, hts⟩ | ⟨h2, _⟩
    · rw [hcont] at hx
      cases hx
      refine ⟨ts', e.2.2, ?_, ?_⟩
      · rw [hts]; exact hinc.sublist List.filter_sublist
      · rw [hts]; simp only [hcont]
    · rw [hcont] at h2; simp at h2

/-- The continuous frames of the moving example. -/
example : Route Ex.m3 1 2 [1, 2] ∧
    [1, 2].filterMap (stampsOf Ex.m3 false) = [[0, 1, 2]] := by
  have e := Ex.m3_eq
  have p1 : Ex.m3.parent 1 = some 0 := by rw [e]; simp
  have p2 : Ex.m3.parent 2 = some 0 := by rw [e]; simp
  have p0 : Ex.m3.parent 0 = none := by rw [e]; simp
  refine ⟨⟨0, [1], [2], ⟨.single p1, .single p2, ?_⟩, .up (by simp) p1 .here, .up (by simp) p2 .here, rfl⟩, ?_⟩
  · intro d h1 h2
    rcases Relation.ReflTransGen.cases_head h1 with rfl | ⟨z, hz, h3⟩
    · rcases Relation.ReflTransGen.cases_head h2 with h | ⟨z, hz, h3⟩
      · exact absurd h (by norm_num)
      · rw [ParentOf, p2] at hz; cases hz
        rcases Relation.ReflTransGen.cases_head h3 with h | ⟨z, hz, h3⟩
        · exact absurd h (by norm_num)
        · rw [ParentOf, p0] at hz; simp at hz
    · rw [ParentOf, p1] at hz; cases hz; exact h3
  · rw [e]; simp [stampsOf, Ex.dataM, Ex.dataD]

/-- If all timestamped frames on the route are discrete, the lookup is evaluated at exactly their
event times, in increasing order. -/
theorem C27_discrete_events (sq : SquadFn) (hsq : SquadLaw sq) {s : State} {h : List Event}
    (hr : Reachable s h) {a b : ℕ} (ha : a < s.size) (hb : b < s.size)
    (hp : PathAll s a b (FrameOk true s)) {l : List ℕ} (hl : Route s a b l)
    {t : Arr Vec} {r : Arr Quat} {ts : List ℝ}
    (he : s.lookupTransform sq a (.byObj b) = .ok (t, r, some ts))
    (hcont : ∀ i ∈ l, stampsOf s false i = none) :
    StrictlyIncreasing ts ∧ ∀ x, x ∈ ts ↔ ∃ i ∈ l, ∃ ev, stampsOf s true i = some ev ∧ x ∈ ev := by
  obtain ⟨c, la, lb, hc, hla, hlb, hok, rfl⟩ := pathAll_route hr.wf hp hl
  have hc0 : (la ++ lb.reverse).filterMap (stampsOf s false) = [] := List.filterMap_eq_nil_iff.mpr hcont
  rcases lookup_good sq hsq hr.wf ha hb hc hla hlb hok with ⟨_, _, Pa, Pb, _, _, e⟩ | ⟨_, ts', T, e, h2, _⟩
  · rw [he] at e; simp at e
  · rw [he] at e
    simp only [Except.ok.injEq, Prod.mk.injEq, Option.some.injEq] at e
    obtain ⟨_, _, rfl⟩ := e
    rcases h2 with ⟨x, xs, hx, _⟩ | ⟨_, rfl⟩
    · rw [hc0] at hx; simp at hx
    · refine ⟨npUnique_sorted _, fun x => ?_⟩
      rw [mem_npUnique, List.mem_flatten]
      simp only [List.mem_filterMap]
      constructor
      · rintro ⟨ev, ⟨i, hi, h1⟩, hx⟩; exact ⟨i, hi, ev, h1, hx⟩
      · rintro ⟨i, hi, ev, h1, hx⟩; exact ⟨ev, ⟨i, hi, h1⟩, hx⟩

/-! ### C24 -/

/-- What the lookup gives at time `τ` is the static lookup in the tree where every frame is frozen at
its pose at `τ`. -/
theorem C24_pointwise (sq : SquadFn) (hsq : SquadLaw sq) {s : State} {h : List Event}
    (hr : Reachable s h) {a b : ℕ} (ha : a < s.size) (hb : b < s.size)
    (hp : PathAll s a b (FrameOk true s)) {τ : ℝ} {A : Pose}
    (hA : GivesAt (s.lookupTransform sq a (.byObj b)) τ A) {s0 : State} (hs0 : FrozenAt sq s τ s0) :
    s0.lookupTransform sq a (.byObj b) = .ok (.one A.t, .one A.r, none) := by
  obtain ⟨⟨data, rfl⟩, hfr⟩ := hs0
  obtain ⟨c, la, lb, hc, hla, hlb, hok⟩ := hp
  obtain ⟨Pa, Pb, h1, h2, h3, _, rfl⟩ := givesAt_chain sq (fun _ => hsq) hr.wf ha hb hc hla hlb hok hA
  have conv : ∀ {l Ps}, List.Forall₂ (PoseOf sq s τ) l Ps → (∀ i ∈ l, FrameOk true s i) →
      (∀ Q ∈ Ps, Q.r ≠ 0) →
      List.Forall₂ (fun i P => StaticPoseOf { s with data := data } i P ∧ P.r ≠ 0) l Ps := by
    intro l Ps hf
    induction hf with
    | nil => intro _ _; exact .nil
    | @cons i P l Ps hx _ ih =>
      intro hl hn
      refine .cons ⟨?_, hn _ (by simp)⟩ (ih (fun i hi => hl i (List.mem_cons_of_mem _ hi))
        (fun Q hQ => hn Q (List.mem_cons_of_mem _ hQ)))
      obtain ⟨d, hd, hpose⟩ := hx
      obtain ⟨d', hd', hgd⟩ : ∃ d, s.data i = some d ∧ GoodData d := by
        simpa [FrameOk] using hl i (by simp)
      rw [hd] at hd'; cases hd'
      exact ⟨false, hfr i d P hd hgd hpose⟩
  have hw : WF { s with data := data } :=
    ⟨hr.wf.parent_lt, hr.wf.child_iff, hr.wf.nodup, hr.wf.path, hr.wf.reg_ok⟩
  exact lookup_static sq hw ha hb (c := c) hc hla hlb
    (conv h1 (fun i hi => hok i (by simp [hi])) (fun Q hQ => h3 Q (by simp [hQ])))
    (conv h2 (fun i hi => hok i (by simp [hi])) (fun Q hQ => h3 Q (by simp [hQ])))

/-- Frozen trees exist for every state and time, and every returned timestamp is covered. -/
theorem C24_frozen_exists (sq : SquadFn) (s : State) (τ : ℝ) : ∃ s0, FrozenAt sq s τ s0 := by
  classical
  refine ⟨{ s with data := fun i =>
      if hP : ∃ d P, s.data i = some d ∧ GoodData d ∧ IsPoseAt sq d τ P
      then (some ⟨some (.one hP.choose_spec.choose.t, .one hP.choose_spec.choose.r), none, false⟩)
      else none }, ⟨_, rfl⟩, ?_⟩
  intro i d P hd hg hpose
  have hex : ∃ d P, s.data i = some d ∧ GoodData d ∧ IsPoseAt sq d τ P := ⟨d, P, hd, hg, hpose⟩
  simp only [hex, dif_pos]
  have hsp := hex.choose_spec.choose_spec
  have : hex.choose = d := by
    have := hsp.1.symm.trans hd; exact Option.some.inj this
  have hpq : hex.choose_spec.choose = P := isPoseAt_unique hg (this ▸ hsp.2.2) hpose
  rw [hpq]

/-- Every timestamp of a lookup is covered by `GivesAt`. -/
theorem C24_rows_covered (sq : SquadFn) (hsq : SquadLaw sq) {s : State} {h : List Event}
    (hr : Reachable s h) {a b : ℕ} (ha : a < s.size) (hb : b < s.size)
    (hp : PathAll s a b (FrameOk true s)) {t : Arr Vec} {r : Arr Quat} {ts : List ℝ}
    (he : s.lookupTransform sq a (.byObj b) = .ok (t, r, some ts)) :
    ∀ τ ∈ ts, ∃ A, GivesAt (s.lookupTransform sq a (.byObj b)) τ A := by
  obtain ⟨c, la, lb, hc, hla, hlb, hok⟩ := hp
  rcases lookup_good sq hsq hr.wf ha hb hc hla hlb hok with ⟨_, _, Pa, Pb, _, _, e⟩ | ⟨_, ts', T, e, _⟩
  · rw [he] at e; simp at e
  · intro τ hτ
    have e' := he.symm.trans e
    simp only [Except.ok.injEq, Prod.mk.injEq, Option.some.injEq] at e'
    obtain ⟨_, _, rfl⟩ := e'
    obtain ⟨k, hk⟩ := List.mem_iff_getElem?.mp hτ
    refine ⟨T τ, .inr ⟨_, _, ts, k, e, hk, ?_, ?_⟩⟩ <;> simp [hk]

/-! ### C28 -/

/-- A completely constructed frame (with parent): it has data and a pose. -/
def HasPose (s : State) (i : ℕ) : Prop := ∃ d p, s.data i = some d ∧ d.pose = some p

/-- The timestamps of frame `i` decrease somewhere or their number differs from the first axis of
the translation. -/
def BadStamps (s : State) (i : ℕ) : Prop :=
  ∃ d t r ts, s.data i = some d ∧ d.pose = some (t, r) ∧ d.timestamps = some ts ∧
    (¬ NonDecreasing ts ∨ ts.length ≠ firstLen t)

theorem addFrames_bad {s : State} {inv : Bool} {l : List ℕ} (hpose : ∀ i ∈ l, HasPose s i)
    (hbad : ∃ i ∈ l, BadStamps s i) (m : Matcher) : s.addFrames inv l m = .error .valueError := by
  induction l generalizing m with
  | nil => simp at hbad
  | cons i l ih =>
    obtain ⟨d, ⟨t, r⟩, hd, hp⟩ := hpose i (by simp)
    simp only [State.addFrames, State.addFrame, hd, hp, Matcher.addFrame]
    by_cases hc : checkTimestamps d.timestamps (firstLen t) = .ok ()
    · simp only [hc]
      apply ih fun j hj => hpose j (List.mem_cons_of_mem _ hj)
      obtain ⟨j, hj, hb⟩ := hbad
      rcases List.mem_cons.mp hj with rfl | hj
      · obtain ⟨d', t', r', ts, g1, g2, g3, g4⟩ := hb
        rw [hd] at g1; cases g1
        rw [hp] at g2; cases g2
        simp only [checkTimestamps, g3] at hc
        split at hc
        · simp at hc
        · split at hc
          · simp at hc
          · rename_i n1 n2
            rcases g4 with g4 | g4
            · exact absurd ((anyDecrease_iff ts).mp n1) g4
            · exact absurd g4 n2
      · exact ⟨j, hj, hb⟩
    · have : checkTimestamps d.timestamps (firstLen t) = .error .valueError := by
        cases hts : d.timestamps with
        | none => rw [hts] at hc; exact absurd rfl hc
        | some ts =>
          rw [hts] at hc
          simp only [checkTimestamps] at hc ⊢
          split
          · rfl
          · split
            · rfl
            · rename_i n1 n2; rw [if_neg n1, if_neg n2] at hc; exact absurd rfl hc
      simp only [this]

/-- A lookup through a frame with decreasing timestamps, or with a wrong number of them, raises
`ValueError`; if no frame on the route is like that, the check passes. -/
theorem C28_bad_timestamps (sq : SquadFn) {s : State} {h : List Event} (hr : Reachable s h) {a b : ℕ}
    (ha : a < s.size) (hb : b < s.size) {l : List ℕ} (hl : Route s a b l)
    (hpose : ∀ i ∈ l, HasPose s i) :
    ((∃ i ∈ l, BadStamps s i) → s.lookupTransform sq a (.byObj b) = .error .valueError) ∧
    ((¬ ∃ i ∈ l, BadStamps s i) → ∃ m, s.getMatcher a (.byObj b) [] = .ok m) := by
  obtain ⟨c, la, lb, hc, hla, hlb, rfl⟩ := hl
  have hw : s.walk a (.byObj b) = .ok (la, lb.reverse) := by
    simp [State.walk, State.resolve, walk_eq hr.wf ha hb hc hla hlb]
  have hgood : ∀ i, HasPose s i → ¬ BadStamps s i → Checked s i := by
    rintro i ⟨d, ⟨t, r⟩, hd, hp⟩ hn
    refine ⟨d, (t, r), hd, hp, ?_⟩
    cases hts : d.timestamps with
    | none => rfl
    | some ts =>
      by_contra hne
      apply hn
      refine ⟨d, t, r, ts, hd, hp, hts, ?_⟩
      by_contra hcon
      push Not at hcon
      exact hne (checkTimestamps_ok hcon.1 hcon.2)
  constructor
  · intro hbad
    simp only [State.lookupTransform, State.getMatcher, hw, bind, Except.bind]
    by_cases h1 : ∃ i ∈ la, BadStamps s i
    · rw [addFrames_bad (fun i hi => hpose i (by simp [hi])) h1]
    · obtain ⟨fs, e, _⟩ := addFrames_ok (s := s) (inv := false) (l := la) (m := Matcher.empty)
        (fun i hi => hgood i (hpose i (by simp [hi])) (fun hb => h1 ⟨i, hi, hb⟩))
      simp only [e]
      rw [addFrames_bad (fun i hi => hpose i (by simp at hi; simp [hi]))]
      obtain ⟨i, hi, hb⟩ := hbad
      rcases List.mem_append.mp hi with hi | hi
      · exact absurd ⟨i, hi, hb⟩ h1
      · exact ⟨i, hi, hb⟩
  · intro hn
    obtain ⟨fa, fb, e, _⟩ := getMatcher_ok hr.wf ha hb hc hla hlb (fun i hi => by
      have hi' : i ∈ la ++ lb.reverse := by simp at hi ⊢; exact hi
      exact hgood i (hpose i hi') (fun hb => hn ⟨i, hi', hb⟩)) []
    exact ⟨_, e⟩

end RBM.Props
