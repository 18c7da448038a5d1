import Verif.Lemmas.TransformArr
import Mathlib.Tactic.IntervalCases

namespace RBM

open Spec

theorem StrictlyIncreasing.head_le {l : List ℝ} (h : StrictlyIncreasing l) {k : ℕ} {x : ℝ} (hk : l[k]? = some x) :
    ∀ y, l.head? = some y → y ≤ x := by
  intro y hy
  cases l with
  | nil => simp at hy
  | cons a l =>
    simp at hy; subst hy
    cases k with
    | zero => simp at hk; exact hk.le
    | succ k => simp at hk; exact ((List.pairwise_cons.mp h).1 x (List.mem_of_getElem? hk)).le

theorem StrictlyIncreasing.le_last {l : List ℝ} (h : StrictlyIncreasing l) {k : ℕ} {x : ℝ} (hk : l[k]? = some x) :
    ∀ y, l.getLast? = some y → x ≤ y := by
  intro y hy
  obtain ⟨i, rfl⟩ := List.getLast?_eq_some_iff.mp hy
  rcases List.mem_append.mp (List.mem_of_getElem? hk) with hx | hx
  · exact ((List.pairwise_append.mp h).2.2 x hx y (by simp)).le
  · simp at hx; exact hx.le

theorem unit_of_pose {sq : SquadFn} (hsq : SquadLaw sq) {d : FrameData} (h : GoodData d) {τ : ℝ} {P : Pose}
    (hP : IsPoseAt sq d τ P) : IsUnitQ P.r := by
  cases hP with
  | static => cases h with | static h => exact h
  | discrete _ _ h3 => cases h with | discrete _ _ _ _ h => exact h _ (List.mem_of_getElem? h3)
  | continuous hl =>
    cases h with
    | continuous _ h2 h3 h4 h5 =>
      obtain ⟨k, x0, x1, y0, y1, e0, e1, _, _, _, l0, l1, _⟩ := hl
      exact hsq.unit _ _ _ h2 h3 h4 h5 (fun y hy => (StrictlyIncreasing.head_le h4 e0 y hy).trans l0)
        (fun y hy => l1.trans (StrictlyIncreasing.le_last h4 e1 y hy))

theorem poseOf_good {sq : SquadFn} {mv : Bool} (hsq : mv = true → SquadLaw sq) {s : State} {i : ℕ}
    (h : FrameOk mv s i) {τ : ℝ} {P : Pose} (hP : PoseOf sq s τ i P) :
    P.r ≠ 0 ∧ (mv = true → IsUnitQ P.r) := by
  cases mv with
  | true =>
    obtain ⟨d, hd, hg⟩ : ∃ d, s.data i = some d ∧ GoodData d := by simpa [FrameOk] using h
    obtain ⟨d', hd', hP⟩ := hP
    rw [hd] at hd'; cases hd'
    have := unit_of_pose (hsq rfl) hg hP
    exact ⟨this.ne_zero, fun _ => this⟩
  | false =>
    have hf := h
    simp only [FrameOk, Bool.false_eq_true, if_false] at hf
    obtain ⟨Q, hQ, hn⟩ := hf
    have := poseOf_unique h hP (poseOf_static sq hQ τ)
    subst this
    exact ⟨hn, by simp⟩

theorem inAncestor_poses {parent : ℕ → Option ℕ} {pose : ℕ → Pose → Prop} {c a : ℕ} {l : List ℕ}
    (h : PathTo parent c a l) {p P : Vec} (hp : InAncestor parent pose c a p P) :
    ∃ Ps, List.Forall₂ pose l Ps := by
  induction h generalizing p with
  | here => exact ⟨[], .nil⟩
  | up h1 h2 _ ih =>
    cases hp with
    | here => exact absurd rfl h1
    | up _ h2' hQ' hp =>
      rw [h2] at h2'; cases h2'
      obtain ⟨Ps, hPs⟩ := ih hp
      exact ⟨_, .cons hQ' hPs⟩

/-- The specification of a change of coordinates determines it as a chain of poses. -/
theorem Spec.IsTransformAt.chainAt {sq : SquadFn} {s : State} (hw : WF s) {mv : Bool} (hsq : mv = true → SquadLaw sq)
    {a b c : ℕ} {la lb : List ℕ} {τ : ℝ} {A : Pose}
    (hc : NearestCommon s a b c) (hla : PathTo s.parent c a la) (hlb : PathTo s.parent c b lb)
    (hok : ∀ i ∈ la ++ lb, FrameOk mv s i)
    (hA : IsTransformAt sq s a b τ A) : ChainAt sq s la lb τ A ∧ (mv = true → IsUnitQ A.r) := by
  have hA' := hA
  obtain ⟨c', hc', g1, _⟩ := hA
  have := hc.unique hw hc'
  subst this
  obtain ⟨P, q1, q2⟩ := g1 0
  obtain ⟨Pa, ha⟩ := inAncestor_poses hla q1
  obtain ⟨Pb, hb⟩ := inAncestor_poses hlb q2
  have key : ∀ {l Ps}, List.Forall₂ (PoseOf sq s τ) l Ps → (∀ i ∈ l, FrameOk mv s i) →
      ∀ Q ∈ Ps, Q.r ≠ 0 ∧ (mv = true → IsUnitQ Q.r) := by
    intro l Ps hl
    induction hl with
    | nil => simp
    | cons hx _ ih =>
      intro hi Q hQ
      rcases List.mem_cons.mp hQ with rfl | hQ
      · exact poseOf_good hsq (hi _ (List.mem_cons_self ..)) hx
      · exact ih (fun i h => hi i (List.mem_cons_of_mem _ h)) Q hQ
  have ka := key ha (fun i hi => hok i (by simp [hi]))
  have kb := key hb (fun i hi => hok i (by simp [hi]))
  have hch : ChainAt sq s la lb τ ((chain Pb).inv.comp (chain Pa)) :=
    ⟨Pa, Pb, ha, hb, fun Q hQ => (List.mem_append.mp hQ).elim (fun h => (ka Q h).1) (fun h => (kb Q h).1), rfl⟩
  have e := hch.unique hw hc hla hlb hok hA'
  subst e
  exact ⟨hch, fun hm => (chain_unit fun Q hQ => (kb Q hQ).2 hm).inv.mul (chain_unit fun Q hQ => (ka Q hQ).2 hm)⟩

/-- Changes of coordinates are unique. -/
theorem isTransformAt_unique {sq : SquadFn} {s : State} (hw : WF s) {mv : Bool} (hsq : mv = true → SquadLaw sq)
    {a b : ℕ} (hp : PathAll s a b (FrameOk mv s)) {τ : ℝ} {A B : Pose}
    (hA : IsTransformAt sq s a b τ A) (hB : IsTransformAt sq s a b τ B) : A = B := by
  obtain ⟨c, la, lb, hc, hla, hlb, hok⟩ := hp
  exact (hB.chainAt hw hsq hc hla hlb hok).1.unique hw hc hla hlb hok hA

theorem isTransformAt_unit {sq : SquadFn} {s : State} (hw : WF s) (hsq : SquadLaw sq)
    {a b : ℕ} (hp : PathAll s a b (FrameOk true s)) {τ : ℝ} {A : Pose}
    (hA : IsTransformAt sq s a b τ A) : IsUnitQ A.r := by
  obtain ⟨c, la, lb, hc, hla, hlb, hok⟩ := hp
  exact (hA.chainAt hw (fun _ => hsq) hc hla hlb hok).2 rfl

theorem isTransformAt_ne {sq : SquadFn} {s : State} (hw : WF s) {mv : Bool} (hsq : mv = true → SquadLaw sq)
    {a b : ℕ} (hp : PathAll s a b (FrameOk mv s)) {τ : ℝ} {A : Pose}
    (hA : IsTransformAt sq s a b τ A) : A.r ≠ 0 := by
  obtain ⟨c, la, lb, hc, hla, hlb, hok⟩ := hp
  exact (hA.chainAt hw hsq hc hla hlb hok).1.r_ne

/-- The change of coordinates back is the inverse. -/
theorem isTransformAt_inv {sq : SquadFn} {s : State} (hw : WF s) {mv : Bool} (hsq : mv = true → SquadLaw sq)
    {a b : ℕ} (hp : PathAll s a b (FrameOk mv s)) {τ : ℝ} {A B : Pose}
    (hA : IsTransformAt sq s a b τ A) (hB : IsTransformAt sq s b a τ B) : B = A.inv := by
  obtain ⟨c, la, lb, hc, hla, hlb, hok⟩ := hp
  obtain ⟨⟨Pa, Pb, h1, h2, h3, rfl⟩, _⟩ := hA.chainAt hw hsq hc hla hlb hok
  have nb := chain_r_ne (l := Pb) fun Q hQ => h3 Q (by simp [hQ])
  have na := chain_r_ne (l := Pa) fun Q hQ => h3 Q (by simp [hQ])
  have hc' : NearestCommon s b a c := ⟨hc.2.1, hc.1, fun d h1 h2 => hc.2.2 d h2 h1⟩
  have hch : ChainAt sq s lb la τ ((chain Pa).inv.comp (chain Pb)) :=
    ⟨Pb, Pa, h2, h1, fun Q hQ => h3 Q (by simp at hQ ⊢; tauto), rfl⟩
  rw [hch.unique hw hc' hlb hla (mv := mv) (fun i hi => hok i (by simp at hi ⊢; tauto)) hB,
    Pose.comp_inv_rev (Pose.inv_r_ne nb) na, Pose.inv_inv nb]

theorem isTransformAt_back {sq : SquadFn} {s : State} (hw : WF s) {mv : Bool} (hsq : mv = true → SquadLaw sq)
    {a b : ℕ} (hp : PathAll s a b (FrameOk mv s)) {τ : ℝ} {A B : Pose}
    (hA : IsTransformAt sq s a b τ A) (hB : IsTransformAt sq s b a τ B) :
    (∀ p, B.act (A.act p) = p) ∧ (∀ v, rot B.r (rot A.r v) = v) ∧ ∀ q, B.r * (A.r * q) = q := by
  have nA := isTransformAt_ne hw hsq hp hA
  have e := isTransformAt_inv hw hsq hp hA hB
  subst e
  refine ⟨fun p => ?_, fun v => rot_inv_rot _ nA v, fun q => ?_⟩
  · rw [← Pose.comp_act (Pose.inv_r_ne nA) nA, Pose.inv_comp nA]; simp [Pose.id, Pose.act]
  · simp [Pose.inv, nA]

/-- Looked-up transformations are changes of coordinates. -/
theorem givesAt_isTransformAt {sq : SquadFn} {s : State} (hw : WF s) {mv : Bool} (hsq : mv = true → SquadLaw sq)
    {a b : ℕ} (ha : a < s.size) (hb : b < s.size) (hp : PathAll s a b (FrameOk mv s)) {τ : ℝ} {A : Pose}
    (hA : GivesAt (s.lookupTransform sq a (.byObj b)) τ A) : IsTransformAt sq s a b τ A := by
  obtain ⟨c, la, lb, hc, hla, hlb, hok⟩ := hp
  obtain ⟨Pa, Pb, h1, h2, h3, _, e⟩ := givesAt_chain sq hsq hw ha hb hc hla hlb hok hA
  exact ChainAt.isTransformAt hc hla hlb ⟨Pa, Pb, h1, h2, h3, e⟩

/-- From a frame to itself nothing changes. -/
theorem isTransformAt_self {sq : SquadFn} {s : State} (hw : WF s) {a : ℕ} {τ : ℝ} {A : Pose}
    (hA : IsTransformAt sq s a a τ A) : A = Pose.id := by
  have hc : NearestCommon s a a a := ⟨.refl, .refl, fun d h _ => h⟩
  have hch : ChainAt sq s [] [] τ Pose.id := ⟨[], [], .nil, .nil, by simp, by
    simp [chain, Pose.id, Pose.inv, Pose.comp]⟩
  exact hch.unique hw (mv := false) hc .here .here (by simp) hA

theorem pathAll_self {s : State} {a : ℕ} {g : ℕ → Prop} : PathAll s a a g :=
  ⟨a, [], [], ⟨.refl, .refl, fun d h _ => h⟩, .here, .here, by simp⟩

theorem route_self {s : State} {a : ℕ} : Route s a a [] :=
  ⟨a, [], [], ⟨.refl, .refl, fun d h _ => h⟩, .here, .here, rfl⟩

theorem route_symm {s : State} {a b : ℕ} {l : List ℕ} (h : Route s a b l) : Route s b a l.reverse := by
  obtain ⟨c, la, lb, hc, hla, hlb, rfl⟩ := h
  exact ⟨c, lb, la, ⟨hc.2.1, hc.1, fun d h1 h2 => hc.2.2 d h2 h1⟩, hlb, hla, by simp⟩

/-! ### entries from vectors -/

theorem get_eq_of_vec3 {X Y : ND ℝ} {p : ℕ} {idx : List ℕ} (hp : p < idx.length) (hk : idx.getD p 0 < 3)
    (h : vec3 X p idx = vec3 Y p idx) : X.get idx = Y.get idx := by
  have e : idx.set p (idx.getD p 0) = idx := set_getD_self
  have := congrFun h ⟨idx.getD p 0, hk⟩
  rw [vec3_eq, vec3_eq] at this
  simpa only [ND.vecAt, e] using this

theorem get_eq_of_quat4 {X Y : ND ℝ} {p : ℕ} {idx : List ℕ} (hp : p < idx.length) (hk : idx.getD p 0 < 4)
    (h : quat4 X p idx = quat4 Y p idx) : X.get idx = Y.get idx := by
  have e : idx.set p (idx.getD p 0) = idx := set_getD_self
  have h0 := congrArg QuaternionAlgebra.re h
  have h1 := congrArg QuaternionAlgebra.imI h
  have h2 := congrArg QuaternionAlgebra.imJ h
  have h3 := congrArg QuaternionAlgebra.imK h
  simp only [quat4] at h0 h1 h2 h3
  rw [← e]
  generalize idx.getD p 0 = k at *
  interval_cases k <;> assumption

end RBM
