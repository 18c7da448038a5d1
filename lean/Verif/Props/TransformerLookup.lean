import Verif.Lemmas.TfTree
import Verif.Lemmas.Example2
import Verif.Lemmas.TransformLaws

/-!
C58: lookups and transformations of a `Transformer` made from a reference frame agree with those of the library.
-/

namespace RBM.Props

open RBM RBM.Ros RBM.Spec

/-- Unit quaternions with the same rotation are equal up to sign. -/
theorem unit_eq_or_neg {p q : Quat} (hp : IsUnitQ p) (hq : IsUnitQ q) (h : ∀ v, rot p v = rot q v) : p = q ∨ p = -q := by
  have hq0 := hq.ne_zero
  obtain ⟨u, hu⟩ : ∃ u : Quat, u = q⁻¹ * p := ⟨_, rfl⟩
  have hu0 : u ≠ 0 := by rw [hu]; exact mul_ne_zero (inv_ne_zero hq0) hp.ne_zero
  have uu : IsUnitQ u := by rw [hu]; exact (IsUnitQ.inv hq).mul hp
  have fix : ∀ v, Spec.pure v * u = u * Spec.pure v := by
    intro v
    have : rot u v = v := by rw [hu, rot_mul _ _ (inv_ne_zero hq0) hp.ne_zero, h, rot_inv_rot _ hq0]
    have := (rot_eq_iff u hu0 v v).mp this
    calc Spec.pure v * u = u * Spec.pure v * u⁻¹ * u := by rw [this]
      _ = u * Spec.pure v := by rw [mul_assoc, inv_mul_cancel₀ hu0, mul_one]
  have hpu : p = q * u := by rw [hu, ← mul_assoc, mul_inv_cancel₀ hq0, one_mul]
  have f1 := fix ![1, 0, 0]
  have f2 := fix ![0, 1, 0]
  have e1 := congrArg (fun x : Quat => x.imK) f1
  have e2 := congrArg (fun x : Quat => x.imJ) f1
  have e3 := congrArg (fun x : Quat => x.imK) f2
  simp at e1 e2 e3
  have hy : u.imJ = 0 := by linarith
  have hz : u.imK = 0 := by linarith
  have hx : u.imI = 0 := by linarith
  have hw : u.re = 1 ∨ u.re = -1 := by
    have := uu
    simpa [IsUnitQ, nsq, hx, hy, hz] using this
  rcases hw with hw | hw
  · left
    have : u = 1 := by ext <;> simp [hw, hx, hy, hz]
    rw [hpu, this, mul_one]
  · right
    have : u = -1 := by ext <;> simp [hw, hx, hy, hz]
    rw [hpu, this, mul_neg, mul_one]

/-- The frames `a` and `b` belong to the tree with root `r`, which is not a single frame, and all frames on the way from `a` to `b` have a sample at `n`
nanoseconds or are static. Stamp 0 asks tf2 for the latest time and is only used if everything is static. -/
structure AskTf (s : State) (r n a b : ℕ) : Prop where
  left : InTree s r a
  right : InTree s r b
  more : ∃ i, InTree s r i ∧ i ≠ r
  time : 0 < n ∨ ∀ i d, InTree s r i → s.data i = some d → d.timestamps = none
  sampled : PathAll s a b (SampledAt s n)

theorem pathTo_mem {s : State} {r c a : ℕ} {l : List ℕ} (ht : TfTree s r) (h : PathTo s.parent c a l) (ha : InTree s r a) :
    InTree s r c ∧ ∀ i ∈ l, InTree s r i ∧ i ≠ r := by
  induction h with
  | here => exact ⟨ha, by simp⟩
  | @up a p l hne hp _ ih =>
    have har : a ≠ r := by
      rintro rfl
      rw [ht.root] at hp
      cases hp
    obtain ⟨p', hp', hpt⟩ := tree_parent ha har
    have : p' = p := by rw [hp] at hp'; exact (Option.some.inj hp').symm
    subst this
    obtain ⟨h1, h2⟩ := ih hpt
    refine ⟨h1, ?_⟩
    intro i hi
    rcases List.mem_cons.mp hi with rfl | hi
    · exact ⟨ha, har⟩
    · exact h2 i hi

/-- The message that tf2 finds for a lookup. -/
theorem tf_message {sq : SquadFn} (hsq : SquadLaw sq) {tf : Tf} (htf : TfLaw tf) {s : State} {h : List Event} (hr : Reachable s h) {r : ℕ}
    (ht : TfTree s r) {n a b : ℕ} (hq : AskTf s r n a b) {x y : String} (hx : s.name a = some x) (hy : s.name b = some y)
    {buf : TfBuffer} (hb : TreeBuffer s r buf) :
    ∃ m, tf.lookup buf y x n = .ok m ∧ IsUnitQ (msgPose m).r ∧
      ∀ c, NearestCommon s a b c → ∀ p, ∃ P, InAncestor s.parent (PoseOf sq s n) c a p P ∧
        InAncestor s.parent (PoseOf sq s n) c b ((msgPose m).act p) P := by
  have hok := hb.ok ht hr.wf
  obtain ⟨c, la, lb, hc, hla, hlb, hsam⟩ := hq.sampled
  obtain ⟨hct, -⟩ := pathTo_mem ht hla hq.left
  obtain ⟨z, hz, -⟩ := ht.names c hct
  have ca := fun p => hb.coords ht hsq hla hct hq.left (fun i hi => hsam i (by simp [hi])) hx hz p
  have cb := fun p => hb.coords ht hsq hlb hct hq.right (fun i hi => hsam i (by simp [hi])) hy hz p
  obtain ⟨_, _, ta⟩ := ca 0
  obtain ⟨_, _, tb⟩ := cb 0
  have hstat : 0 < n ∨ ∀ e ∈ buf.msgs, e.1 = true := by
    rcases hq.time with h0 | h0
    · exact Or.inl h0
    · right
      intro e he
      obtain ⟨i, p, d, h1, -, -, h2⟩ := hb.from_frame e he
      rcases h2.sample with ⟨h3, -⟩ | ⟨-, tl, rl, ns, disc, k, t, r, rfl, -⟩
      · exact h3
      · have := h0 i _ h1 h2.data
        simp at this
  obtain ⟨m, h1, h2, h3⟩ := htf.lookup buf n x y z hok hstat (hb.known ht hq.more hq.left hx) (hb.known ht hq.more hq.right hy)
    (tfCoords_above ta) (tfCoords_above tb)
  refine ⟨m, h1, h2, fun c' hc' p => ?_⟩
  have := hc.unique hr.wf hc'
  subst this
  obtain ⟨P, g1, g2⟩ := ca p
  obtain ⟨P', g1', g2'⟩ := cb ((msgPose m).act p)
  have := tfCoords_unique hok (h3 z p P (tfCoords_above tb) g2) g2'
  subst this
  exact ⟨P, g1, g1'⟩

theorem poses_agree {A X : Pose} (hA : IsUnitQ A.r) (hX : IsUnitQ X.r) (h : ∀ p, A.act p = X.act p) :
    A.t = X.t ∧ (∀ v, rot A.r v = rot X.r v) ∧ (X.r = A.r ∨ X.r = -A.r) := by
  have ht : A.t = X.t := by
    have := h 0
    simpa [Pose.act] using this
  have hv : ∀ v, rot A.r v = rot X.r v := by
    intro v
    have := h v
    simp only [Pose.act, ht] at this
    exact add_right_cancel this
  exact ⟨ht, hv, unit_eq_or_neg hX hA fun v => (hv v).symm⟩

theorem tree_frameOk {s : State} {r : ℕ} (ht : TfTree s r) {n a b : ℕ} (hq : AskTf s r n a b) : PathAll s a b (FrameOk true s) := by
  obtain ⟨c, la, lb, hc, hla, hlb, -⟩ := hq.sampled
  refine ⟨c, la, lb, hc, hla, hlb, fun i hi => ?_⟩
  obtain ⟨h1, h2⟩ : InTree s r i ∧ i ≠ r := by
    rcases List.mem_append.mp hi with hi | hi
    · exact (pathTo_mem ht hla hq.left).2 i hi
    · exact (pathTo_mem ht hlb hq.right).2 i hi
  simpa [FrameOk] using ht.good i h1 h2

/-- The message is the change of coordinates. -/
theorem tf_message_agrees {sq : SquadFn} (hsq : SquadLaw sq) {tf : Tf} (htf : TfLaw tf) {s : State} {h : List Event} (hr : Reachable s h) {r : ℕ}
    (ht : TfTree s r) {n a b : ℕ} (hq : AskTf s r n a b) {x y : String} (hx : s.name a = some x) (hy : s.name b = some y)
    {buf : TfBuffer} (hb : TreeBuffer s r buf) :
    ∃ m A, tf.lookup buf y x n = .ok m ∧ IsUnitQ (msgPose m).r ∧ IsTransformAt sq s a b n A ∧ IsUnitQ A.r ∧
      A.t = (msgPose m).t ∧ (∀ v, rot A.r v = rot (msgPose m).r v) ∧ ((msgPose m).r = A.r ∨ (msgPose m).r = -A.r) := by
  obtain ⟨m, h1, h2, h3⟩ := tf_message hsq htf hr ht hq hx hy hb
  have hok := tree_frameOk ht hq
  obtain ⟨c, la, lb, hc, hla, hlb, hfr⟩ := hok
  obtain ⟨P, q1, q2⟩ := h3 c hc 0
  obtain ⟨Pa, ha⟩ := inAncestor_poses hla q1
  obtain ⟨Pb, hb'⟩ := inAncestor_poses hlb q2
  have key : ∀ {l Ps}, List.Forall₂ (PoseOf sq s n) l Ps → (∀ i ∈ l, FrameOk true s i) → ∀ Q ∈ Ps, IsUnitQ Q.r := by
    intro l Ps hl
    induction hl with
    | nil => simp
    | cons hx _ ih =>
      intro hi Q hQ
      rcases List.mem_cons.mp hQ with rfl | hQ
      · exact (poseOf_good (fun _ => hsq) (hi _ (List.mem_cons_self ..)) hx).2 rfl
      · exact ih (fun i h => hi i (List.mem_cons_of_mem _ h)) Q hQ
  have ua := key ha fun i hi => hfr i (by simp [hi])
  have ub := key hb' fun i hi => hfr i (by simp [hi])
  have hA : IsTransformAt sq s a b n ((chain Pb).inv.comp (chain Pa)) := ChainAt.isTransformAt hc hla hlb
    ⟨Pa, Pb, ha, hb', fun Q hQ => (List.mem_append.mp hQ).elim (fun h => (ua Q h).ne_zero) (fun h => (ub Q h).ne_zero), rfl⟩
  have hu := isTransformAt_unit hr.wf hsq (tree_frameOk ht hq) hA
  have hact : ∀ p, ((chain Pb).inv.comp (chain Pa)).act p = (msgPose m).act p := by
    intro p
    obtain ⟨P, g1, g2⟩ := h3 c hc p
    have na : ∀ Q ∈ Pa, Q.r ≠ 0 := fun Q hQ => (ua Q hQ).ne_zero
    have nb : ∀ Q ∈ Pb, Q.r ≠ 0 := fun Q hQ => (ub Q hQ).ne_zero
    have e1 := inAncestor_unique hla ha na (fun i hi P Q => poseOf_unique (hfr i (by simp [hi]))) g1
    have e2 := inAncestor_unique hlb hb' nb (fun i hi P Q => poseOf_unique (hfr i (by simp [hi]))) g2
    have cb := chain_r_ne nb
    rw [Pose.comp_act (Pose.inv_r_ne cb) (chain_r_ne na), ← e1, e2, ← Pose.comp_act (Pose.inv_r_ne cb) cb, Pose.inv_comp cb]
    simp [Pose.id, Pose.act]
  obtain ⟨f1, f2, f3⟩ := poses_agree hu h2 hact
  exact ⟨m, _, h1, h2, hA, hu, f1, f2, f3⟩

/-- `lookup_transform` of a `Transformer` made from any frame of a tree gives the transformation of the library from the source to the target frame, at
every time at which all frames on the way have a sample (rotations up to the sign of the quaternion), and `can_transform` says so. The transformation is
the one of `rbm.lookup_transform` by C15_lookup_agrees. -/
theorem C58_lookup {sq : SquadFn} (hsq : SquadLaw sq) {tf : Tf} (htf : TfLaw tf) {s : State} {h : List Event} (hr : Reachable s h) {r : ℕ}
    (ht : TfTree s r) {rf : ℕ} (hrf : InTree s r rf) (hsz : rf < s.size) {n a b : ℕ} (hq : AskTf s r n a b) {x y : String} (hx : s.name a = some x)
    (hy : s.name b = some y) :
    ∃ buf A r', fromReferenceFrame s rf = .ok buf ∧ IsTransformAt sq s a b n A ∧ IsUnitQ A.r ∧ (r' = A.r ∨ r' = -A.r) ∧
      canTransform tf buf y x ((n : ℝ) / 1000000000) = .ok true ∧
      tfLookupTransform tf buf y x ((n : ℝ) / 1000000000) = .ok (vecList A.t, quatList r') := by
  obtain ⟨buf, hbuf, hb⟩ := treeBuffer ht hr hrf hsz
  obtain ⟨m, A, h1, h2, h3, h4, h5, h6, h7⟩ := tf_message_agrees hsq htf hr ht hq hx hy hb
  refine ⟨buf, A, (msgPose m).r, hbuf, h3, h4, h7, ?_, ?_⟩
  · simp only [canTransform, fromSec_ns, bind, Except.bind, Pure.pure, Except.pure]
    rw [(htf.can buf n x y).mpr ⟨m, h1⟩]
  · simp only [tfLookupTransform, fromSec_ns, h1, bind, Except.bind, Pure.pure, Except.pure, h5]
    rfl

/-- `transform_vector` and `transform_point` apply the transformation of the library. -/
theorem C58_vectors_points {sq : SquadFn} (hsq : SquadLaw sq) {tf : Tf} (htf : TfLaw tf) {s : State} {h : List Event} (hr : Reachable s h) {r : ℕ}
    (ht : TfTree s r) {rf : ℕ} (hrf : InTree s r rf) (hsz : rf < s.size) {n a b : ℕ} (hq : AskTf s r n a b) {x y : String} (hx : s.name a = some x)
    (hy : s.name b = some y) {buf : TfBuffer} (hbuf : fromReferenceFrame s rf = .ok buf) {A : Pose} (hA : IsTransformAt sq s a b n A) (v : Vec) :
    tfTransformVector tf buf (vecList v) y x ((n : ℝ) / 1000000000) = .ok (vecList (rot A.r v)) ∧
    tfTransformPoint tf buf (vecList v) y x ((n : ℝ) / 1000000000) = .ok (vecList (rot A.r v + A.t)) := by
  obtain ⟨buf', hbuf', hb⟩ := treeBuffer ht hr hrf hsz
  rw [hbuf] at hbuf'
  cases hbuf'
  obtain ⟨m, A', h1, h2, h3, h4, h5, h6, h7⟩ := tf_message_agrees hsq htf hr ht hq hx hy hb
  have := isTransformAt_unique hr.wf (fun _ => hsq) (tree_frameOk ht hq) h3 hA
  subst this
  have hv := htf.vector ⟨⟨n, some x⟩, xyz v⟩ m h2
  have hp := htf.point ⟨⟨n, some x⟩, xyz v⟩ m h2
  simp only [vecOf_xyz] at hv hp
  have e : mkXYZ (vecList v) = .ok (xyz v) := by simp [mkXYZ, vecList, at', bind, Except.bind, Pure.pure, Except.pure, xyz]
  constructor
  · simp only [tfTransformVector, fromSec_ns, h1, makeVectorMsg, mkHeader, e, bind, Except.bind, Pure.pure, Except.pure, unpackVectorStamped, hv, ← h6]
    rfl
  · simp only [tfTransformPoint, fromSec_ns, h1, makePointMsg, mkHeader, e, bind, Except.bind, Pure.pure, Except.pure, unpackPointStamped, hp, Pose.act,
      ← h6, ← h5]
    rfl

/-- `transform_quaternion` and `transform_pose` apply the transformation of the library to unit quaternions, up to sign. -/
theorem C58_poses {sq : SquadFn} (hsq : SquadLaw sq) {tf : Tf} (htf : TfLaw tf) {s : State} {h : List Event} (hr : Reachable s h) {r : ℕ}
    (ht : TfTree s r) {rf : ℕ} (hrf : InTree s r rf) (hsz : rf < s.size) {n a b : ℕ} (hq : AskTf s r n a b) {x y : String} (hx : s.name a = some x)
    (hy : s.name b = some y) {buf : TfBuffer} (hbuf : fromReferenceFrame s rf = .ok buf) {A : Pose} (hA : IsTransformAt sq s a b n A) (v : Vec)
    {q : Quat} (hu : IsUnitQ q) :
    (∃ q', (q' = A.r * q ∨ q' = -(A.r * q)) ∧
      tfTransformQuaternion tf buf (quatList q) y x ((n : ℝ) / 1000000000) = .ok (quatList q')) ∧
    (∃ q', (q' = A.r * q ∨ q' = -(A.r * q)) ∧
      tfTransformPose tf buf (vecList v) (quatList q) y x ((n : ℝ) / 1000000000) = .ok (vecList (rot A.r v + A.t), quatList q')) := by
  obtain ⟨buf', hbuf', hb⟩ := treeBuffer ht hr hrf hsz
  rw [hbuf] at hbuf'
  cases hbuf'
  obtain ⟨m, A', h1, h2, h3, h4, h5, h6, h7⟩ := tf_message_agrees hsq htf hr ht hq hx hy hb
  have := isTransformAt_unique hr.wf (fun _ => hsq) (tree_frameOk ht hq) h3 hA
  subst this
  have key : ∀ w : Vec, ∃ q', (q' = A'.r * q ∨ q' = -(A'.r * q)) ∧
      tfTransformPose tf buf (vecList w) (quatList q) y x ((n : ℝ) / 1000000000) = .ok (vecList (rot A'.r w + A'.t), quatList q') := by
    intro w
    obtain ⟨p1, p2⟩ := htf.pose ⟨⟨n, some x⟩, ⟨xyz w, xyzw q⟩⟩ m h2 (by simpa [quatOf_xyzw] using hu)
    simp only [vecOf_xyz, quatOf_xyzw] at p1 p2
    have e : mkXYZ (vecList w) = .ok (xyz w) := by simp [mkXYZ, vecList, at', bind, Except.bind, Pure.pure, Except.pure, xyz]
    have e' : mkXYZW (quatList q) = .ok (xyzw q) := by simp [mkXYZW, quatList, at', bind, Except.bind, Pure.pure, Except.pure, xyzw]
    have p1' : (tf.doPose ⟨⟨n, some x⟩, ⟨xyz w, xyzw q⟩⟩ m).pose.position = xyz (rot A'.r w + A'.t) := by
      rw [p1, Pose.act, h6, h5]
    have cast : ∀ q', (tf.doPose ⟨⟨n, some x⟩, ⟨xyz w, xyzw q⟩⟩ m).pose.orientation = xyzw q' →
        tfTransformPose tf buf (vecList w) (quatList q) y x ((n : ℝ) / 1000000000) = .ok (vecList (rot A'.r w + A'.t), quatList q') := by
      intro q' hq'
      simp only [tfTransformPose, fromSec_ns, h1, makePoseMsg, mkHeader, e, e', bind, Except.bind, Pure.pure, Except.pure, unpackPoseStamped, p1', hq']
      rfl
    rcases h7 with e7 | e7 <;> rw [e7] at p2 <;> rcases p2 with p2 | p2
    · exact ⟨_, Or.inl rfl, cast _ p2⟩
    · exact ⟨_, Or.inr rfl, cast _ p2⟩
    · exact ⟨_, Or.inr rfl, cast _ (by rw [p2, neg_mul])⟩
    · exact ⟨_, Or.inl rfl, cast _ (by rw [p2, neg_mul, neg_neg])⟩
  refine ⟨?_, key v⟩
  obtain ⟨q', hq', hk⟩ := key 0
  refine ⟨q', hq', ?_⟩
  have : vecList 0 = [0, 0, 0] := by simp [vecList]
  rw [this] at hk
  unfold tfTransformPose at hk
  unfold tfTransformQuaternion
  simp only [fromSec_ns, h1, bind, Except.bind, Pure.pure, Except.pure] at hk ⊢
  cases hm : makePoseMsg [0, 0, 0] (quatList q) (some x) ((n : ℝ) / 1000000000) with
  | error e => rw [hm] at hk; simp at hk
  | ok p =>
    rw [hm] at hk
    simp only [Except.ok.injEq] at hk ⊢
    rw [hk]

/-- The hypotheses are met by a moving system: from frame `m` to frame `d` of the example at one nanosecond. -/
theorem exM_tf : TfTree Ex.m3 0 ∧ AskTf Ex.m3 0 1 1 2 := by
  have hpar : ∀ i p, Ex.m3.parent i = some p → p = 0 ∧ (i = 1 ∨ i = 2) := by
    intro i p h
    rw [Ex.m3_eq] at h
    simp only at h
    split_ifs at h with h1 h2
    · exact ⟨by simpa using h.symm, Or.inr h1⟩
    · exact ⟨by simpa using h.symm, Or.inl h2⟩
  have hin : ∀ i, InTree Ex.m3 0 i ↔ i = 0 ∨ i = 1 ∨ i = 2 := by
    intro i
    constructor
    · intro h
      rcases Relation.ReflTransGen.cases_head h with rfl | ⟨p, hp, -⟩
      · exact Or.inl rfl
      · exact Or.inr (hpar i p hp).2
    · rintro (rfl | rfl | rfl)
      · exact .refl
      · exact .single (by unfold ParentOf; rw [Ex.m3_eq]; simp)
      · exact .single (by unfold ParentOf; rw [Ex.m3_eq]; simp)
  have hdat : Ex.m3.data 1 = some Ex.dataM ∧ Ex.m3.data 2 = some Ex.dataD ∧ Ex.m3.data 0 = some ⟨none, none, false⟩ := by
    rw [Ex.m3_eq]; simp
  have hp1 : Ex.m3.parent 1 = some 0 := by rw [Ex.m3_eq]; simp
  have hp2 : Ex.m3.parent 2 = some 0 := by rw [Ex.m3_eq]; simp
  have hp0 : Ex.m3.parent 0 = none := by rw [Ex.m3_eq]; simp
  have hn0 : Ex.m3.name 0 = some "world" := by rw [Ex.m3_eq]; simp
  have hn1 : Ex.m3.name 1 = some "m" := by rw [Ex.m3_eq]; simp
  have hn2 : Ex.m3.name 2 = some "d" := by rw [Ex.m3_eq]; simp
  constructor
  · refine ⟨hp0, ⟨_, hdat.2.2, rfl⟩, ?_, ?_, ?_, ?_⟩
    · intro i hi
      rcases (hin i).mp hi with rfl | rfl | rfl
      · exact ⟨_, hn0, by decide, by decide⟩
      · exact ⟨_, hn1, by decide, by decide⟩
      · exact ⟨_, hn2, by decide, by decide⟩
    · intro i j hi hj hij
      rcases (hin i).mp hi with rfl | rfl | rfl <;> rcases (hin j).mp hj with rfl | rfl | rfl <;> simp [hn0, hn1, hn2] at hij ⊢
    · intro i hi hne
      rcases (hin i).mp hi with rfl | rfl | rfl
      · exact absurd rfl hne
      · exact ⟨_, hdat.1, Ex.goodM⟩
      · exact ⟨_, hdat.2.1, Ex.goodD⟩
    · intro i d ts hi hd hts
      rcases (hin i).mp hi with rfl | rfl | rfl
      · rw [hdat.2.2] at hd; cases hd; cases hts
      · rw [hdat.1] at hd; cases hd; cases hts
        exact ⟨[0, 1, 2], by simp, by simp⟩
      · rw [hdat.2.1] at hd; cases hd; cases hts
        exact ⟨[1, 2], by simp, by simp⟩
  · refine ⟨(hin 1).mpr (by simp), (hin 2).mpr (by simp), ⟨1, (hin 1).mpr (by simp), by simp⟩, Or.inl (by simp), 0, [1], [2], ?_, .up (by simp) hp1 .here,
      .up (by simp) hp2 .here, ?_⟩
    · refine ⟨(hin 1).mpr (by simp), (hin 2).mpr (by simp), ?_⟩
      intro d h1 h2
      rcases Relation.ReflTransGen.cases_head h1 with rfl | ⟨p, hp, h⟩
      · rcases Relation.ReflTransGen.cases_head h2 with h | ⟨p, hp, h⟩
        · simp at h
        · unfold ParentOf at hp
          rw [hp2] at hp
          cases hp
          rcases Relation.ReflTransGen.cases_head h with h | ⟨p, hp, -⟩
          · simp at h
          · unfold ParentOf at hp; rw [hp0] at hp; cases hp
      · unfold ParentOf at hp
        rw [hp1] at hp
        cases hp
        exact h
    · intro i hi
      simp only [List.cons_append, List.nil_append, List.mem_cons, List.not_mem_nil, or_false] at hi
      rcases hi with rfl | rfl
      · refine ⟨_, hdat.1, ?_⟩
        intro ts hts
        cases hts
        simp
      · refine ⟨_, hdat.2.1, ?_⟩
        intro ts hts
        cases hts
        simp

end RBM.Props
