import Verif.Spec.Tf
import Verif.Lemmas.Pose
import Verif.Lemmas.GivesAt

/-!
Facts about tf2 buffers, and an implementation of their contract.
-/

namespace RBM

open RBM.Spec RBM.Ros

theorem pairwise_cases {α : Type} {R : α → α → Prop} {l : List α} (h : l.Pairwise R) {x y : α} (hx : x ∈ l) (hy : y ∈ l) :
    x = y ∨ R x y ∨ R y x := by
  induction h with
  | nil => simp at hx
  | @cons a l ha _ ih =>
    rcases List.mem_cons.mp hx with rfl | hx' <;> rcases List.mem_cons.mp hy with rfl | hy'
    · exact Or.inl rfl
    · exact Or.inr (Or.inl (ha _ hy'))
    · exact Or.inr (Or.inr (ha _ hx'))
    · exact ih hx' hy'

theorem tfEdge_unique {b : TfBuffer} (hb : TfOk b) {n : ℕ} {a k k' : String} {P P' : Pose} (h : TfEdge b n a k P) (h' : TfEdge b n a k' P') :
    k = k' ∧ P = P' := by
  obtain ⟨e, he, hn, hc, hp, rfl⟩ := h
  obtain ⟨e', he', hn', hc', hp', rfl⟩ := h'
  have hpar := hb.parent e he e' he' (hc.trans hc'.symm)
  rw [hp, hp'] at hpar
  refine ⟨Option.some.inj hpar, ?_⟩
  have hee : e = e' := by
    rcases pairwise_cases hb.order he he' with h | h | h
    · exact h
    · obtain ⟨h1, h2, h3⟩ := h (hc.trans hc'.symm)
      simp only [h1, h2, Bool.false_eq_true, false_or] at hn hn'
      rw [hn, hn'] at h3
      exact absurd h3 (lt_irrefl _)
    · obtain ⟨h1, h2, h3⟩ := h (hc'.trans hc.symm)
      simp only [h1, h2, Bool.false_eq_true, false_or] at hn hn'
      rw [hn, hn'] at h3
      exact absurd h3 (lt_irrefl _)
  rw [hee]

theorem tfEdge_depth {b : TfBuffer} {depth : String → ℕ}
    (hd : ∀ e ∈ b.msgs, ∀ c p, e.2.childFrameId = some c → e.2.header.frameId = some p → depth p < depth c)
    {n : ℕ} {a k : String} {P : Pose} (h : TfEdge b n a k P) : depth k < depth a := by
  obtain ⟨e, he, -, hc, hp, -⟩ := h
  exact hd e he a k hc hp

theorem tfAbove_depth {b : TfBuffer} {depth : String → ℕ}
    (hd : ∀ e ∈ b.msgs, ∀ c p, e.2.childFrameId = some c → e.2.header.frameId = some p → depth p < depth c)
    {n : ℕ} {a c : String} (h : TfAbove b n a c) : depth c ≤ depth a := by
  induction h using Relation.ReflTransGen.head_induction_on with
  | refl => exact le_rfl
  | head h1 _ ih =>
    obtain ⟨P, h1⟩ := h1
    exact ih.trans (tfEdge_depth hd h1).le

theorem tfCoords_above {b : TfBuffer} {n : ℕ} {a c : String} {p P : Vec} (h : TfCoords (TfEdge b n) c a p P) : TfAbove b n a c := by
  induction h with
  | here => exact .refl
  | up he _ ih => exact .head ⟨_, he⟩ ih

theorem tfCoords_unique {b : TfBuffer} (hb : TfOk b) {n : ℕ} {a c : String} {p P P' : Vec} (h : TfCoords (TfEdge b n) c a p P)
    (h' : TfCoords (TfEdge b n) c a p P') : P = P' := by
  obtain ⟨depth, hd⟩ := hb.tree
  induction h with
  | here =>
    cases h' with
    | here => rfl
    | up he h2 =>
      have := tfEdge_depth hd he
      have := tfAbove_depth hd (tfCoords_above h2)
      omega
  | up he h2 ih =>
    cases h' with
    | here =>
      have := tfEdge_depth hd he
      have := tfAbove_depth hd (tfCoords_above h2)
      omega
    | up he' h2' =>
      obtain ⟨rfl, rfl⟩ := tfEdge_unique hb he he'
      exact ih h2'

theorem tfCoords_trans {edge : String → String → Pose → Prop} {a c c' : String} {p P P' : Vec} (h : TfCoords edge c a p P)
    (h' : TfCoords edge c' c P P') : TfCoords edge c' a p P' := by
  induction h with
  | here => exact h'
  | up he _ ih => exact .up he (ih h')

theorem tfCoords_pose {b : TfBuffer} (hb : TfOk b) {n : ℕ} {a c : String} (h : TfAbove b n a c) :
    ∃ R : Pose, IsUnitQ R.r ∧ ∀ p, TfCoords (TfEdge b n) c a p (R.act p) := by
  induction h using Relation.ReflTransGen.head_induction_on with
  | refl =>
    refine ⟨Pose.id, isUnitQ_one, fun p => ?_⟩
    have : Pose.id.act p = p := by simp [Pose.id, Pose.act]
    rw [this]
    exact .here
  | head h1 _ ih =>
    obtain ⟨Q, hQ⟩ := h1
    obtain ⟨R, hR, h2⟩ := ih
    have uQ : IsUnitQ Q.r := by
      obtain ⟨e, he, -, -, -, rfl⟩ := hQ
      exact hb.unit e he
    refine ⟨R.comp Q, hR.mul uQ, fun p => ?_⟩
    rw [Pose.comp_act hR.ne_zero uQ.ne_zero]
    exact .up hQ (h2 _)

theorem tfAbove_comparable {b : TfBuffer} (hb : TfOk b) {n : ℕ} {a c c' : String} (h : TfAbove b n a c) (h' : TfAbove b n a c') :
    TfAbove b n c c' ∨ TfAbove b n c' c := by
  induction h using Relation.ReflTransGen.head_induction_on with
  | refl => exact Or.inl h'
  | @head x y hxy hy ih =>
    rcases Relation.ReflTransGen.cases_head h' with rfl | ⟨z, hz, hzb⟩
    · exact Or.inr (.head hxy hy)
    · obtain ⟨P, hP⟩ := hxy
      obtain ⟨P', hP'⟩ := hz
      obtain ⟨rfl, -⟩ := tfEdge_unique hb hP hP'
      exact ih hzb

theorem act_injective {R : Pose} (h : R.r ≠ 0) {p q : Vec} (e : R.act p = R.act q) : p = q := by
  have : ∀ p, R.inv.act (R.act p) = p := fun p => by
    rw [← Pose.comp_act (Pose.inv_r_ne h) h, Pose.inv_comp h]
    simp [Pose.id, Pose.act]
  rw [← this p, e, this q]

theorem act_inv_act {R : Pose} (h : R.r ≠ 0) (p : Vec) : R.act (R.inv.act p) = p := by
  rw [← Pose.comp_act h (Pose.inv_r_ne h), Pose.comp_inv h]
  simp [Pose.id, Pose.act]

theorem vecOf_xyz (v : Vec) : vecOf (xyz v) = v := by
  funext i
  fin_cases i <;> rfl

theorem quatOf_xyzw (q : Quat) : quatOf (xyzw q) = q := rfl

theorem xyz_vecOf (v : XYZ) : xyz (vecOf v) = v := rfl

theorem xyzw_quatOf (q : XYZW) : xyzw (quatOf q) = q := rfl

theorem msgPose_poseMsg (f c : Option String) (n : ℕ) (t : Vec) (r : Quat) : msgPose (poseMsg f c n t r) = ⟨t, r⟩ := by
  simp only [msgPose, poseMsg, vecOf_xyz, quatOf_xyzw]

open Classical in
/-- An implementation of tf2 for the lookups that the contract covers. -/
noncomputable def exTf : Tf where
  lookup b target source n :=
    if h : ∃ X : Pose, IsUnitQ X.r ∧ (∃ c, TfAbove b n source c ∧ TfAbove b n target c) ∧
        ∀ c p P, TfAbove b n target c → TfCoords (TfEdge b n) c source p P → TfCoords (TfEdge b n) c target (X.act p) P
    then .ok (poseMsg (some target) (some source) n h.choose.t h.choose.r) else .error .lookupException
  can b target source n :=
    decide (∃ X : Pose, IsUnitQ X.r ∧ (∃ c, TfAbove b n source c ∧ TfAbove b n target c) ∧
        ∀ c p P, TfAbove b n target c → TfCoords (TfEdge b n) c source p P → TfCoords (TfEdge b n) c target (X.act p) P)
  doVector v m := ⟨m.header, xyz (rot (msgPose m).r (vecOf v.data))⟩
  doPoint p m := ⟨m.header, xyz ((msgPose m).act (vecOf p.data))⟩
  doPose p m := ⟨m.header, ⟨xyz ((msgPose m).act (vecOf p.pose.position)), xyzw ((msgPose m).r * quatOf p.pose.orientation)⟩⟩

theorem exTf_law : TfLaw exTf where
  lookup b n source target c hb _ _ _ hs ht := by
    obtain ⟨Rs, us, hRs⟩ := tfCoords_pose hb hs
    obtain ⟨Rt, ut, hRt⟩ := tfCoords_pose hb ht
    have hex : ∃ X : Pose, IsUnitQ X.r ∧ (∃ c, TfAbove b n source c ∧ TfAbove b n target c) ∧
        ∀ c p P, TfAbove b n target c → TfCoords (TfEdge b n) c source p P → TfCoords (TfEdge b n) c target (X.act p) P := by
      refine ⟨Rt.inv.comp Rs, (IsUnitQ.inv ut).mul us, ⟨c, hs, ht⟩, ?_⟩
      intro c' p P hc' hP
      have hX : Rt.act ((Rt.inv.comp Rs).act p) = Rs.act p := by
        rw [Pose.comp_act (Pose.inv_r_ne ut.ne_zero) us.ne_zero, act_inv_act ut.ne_zero]
      rcases tfAbove_comparable hb ht hc' with hcc | hcc
      · obtain ⟨R, uR, hR⟩ := tfCoords_pose hb hcc
        have e := tfCoords_unique hb hP (tfCoords_trans (hRs p) (hR _))
        rw [e, ← hX]
        exact tfCoords_trans (hRt _) (hR _)
      · obtain ⟨R, uR, hR⟩ := tfCoords_pose hb hcc
        have e := tfCoords_unique hb (hRs p) (tfCoords_trans hP (hR _))
        obtain ⟨R', uR', hR'⟩ := tfCoords_pose hb hc'
        have e' := tfCoords_unique hb (hRt ((Rt.inv.comp Rs).act p)) (tfCoords_trans (hR' _) (hR _))
        rw [hX, e] at e'
        rw [act_injective uR.ne_zero e']
        exact hR' _
    refine ⟨poseMsg (some target) (some source) n hex.choose.t hex.choose.r, ?_, ?_, ?_⟩
    · simp only [exTf]
      rw [dif_pos hex]
    · rw [msgPose_poseMsg]
      exact hex.choose_spec.1
    · rw [msgPose_poseMsg]
      exact hex.choose_spec.2.2
  can b n source target := by
    simp only [exTf, decide_eq_true_eq]
    constructor
    · intro h
      exact ⟨_, dif_pos h⟩
    · rintro ⟨m, hm⟩
      by_contra h
      rw [dif_neg h] at hm
      exact absurd hm (by simp)
  vector v m _ := rfl
  point p m _ := rfl
  pose p m _ _ := ⟨rfl, Or.inl rfl⟩

end RBM
