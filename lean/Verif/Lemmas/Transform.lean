import Verif.Lemmas.GivesAt
import Verif.Lemmas.RotateND
import Verif.Spec.Transform

namespace RBM

open Spec

/-- `A` is composed of the poses along the two paths. -/
def ChainAt (sq : SquadFn) (s : State) (la lb : List ℕ) (τ : ℝ) (A : Pose) : Prop :=
  ∃ Pa Pb : List Pose, List.Forall₂ (PoseOf sq s τ) la Pa ∧ List.Forall₂ (PoseOf sq s τ) lb Pb ∧
    (∀ Q ∈ Pa ++ Pb, Q.r ≠ 0) ∧ A = (chain Pb).inv.comp (chain Pa)

theorem ChainAt.isTransformAt {sq : SquadFn} {s : State} {a b c : ℕ} {la lb : List ℕ} {τ : ℝ} {A : Pose}
    (hc : NearestCommon s a b c) (hla : PathTo s.parent c a la) (hlb : PathTo s.parent c b lb)
    (h : ChainAt sq s la lb τ A) : IsTransformAt sq s a b τ A := by
  obtain ⟨Pa, Pb, h1, h2, h3, rfl⟩ := h
  have na : ∀ Q ∈ Pa, Q.r ≠ 0 := fun Q hQ => h3 Q (by simp [hQ])
  have nb : ∀ Q ∈ Pb, Q.r ≠ 0 := fun Q hQ => h3 Q (by simp [hQ])
  have ca := chain_r_ne na
  have cb := chain_r_ne nb
  refine ⟨c, hc, ?_, ?_⟩
  · intro p
    refine ⟨_, inAncestor_chain hla h1 na p, ?_⟩
    have := inAncestor_chain hlb h2 nb (((chain Pb).inv.comp (chain Pa)).act p)
    rw [← Pose.comp_act cb (Pose.comp_r_ne (Pose.inv_r_ne cb) ca), ← Pose.comp_assoc cb (Pose.inv_r_ne cb),
      Pose.comp_inv cb, Pose.id_comp] at this
    exact this
  · intro q
    refine ⟨_, orientInAncestor_chain hla h1 q, ?_⟩
    have := orientInAncestor_chain hlb h2 (((chain Pb).inv.comp (chain Pa)).r * q)
    simp only [Pose.comp, Pose.inv, ← mul_assoc, mul_inv_cancel₀ cb, one_mul] at this
    exact this

theorem ChainAt.r_ne {sq : SquadFn} {s : State} {la lb : List ℕ} {τ : ℝ} {A : Pose}
    (h : ChainAt sq s la lb τ A) : A.r ≠ 0 := by
  obtain ⟨Pa, Pb, h1, h2, h3, rfl⟩ := h
  exact Pose.comp_r_ne (Pose.inv_r_ne (chain_r_ne fun Q hQ => h3 Q (by simp [hQ])))
    (chain_r_ne fun Q hQ => h3 Q (by simp [hQ]))

theorem orientInAncestor_unique {parent : ℕ → Option ℕ} {pose : ℕ → Pose → Prop} {c a : ℕ} {l : List ℕ}
    (h : PathTo parent c a l) {Ps : List Pose} (hP : List.Forall₂ pose l Ps)
    (hu : ∀ i ∈ l, ∀ P Q, pose i P → pose i Q → P = Q)
    {q O : Quat} (hp : OrientInAncestor parent pose c a q O) : O = (chain Ps).r * q := by
  induction h generalizing Ps q with
  | here =>
    cases hP
    have : (chain []).r * q = q := by simp [chain, Pose.id]
    rw [this]
    cases hp with
    | here => rfl
    | up hn => exact absurd rfl hn
  | up h1 h2 _ ih =>
    cases hP with
    | @cons _ Q _ Ps hQ hP =>
      cases hp with
      | here => exact absurd rfl h1
      | @up _ k _ _ Q' _ h2' hQ' hp =>
        rw [h2] at h2'; cases h2'
        have := hu _ (List.mem_cons_self ..) _ _ hQ hQ'
        subst this
        have := ih hP (fun i hi => hu i (List.mem_cons_of_mem _ hi)) hp
        rw [this, ← mul_assoc]
        rfl

/-- On good paths the change of coordinates is determined by its specification. -/
theorem ChainAt.unique {sq : SquadFn} {s : State} (hw : WF s) {mv : Bool} {a b c : ℕ} {la lb : List ℕ} {τ : ℝ} {A B : Pose}
    (hc : NearestCommon s a b c) (hla : PathTo s.parent c a la) (hlb : PathTo s.parent c b lb)
    (hok : ∀ i ∈ la ++ lb, FrameOk mv s i)
    (h : ChainAt sq s la lb τ A) (hB : IsTransformAt sq s a b τ B) : B = A := by
  obtain ⟨Pa, Pb, h1, h2, h3, rfl⟩ := h
  obtain ⟨c', hc', g1, g2⟩ := hB
  have := hc.unique hw hc'
  subst this
  have na : ∀ Q ∈ Pa, Q.r ≠ 0 := fun Q hQ => h3 Q (by simp [hQ])
  have nb : ∀ Q ∈ Pb, Q.r ≠ 0 := fun Q hQ => h3 Q (by simp [hQ])
  have ca := chain_r_ne na
  have cb := chain_r_ne nb
  have ua : ∀ i ∈ la, ∀ P Q, PoseOf sq s τ i P → PoseOf sq s τ i Q → P = Q :=
    fun i hi P Q => poseOf_unique (hok i (by simp [hi]))
  have ub : ∀ i ∈ lb, ∀ P Q, PoseOf sq s τ i P → PoseOf sq s τ i Q → P = Q :=
    fun i hi P Q => poseOf_unique (hok i (by simp [hi]))
  have er : B.r = ((chain Pb).inv.comp (chain Pa)).r := by
    obtain ⟨Q, q1, q2⟩ := g2 1
    have e1 := orientInAncestor_unique hla h1 ua q1
    have e2 := orientInAncestor_unique hlb h2 ub q2
    rw [e1, mul_one, mul_one] at e2
    simp only [Pose.comp, Pose.inv, e2, ← mul_assoc, inv_mul_cancel₀ cb, one_mul]
  have et : B.act 0 = ((chain Pb).inv.comp (chain Pa)).act 0 := by
    obtain ⟨P, q1, q2⟩ := g1 0
    have e1 := inAncestor_unique hla h1 na ua q1
    have e2 := inAncestor_unique hlb h2 nb ub q2
    rw [Pose.comp_act (Pose.inv_r_ne cb) ca, ← e1, e2, ← Pose.comp_act (Pose.inv_r_ne cb) cb,
      Pose.inv_comp cb]
    simp [Pose.id, Pose.act]
  have r0 : ∀ q, rot q 0 = 0 := by intro q; have := rot_sub q 0 0; simpa using this
  simp only [Pose.act, r0, zero_add] at et
  ext1
  · exact et
  · exact er

/-! ### the matcher with arrays -/

open Classical in
/-- Complete description of `get_timestamps` and `get_transformation` along well-formed frames, in
the presence of arrays. -/
theorem matcher_good (sq : SquadFn) (hsq : SquadLaw sq) {s : State} {la lb : List ℕ}
    {fa fb : List MFrame} (h1 : List.Forall₂ (FrameOf s false) la fa)
    (h2 : List.Forall₂ (FrameOf s true) lb.reverse fb) (hg : ∀ i ∈ la ++ lb, FrameOk true s i)
    (arrs : List MArray) (harr : ∀ x ∈ arrs, ∀ ats, x.timestamps = some ats → ats ≠ []) (af : Bool) :
    let m : Matcher := ⟨fa ++ fb, arrs⟩
    let cont := (la ++ lb.reverse).filterMap (stampsOf s false)
    let disc := (la ++ lb.reverse).filterMap (stampsOf s true)
    let astamps := arrs.filterMap (·.timestamps)
    let el := if af then astamps ++ cont else cont ++ astamps
    (el = [] ∧ disc = [] ∧ ∃ A, (∀ τ, ChainAt sq s la lb τ A) ∧ IsUnitQ A.r ∧
      m.getTimestamps af = .ok none ∧
      m.getTransformation sq none af = .ok (.one A.t, .one A.r, none)) ∨
    (∃ (ts : List ℝ) (T : ℝ → Pose), m.getTimestamps af = .ok (some ts) ∧
      ((∃ x xs, el = x :: xs ∧ ts = commonStamps x el) ∨ (el = [] ∧ disc ≠ [] ∧ ts = npUnique disc.flatten)) ∧
      (∀ τ ∈ ts, ChainAt sq s la lb τ (T τ) ∧ IsUnitQ (T τ).r) ∧
      (m.getTransformation sq none af =
          .ok (.many (ts.map fun τ => (T τ).t), .many (ts.map fun τ => (T τ).r), some ts) ∨
        (la = [] ∧ lb = [] ∧ (∀ τ, T τ = Pose.id) ∧
          m.getTransformation sq none af = .ok (.many [0], .one 1, some ts)))) := by
  intro m cont disc astamps el
  have hg' : ∀ i ∈ la ++ lb, ∃ d, s.data i = some d ∧ GoodData d := by simpa [FrameOk] using hg
  have hgf : ∀ f ∈ fa ++ fb, GoodData f.data := by
    have key : ∀ {inv l fs}, List.Forall₂ (FrameOf s inv) l fs → (∀ i ∈ l, ∃ d, s.data i = some d ∧ GoodData d) →
        ∀ f ∈ fs, GoodData f.data := by
      intro inv l fs hf
      induction hf with
      | nil => simp
      | cons hx _ ih =>
        intro hl f hf
        rcases List.mem_cons.mp hf with rfl | hf
        · obtain ⟨d, g1, g2⟩ := hl _ (List.mem_cons_self ..)
          rw [hx.1] at g1; cases g1; exact g2
        · exact ih (fun i hi => hl i (List.mem_cons_of_mem _ hi)) f hf
    intro f hf
    rcases List.mem_append.mp hf with hf | hf
    · exact key h1 (fun i hi => hg' i (by simp [hi])) f hf
    · exact key h2 (fun i hi => hg' i (by simp at hi; simp [hi])) f hf
  have efr : (fa ++ fb).filterMap (fun f => if f.discrete then none else f.timestamps) = cont := by
    simp only [List.filterMap_append, (filterMap_frames h1).1, (filterMap_frames h2).1, cont]
  have ec : m.continuous = cont ++ astamps := by
    simp only [Matcher.continuous, m, efr, astamps]
  have eel : m.elements af = el := by
    simp only [Matcher.elements, m, efr, el, astamps]
  have ed : m.discretes = disc := by
    simp only [Matcher.discretes, m, List.filterMap_append, (filterMap_frames h1).2,
      (filterMap_frames h2).2, disc]
  have hmem : ∀ y, y ∈ m.continuous ↔ y ∈ el := by
    intro y; rw [← eel]; exact (mem_elements m af y).symm
  have hne : ∀ c ∈ m.continuous, c ≠ [] := by
    intro c hc
    simp only [Matcher.continuous, m, List.mem_append, List.mem_filterMap] at hc
    rcases hc with ⟨f, hf, h3⟩ | ⟨x, hx, h3⟩
    · split at h3
      · simp at h3
      · exact goodData_ne (hgf f (List.mem_append.mpr hf)) h3
    · exact harr x hx c h3
  have hlook : ∀ ts, m.getTimestamps af = .ok ts → m.getTransformation sq none af =
      match transLoop sq ts m.frames (initTranslation ts, .one 1) with
      | .error e => .error e
      | .ok p => .ok (p.1, p.2, ts) := by
    intro ts hts
    simp only [bind, Except.bind, Matcher.getTransformation, hts]
    cases transLoop sq ts m.frames (initTranslation ts, .one 1) <;> rfl
  have hmov : ∀ ts, m.getTimestamps af = .ok (some ts) → (∀ τ ∈ ts, ∀ c ∈ m.continuous, InRange c τ) →
      ∃ T : ℝ → Pose, (∀ τ ∈ ts, ChainAt sq s la lb τ (T τ) ∧ IsUnitQ (T τ).r) ∧
      (m.getTransformation sq none af =
          .ok (.many (ts.map fun τ => (T τ).t), .many (ts.map fun τ => (T τ).r), some ts) ∨
        (la = [] ∧ lb = [] ∧ (∀ τ, T τ = Pose.id) ∧
          m.getTransformation sq none af = .ok (.many [0], .one 1, some ts))) := by
    intro ts hts hin
    by_cases hfr : fa ++ fb = []
    · obtain ⟨rfl, rfl⟩ := List.append_eq_nil_iff.mp hfr
      cases h1
      have hlb : lb = [] := by
        generalize hl : lb.reverse = l at h2
        cases h2; simpa using hl
      subst hlb
      refine ⟨fun _ => Pose.id, fun τ _ => ⟨⟨[], [], .nil, .nil, by simp, ?_⟩, isUnitQ_one⟩,
        .inr ⟨rfl, rfl, fun _ => rfl, ?_⟩⟩
      · simp [chain, Pose.inv, Pose.id, Pose.comp]
      · rw [hlook _ hts]
        simp [m, transLoop, initTranslation]
    · obtain ⟨T, t1, t2⟩ := transLoop_good sq hsq ts h1 h2 hgf
        (fun f hf τ hτ => admissible_of_continuous (m := m) (hin τ hτ) f hf) hfr
      refine ⟨T, fun τ hτ => ?_, .inl ?_⟩
      · obtain ⟨Pa, Pb, p1, p2, p3, p4⟩ := t2 τ hτ
        refine ⟨⟨Pa, Pb, p1, p2, fun Q hQ => (p3 Q hQ).ne_zero, p4⟩, ?_⟩
        rw [p4]
        exact (chain_unit fun Q hQ => p3 Q (by simp [hQ])).inv.mul (chain_unit fun Q hQ => p3 Q (by simp [hQ]))
      · rw [hlook _ hts]
        simp only [initTranslation, m]
        rw [t1]
  rcases getTimestamps_spec m af hne with ⟨x, xs, ts, g1, g2, g3, g4⟩ | ⟨g1, g2, g3⟩ | ⟨g1, g2, g3⟩
  · right
    have g5 : ts = commonStamps x el := by
      rw [g4 (fun t => ∀ y ∈ el, InRange y t) (fun t => by simp only [hmem])]; rfl
    obtain ⟨T, t1, t2⟩ := hmov ts g2 (by
      intro τ hτ; rw [g5] at hτ
      have := (List.mem_filter.mp hτ).2
      simp only [decide_eq_true_eq] at this
      intro c hc; exact this c ((hmem c).mp hc))
    exact ⟨ts, T, g2, .inl ⟨x, xs, by rw [← eel, g1], g5⟩, t1, t2⟩
  · right
    rw [ed] at g2 g3
    have hel : el = [] := by rw [← eel]; exact (elements_nil m af).mpr g1
    obtain ⟨T, t1, t2⟩ := hmov _ g3 (by rw [g1]; simp)
    exact ⟨_, T, g3, .inr ⟨hel, g2, rfl⟩, t1, t2⟩
  · left
    rw [ed] at g2
    have hel : el = [] := by rw [← eel]; exact (elements_nil m af).mpr g1
    rw [ec] at g1
    obtain ⟨g1, _⟩ := List.append_eq_nil_iff.mp g1
    refine ⟨hel, g2, ?_⟩
    have hst : ∀ i ∈ la ++ lb, ∃ P, StaticPoseOf s i P ∧ IsUnitQ P.r := by
      intro i hi
      obtain ⟨d, d1, d2⟩ := hg' i hi
      have m1 : stampsOf s false i = none := (List.filterMap_eq_nil_iff.mp g1) i (by simp at hi ⊢; exact hi)
      have m2 : stampsOf s true i = none := (List.filterMap_eq_nil_iff.mp g2) i (by simp at hi ⊢; exact hi)
      simp only [stampsOf, d1, Option.bind_some] at m1 m2
      cases d2 with
      | @static t r hu => exact ⟨⟨t, r⟩, ⟨false, d1⟩, hu⟩
      | discrete => simp at m2
      | continuous => simp at m1
    have hex : ∀ l : List ℕ, (∀ i ∈ l, ∃ P, StaticPoseOf s i P ∧ IsUnitQ P.r) →
        ∃ Ps, List.Forall₂ (fun i P => StaticPoseOf s i P ∧ P.r ≠ 0) l Ps ∧ ∀ P ∈ Ps, IsUnitQ P.r := by
      intro l
      induction l with
      | nil => intro _; exact ⟨[], .nil, by simp⟩
      | cons i l ih =>
        intro hl
        obtain ⟨Ps, hPs, hu⟩ := ih fun j hj => hl j (List.mem_cons_of_mem _ hj)
        obtain ⟨P, hP⟩ := hl i (by simp)
        refine ⟨P :: Ps, .cons ⟨hP.1, hP.2.ne_zero⟩ hPs, ?_⟩
        intro Q hQ; rcases List.mem_cons.mp hQ with rfl | hQ; exacts [hP.2, hu Q hQ]
    obtain ⟨Pa, hPa, ua⟩ := hex la fun i hi => hst i (by simp [hi])
    obtain ⟨Pb, hPb, ub⟩ := hex lb fun i hi => hst i (by simp [hi])
    have conv : ∀ {l : List ℕ} {Ps : List Pose} (τ : ℝ),
        List.Forall₂ (fun i P => StaticPoseOf s i P ∧ P.r ≠ 0) l Ps → List.Forall₂ (PoseOf sq s τ) l Ps := by
      intro l Ps τ hf
      exact hf.imp fun _ _ h => poseOf_static sq h.1 τ
    have s1 := staticPoseOf_frame h1 hPa
    have s2 := staticPoseOf_frame h2 (List.rel_reverse hPb)
    have s3 : List.Forall₂ IsStaticFrame (fa ++ fb) (Pa ++ Pb.reverse) := List.rel_append s1 s2
    have na : ∀ Q ∈ Pa, Q.r ≠ 0 := fun Q hQ => (ua Q hQ).ne_zero
    have nb : ∀ Q ∈ Pb, Q.r ≠ 0 := fun Q hQ => (ub Q hQ).ne_zero
    have hloop := transLoop_static sq s3 Pose.id
    rw [foldP_paths (forall₂_inverse h1) (forall₂_inverse h2) s1.length_eq
      (by simpa using s2.length_eq) na nb] at hloop
    refine ⟨(chain Pb).inv.comp (chain Pa), fun τ => ⟨Pa, Pb, conv τ hPa, conv τ hPb, ?_, rfl⟩, ?_, g3, ?_⟩
    · intro Q hQ
      rcases List.mem_append.mp hQ with hQ | hQ
      exacts [na Q hQ, nb Q hQ]
    · exact (chain_unit ub).inv.mul (chain_unit ua)
    · rw [hlook _ g3]
      simp only [initTranslation, m]
      simp only [Pose.id] at hloop
      simp only [hloop]

end RBM
