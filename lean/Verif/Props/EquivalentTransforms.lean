import Verif.Lemmas.SameView

/-!
C90: transforms of arrays and velocities in two trees that describe the same bodies.
-/

namespace RBM.Props

open RBM.Spec

/-- A pair of frames seen alike in both trees. -/
structure Alike (sq : SquadFn) (s s' : State) (a b a' b' : ℕ) : Prop where
  wf : WF s
  wf' : WF s'
  lta : a < s.size
  ltb : b < s.size
  lta' : a' < s'.size
  ltb' : b' < s'.size
  view : SameView sq s s' a b a' b'

section
variable {sq : SquadFn} {s s' : State} {a b a' b' : ℕ}

theorem Alike.matcher (hsq : SquadLaw sq) (h : Alike sq s s' a b a' b') (xs : List MArray) {β : Type} (k : Matcher → Res β)
    (k' : Matcher → Res β) (hk : ∀ m m' : Matcher, m'.getTransformation sq = m.getTransformation sq →
      (∀ ts, m'.getArray1 sq ts = m.getArray1 sq ts) → k' m' = k m) :
    (s'.getMatcher a' (.byObj b') xs).bind k' = (s.getMatcher a (.byObj b) xs).bind k := by
  rcases sameView_matcher hsq h.wf h.wf' h.lta h.ltb h.lta' h.ltb' h.view xs with ⟨e, e1, e2⟩ | ⟨m, m', e1, e2, e3, e4⟩
  · rw [e1, e2]; rfl
  · rw [e1, e2]; exact hk m m' e3 e4

theorem Alike.vectors (hsq : SquadLaw sq) (h : Alike sq s s' a b a' b') (v : ND ℝ) (o : TArgs) :
    s'.transformVectors sq a' v (.byObj b') o = s.transformVectors sq a v (.byObj b) o := by
  have : s'.transformVectorsCore sq a' v (.byObj b') o = s.transformVectorsCore sq a v (.byObj b) o := by
    simp only [State.transformVectorsCore, bind]
    refine bind_same fun x _ => ?_
    refine h.matcher hsq _ _ _ fun m m' e1 e2 => ?_
    simp only [e1, e2]
  simp only [State.transformVectors, this]

theorem Alike.points (hsq : SquadLaw sq) (h : Alike sq s s' a b a' b') (v : ND ℝ) (o : TArgs) :
    s'.transformPoints sq a' v (.byObj b') o = s.transformPoints sq a v (.byObj b) o := by
  have : s'.transformPointsCore sq a' v (.byObj b') o = s.transformPointsCore sq a v (.byObj b) o := by
    simp only [State.transformPointsCore, bind]
    refine bind_same fun x _ => ?_
    refine h.matcher hsq _ _ _ fun m m' e1 e2 => ?_
    simp only [e1, e2]
  simp only [State.transformPoints, this]

theorem Alike.quaternions (hsq : SquadLaw sq) (h : Alike sq s s' a b a' b') (v : ND ℝ) (o : TArgs) :
    s'.transformQuaternions sq a' v (.byObj b') o = s.transformQuaternions sq a v (.byObj b) o := by
  have : s'.transformQuaternionsCore sq a' v (.byObj b') o = s.transformQuaternionsCore sq a v (.byObj b) o := by
    simp only [State.transformQuaternionsCore, bind]
    refine bind_same fun x _ => ?_
    refine h.matcher hsq _ _ _ fun m m' e1 e2 => ?_
    simp only [e1, e2]
  simp only [State.transformQuaternions, this]

theorem Alike.lookup (hsq : SquadLaw sq) (h : Alike sq s s' a b a' b') :
    s'.lookupTransform sq a' (.byObj b') = s.lookupTransform sq a (.byObj b) :=
  h.view.lookup hsq h.wf h.wf' h.lta h.ltb h.lta' h.ltb'

end

section
variable {ext : Ext} {s s' : State} {a b c a' b' c' : ℕ}

theorem alike_vectorsWithTs (hsq : SquadLaw ext.squad) (h : Alike ext.squad s s' a b a' b') (v : ND ℝ) (o : TArgs) :
    s'.vectorsWithTs ext.squad a' v b' o = s.vectorsWithTs ext.squad a v b o := by
  simp only [State.vectorsWithTs, h.vectors hsq]

theorem alike_resolveOr (s : State) (a b : ℕ) : s.resolveOr a (some (.byObj b)) = .ok b := by
  simp only [State.resolveOr]
  rfl

theorem alike_twist (hsq : SquadLaw ext.squad) (h1 : Alike ext.squad s s' a b a' b') (h2 : Alike ext.squad s s' b c b' c')
    (h3 : Alike ext.squad s s' a c a' c') (o : VelArgs) :
    s'.lookupTwist ext a' (some (.byObj b')) (some (.byObj c')) o = s.lookupTwist ext a (some (.byObj b)) (some (.byObj c)) o := by
  simp only [State.lookupTwist, alike_resolveOr, h1.lookup hsq, alike_vectorsWithTs hsq h2, alike_vectorsWithTs hsq h3, bind, Except.bind]

theorem alike_linear (hsq : SquadLaw ext.squad) (h1 : Alike ext.squad s s' a b a' b') (h2 : Alike ext.squad s s' b c b' c') (o : VelArgs) :
    s'.lookupLinearVelocity ext a' (some (.byObj b')) (some (.byObj c')) o =
      s.lookupLinearVelocity ext a (some (.byObj b)) (some (.byObj c)) o := by
  simp only [State.lookupLinearVelocity, alike_resolveOr, h1.lookup hsq, alike_vectorsWithTs hsq h2, bind, Except.bind]

theorem alike_angular (hsq : SquadLaw ext.squad) (h1 : Alike ext.squad s s' a b a' b') (h3 : Alike ext.squad s s' a c a' c') (o : VelArgs) :
    s'.lookupAngularVelocity ext a' (some (.byObj b')) (some (.byObj c')) o =
      s.lookupAngularVelocity ext a (some (.byObj b)) (some (.byObj c)) o := by
  simp only [State.lookupAngularVelocity, alike_resolveOr, h1.lookup hsq, alike_vectorsWithTs hsq h3, bind, Except.bind]

theorem alike_addAngular (hsq : SquadLaw ext.squad) (h1 : Alike ext.squad s s' a b a' b') (v : ND ℝ) (o : TArgs) (ang : ND ℝ)
    (ts : Option (List ℝ)) : s'.addAngular ext a' v (.byObj b') o ang ts = s.addAngular ext a v (.byObj b) o ang ts := by
  simp only [State.addAngular, h1.vectors hsq]

theorem alike_addLinear (hsq : SquadLaw ext.squad) (h1 : Alike ext.squad s s' a b a' b') (v : ND ℝ) (o : TArgs) (lin ang : ND ℝ)
    (lts ats : Option (List ℝ)) (tr : Arr Vec) (tts : Option (List ℝ)) :
    s'.addLinear ext a' v (.byObj b') o lin ang lts ats tr tts = s.addLinear ext a v (.byObj b) o lin ang lts ats tr tts := by
  simp only [State.addLinear, h1.vectors hsq]

theorem alike_transformAngular (hsq : SquadLaw ext.squad) (h1 : Alike ext.squad s s' a b a' b') (h2 : Alike ext.squad s s' b b b' b')
    (h3 : Alike ext.squad s s' b a b' a') (v : ND ℝ) (what : String) (o : TArgs) (cutoff : Option ℝ) :
    s'.transformAngularVelocity ext a' v (.byObj b') what o cutoff = s.transformAngularVelocity ext a v (.byObj b) what o cutoff := by
  have hr : ∀ (s : State) (b : ℕ), s.resolve (.byObj b) = .ok b := fun _ _ => rfl
  simp only [State.transformAngularVelocity, alike_angular hsq h1 h1, alike_angular hsq h3 h2, alike_addAngular hsq h1, h1.vectors hsq, hr,
    bind, Except.bind]

theorem alike_transformLinear (hsq : SquadLaw ext.squad) (h1 : Alike ext.squad s s' a b a' b') (h2 : Alike ext.squad s s' b b b' b')
    (h3 : Alike ext.squad s s' b a b' a') {m m' : ℕ} (hm : Alike ext.squad s s' m a m' a') {r r' : ℕ} (hr : Alike ext.squad s s' a r a' r')
    (v : ND ℝ) (what : String) (o : TArgs) (outlier cutoff : Option ℝ) :
    s'.transformLinearVelocity ext a' v (.byObj b') what (some (.byObj m')) (some (.byObj r')) o outlier cutoff =
      s.transformLinearVelocity ext a v (.byObj b) what (some (.byObj m)) (some (.byObj r)) o outlier cutoff := by
  have hr' : ∀ (s : State) (b : ℕ), s.resolve (.byObj b) = .ok b := fun _ _ => rfl
  have hr2 : ∀ (s : State) (b : ℕ), s.resolveOpt (some (.byObj b)) = .ok b := fun _ _ => rfl
  simp only [State.transformLinearVelocity, alike_twist hsq h1 h2 h1, hm.lookup hsq, alike_addLinear hsq h1, alike_linear hsq h3 h1,
    alike_angular hsq hr h1, h3.lookup hsq, h1.vectors hsq, hr', hr2, bind, Except.bind]

end

theorem merged_alike {sq : SquadFn} (hsq : SquadLaw sq) (ht : SquadTurns sq) {s s' : State} {h h' : List Event}
    (hr : Reachable s h) (hr' : Reachable s' h') {φ : ℕ → ℕ} {f g : ℕ} {P : Pose} (hm : Merged s s' φ f g P)
    {a b : ℕ} (ha : a < s.size ∧ a ≠ f) (hb : b < s.size ∧ b ≠ f) (hp : PathAll s a b (FrameOk true s)) :
    Alike sq s s' a b (φ a) (φ b) :=
  ⟨hr.wf, hr'.wf, ha.1, hb.1, hm.frame a ha.1 ha.2, hm.frame b hb.1 hb.2, merged_view sq hsq ht hr hr' hm ha.1 hb.1 ha.2 hb.2 hp⟩

theorem recoordinated_alike {sq : SquadFn} (hsq : SquadLaw sq) (ht : SquadTurns sq) {s s' : State} {h h' : List Event}
    (hr : Reachable s h) (hr' : Reachable s' h') {w : ℕ} {G : Pose} (hm : Recoordinated s s' w G)
    {a b : ℕ} (ha : Ancestor s a w) (hb : Ancestor s b w) (hp : PathAll s a b (FrameOk true s)) : Alike sq s s' a b a b := by
  have hlt : ∀ {a : ℕ}, Ancestor s a w → a < s.size := by
    intro a ha
    obtain ⟨x, hx, _⟩ := Relation.TransGen.head'_iff.mp ha
    exact (hr.wf.parent_lt _ _ hx).1
  exact ⟨hr.wf, hr'.wf, hlt ha, hlt hb, by rw [hm.size]; exact hlt ha, by rw [hm.size]; exact hlt hb, recoordinated_view sq hsq ht hr hm ha hb hp⟩

/-- Merging a mounting frame changes no transform of points, vectors or orientations between the
remaining frames, whatever the array, its axes and timestamps: same arrays, same timestamps, same
errors. -/
theorem C90_merged_transforms (sq : SquadFn) (hsq : SquadLaw sq) (ht : SquadTurns sq) {s s' : State} {h h' : List Event}
    (hr : Reachable s h) (hr' : Reachable s' h') {φ : ℕ → ℕ} {f g : ℕ} {P : Pose} (hm : Merged s s' φ f g P)
    {a b : ℕ} (ha : a < s.size ∧ a ≠ f) (hb : b < s.size ∧ b ≠ f) (hp : PathAll s a b (FrameOk true s)) (v : ND ℝ) (o : TArgs) :
    s'.transformPoints sq (φ a) v (.byObj (φ b)) o = s.transformPoints sq a v (.byObj b) o ∧
    s'.transformVectors sq (φ a) v (.byObj (φ b)) o = s.transformVectors sq a v (.byObj b) o ∧
    s'.transformQuaternions sq (φ a) v (.byObj (φ b)) o = s.transformQuaternions sq a v (.byObj b) o :=
  have hA := merged_alike hsq ht hr hr' hm ha hb hp
  ⟨hA.points hsq v o, hA.vectors hsq v o, hA.quaternions hsq v o⟩

/-- Nor the velocities of a frame in a reference frame, represented in a third frame. -/
theorem C90_merged_velocities (ext : Ext) (hsq : SquadLaw ext.squad) (ht : SquadTurns ext.squad) {s s' : State} {h h' : List Event}
    (hr : Reachable s h) (hr' : Reachable s' h') {φ : ℕ → ℕ} {f g : ℕ} {P : Pose} (hm : Merged s s' φ f g P)
    {a b c : ℕ} (ha : a < s.size ∧ a ≠ f) (hb : b < s.size ∧ b ≠ f) (hc : c < s.size ∧ c ≠ f) (hab : PathAll s a b (FrameOk true s))
    (hbc : PathAll s b c (FrameOk true s)) (hac : PathAll s a c (FrameOk true s)) (o : VelArgs) :
    s'.lookupTwist ext (φ a) (some (.byObj (φ b))) (some (.byObj (φ c))) o = s.lookupTwist ext a (some (.byObj b)) (some (.byObj c)) o ∧
    s'.lookupLinearVelocity ext (φ a) (some (.byObj (φ b))) (some (.byObj (φ c))) o =
      s.lookupLinearVelocity ext a (some (.byObj b)) (some (.byObj c)) o ∧
    s'.lookupAngularVelocity ext (φ a) (some (.byObj (φ b))) (some (.byObj (φ c))) o =
      s.lookupAngularVelocity ext a (some (.byObj b)) (some (.byObj c)) o :=
  have h1 := merged_alike hsq ht hr hr' hm ha hb hab
  have h2 := merged_alike hsq ht hr hr' hm hb hc hbc
  have h3 := merged_alike hsq ht hr hr' hm ha hc hac
  ⟨alike_twist hsq h1 h2 h3 o, alike_linear hsq h1 h2 o, alike_angular hsq h1 h3 o⟩

/-- Nor the transformation of velocities. -/
theorem C90_merged_velocity_transforms (ext : Ext) (hsq : SquadLaw ext.squad) (ht : SquadTurns ext.squad) {s s' : State} {h h' : List Event}
    (hr : Reachable s h) (hr' : Reachable s' h') {φ : ℕ → ℕ} {f g : ℕ} {P : Pose} (hm : Merged s s' φ f g P)
    {a b m r : ℕ} (ha : a < s.size ∧ a ≠ f) (hb : b < s.size ∧ b ≠ f) (hm' : m < s.size ∧ m ≠ f) (hrf : r < s.size ∧ r ≠ f)
    (hab : PathAll s a b (FrameOk true s)) (hma : PathAll s m a (FrameOk true s)) (har : PathAll s a r (FrameOk true s))
    (v : ND ℝ) (what : String) (o : TArgs) (outlier cutoff : Option ℝ) :
    s'.transformAngularVelocity ext (φ a) v (.byObj (φ b)) what o cutoff = s.transformAngularVelocity ext a v (.byObj b) what o cutoff ∧
    s'.transformLinearVelocity ext (φ a) v (.byObj (φ b)) what (some (.byObj (φ m))) (some (.byObj (φ r))) o outlier cutoff =
      s.transformLinearVelocity ext a v (.byObj b) what (some (.byObj m)) (some (.byObj r)) o outlier cutoff :=
  have h1 := merged_alike hsq ht hr hr' hm ha hb hab
  have h2 := merged_alike hsq ht hr hr' hm hb hb pathAll_self
  have h3 := merged_alike hsq ht hr hr' hm hb ha (pathAll_symm hab)
  ⟨alike_transformAngular hsq h1 h2 h3 v what o cutoff,
   alike_transformLinear hsq h1 h2 h3 (merged_alike hsq ht hr hr' hm hm' ha hma) (merged_alike hsq ht hr hr' hm ha hrf har) v what o outlier cutoff⟩

/-- The choice of coordinates in a frame affects no transform between frames below it. -/
theorem C90_world_transforms (sq : SquadFn) (hsq : SquadLaw sq) (ht : SquadTurns sq) {s s' : State} {h h' : List Event}
    (hr : Reachable s h) (hr' : Reachable s' h') {w : ℕ} {G : Pose} (hm : Recoordinated s s' w G)
    {a b : ℕ} (ha : Ancestor s a w) (hb : Ancestor s b w) (hp : PathAll s a b (FrameOk true s)) (v : ND ℝ) (o : TArgs) :
    s'.transformPoints sq a v (.byObj b) o = s.transformPoints sq a v (.byObj b) o ∧
    s'.transformVectors sq a v (.byObj b) o = s.transformVectors sq a v (.byObj b) o ∧
    s'.transformQuaternions sq a v (.byObj b) o = s.transformQuaternions sq a v (.byObj b) o :=
  have hA := recoordinated_alike hsq ht hr hr' hm ha hb hp
  ⟨hA.points hsq v o, hA.vectors hsq v o, hA.quaternions hsq v o⟩

/-- Nor the velocities of frames below it in each other. -/
theorem C90_world_velocities (ext : Ext) (hsq : SquadLaw ext.squad) (ht : SquadTurns ext.squad) {s s' : State} {h h' : List Event}
    (hr : Reachable s h) (hr' : Reachable s' h') {w : ℕ} {G : Pose} (hm : Recoordinated s s' w G)
    {a b c : ℕ} (ha : Ancestor s a w) (hb : Ancestor s b w) (hc : Ancestor s c w) (hab : PathAll s a b (FrameOk true s))
    (hbc : PathAll s b c (FrameOk true s)) (hac : PathAll s a c (FrameOk true s)) (o : VelArgs) :
    s'.lookupTwist ext a (some (.byObj b)) (some (.byObj c)) o = s.lookupTwist ext a (some (.byObj b)) (some (.byObj c)) o ∧
    s'.lookupLinearVelocity ext a (some (.byObj b)) (some (.byObj c)) o =
      s.lookupLinearVelocity ext a (some (.byObj b)) (some (.byObj c)) o ∧
    s'.lookupAngularVelocity ext a (some (.byObj b)) (some (.byObj c)) o =
      s.lookupAngularVelocity ext a (some (.byObj b)) (some (.byObj c)) o :=
  have h1 := recoordinated_alike hsq ht hr hr' hm ha hb hab
  have h2 := recoordinated_alike hsq ht hr hr' hm hb hc hbc
  have h3 := recoordinated_alike hsq ht hr hr' hm ha hc hac
  ⟨alike_twist hsq h1 h2 h3 o, alike_linear hsq h1 h2 o, alike_angular hsq h1 h3 o⟩

/-- Nor the transformation of velocities between them. -/
theorem C90_world_velocity_transforms (ext : Ext) (hsq : SquadLaw ext.squad) (ht : SquadTurns ext.squad) {s s' : State} {h h' : List Event}
    (hr : Reachable s h) (hr' : Reachable s' h') {w : ℕ} {G : Pose} (hm : Recoordinated s s' w G)
    {a b m r : ℕ} (ha : Ancestor s a w) (hb : Ancestor s b w) (hm' : Ancestor s m w) (hrf : Ancestor s r w)
    (hab : PathAll s a b (FrameOk true s)) (hma : PathAll s m a (FrameOk true s)) (har : PathAll s a r (FrameOk true s))
    (v : ND ℝ) (what : String) (o : TArgs) (outlier cutoff : Option ℝ) :
    s'.transformAngularVelocity ext a v (.byObj b) what o cutoff = s.transformAngularVelocity ext a v (.byObj b) what o cutoff ∧
    s'.transformLinearVelocity ext a v (.byObj b) what (some (.byObj m)) (some (.byObj r)) o outlier cutoff =
      s.transformLinearVelocity ext a v (.byObj b) what (some (.byObj m)) (some (.byObj r)) o outlier cutoff :=
  have h1 := recoordinated_alike hsq ht hr hr' hm ha hb hab
  have h2 := recoordinated_alike hsq ht hr hr' hm hb hb pathAll_self
  have h3 := recoordinated_alike hsq ht hr hr' hm hb ha (pathAll_symm hab)
  ⟨alike_transformAngular hsq h1 h2 h3 v what o cutoff,
   alike_transformLinear hsq h1 h2 h3 (recoordinated_alike hsq ht hr hr' hm hm' ha hma) (recoordinated_alike hsq ht hr hr' hm ha hrf har) v what o outlier cutoff⟩

end RBM.Props
