import Verif.Spec.Locality
import Verif.Props.Registry
import Verif.Model.Velocity

/-!
C82: transforms depend only on the frames between source and target.
-/

namespace RBM.Props

open RBM RBM.Spec

theorem pathTo_congr {par par' : ℕ → Option ℕ} {c a : ℕ} {l : List ℕ} (h : PathTo par c a l) (hp : ∀ i ∈ l, par' i = par i) : PathTo par' c a l := by
  induction h with
  | here => exact .here
  | up h1 h2 _ ih => exact .up h1 ((hp _ (by simp)).trans h2) (ih fun i hi => hp i (by simp [hi]))

/-- An ancestor on the way: it is the upper end or in the list. -/
theorem pathTo_through {s : State} {c a d : ℕ} {l : List ℕ} (h : PathTo s.parent c a l) (h1 : AncestorOrSelf s a d) (h2 : AncestorOrSelf s d c) (hw : WF s) : d = c ∨ d ∈ l := by
  induction h with
  | here =>
    left
    by_contra hne
    rcases Relation.reflTransGen_iff_eq_or_transGen.mp h1 with h1 | h1
    · exact hne h1
    · exact hw.acyclic _ (Relation.TransGen.trans_left h1 h2)
  | @up a p l hne hp _ ih =>
    rcases Relation.ReflTransGen.cases_head h1 with rfl | ⟨q, hq, h1⟩
    · exact .inr (by simp)
    · have : p = q := by
        have : some p = some q := hp.symm.trans hq
        exact Option.some.inj this
      subst this
      rcases ih h1 with h | h
      · exact .inl h
      · exact .inr (by simp [h])

theorem pathTo_below {s : State} {c a d : ℕ} {l : List ℕ} (h : PathTo s.parent c a l) (hd : d ∈ l) : AncestorOrSelf s a d ∧ Ancestor s d c := by
  induction h with
  | here => cases hd
  | @up a p l hne hp hl ih =>
    rcases List.mem_cons.mp hd with rfl | hd
    · exact ⟨.refl, Relation.TransGen.head' hp (ancestorOrSelf_of_pathTo hl)⟩
    · exact ⟨.head hp (ih hd).1, (ih hd).2⟩

theorem walk_congr {s s' : State} (hs : WF s) (hs' : WF s') {a b : ℕ} (ha : a < s.size) (hb : b < s.size) (ha' : a < s'.size) (hb' : b < s'.size)
    {up down : List ℕ} (hw : s.walk a (.byObj b) = .ok (up, down)) (hp : ∀ i ∈ up ++ down, s'.parent i = s.parent i) : s'.walk a (.byObj b) = .ok (up, down) := by
  simp only [State.walk, State.resolve] at hw ⊢
  rcases walk_spec hs ha hb with ⟨_, h⟩ | ⟨c, u, d, hc, hu, hd, h⟩
  · rw [h] at hw; cases hw
  · rw [h] at hw
    cases hw
    have hu' : PathTo s'.parent c a up := pathTo_congr hu fun i hi => hp i (by simp [hi])
    have hd' : PathTo s'.parent c b down.reverse := pathTo_congr hd fun i hi => hp i (List.mem_append.mpr (.inr (List.mem_reverse.mp hi)))
    rcases walk_spec hs' ha' hb' with ⟨h', _⟩ | ⟨c', u', d', hc', hu2, hd2, h'⟩
    · exact absurd ⟨c, ancestorOrSelf_of_pathTo hu', ancestorOrSelf_of_pathTo hd'⟩ h'
    · have hcc := hc'.2.2 c (ancestorOrSelf_of_pathTo hu') (ancestorOrSelf_of_pathTo hd')
      have e : c' = c := by
        rcases pathTo_through hu' hc'.1 hcc hs' with e | m1
        · exact e
        · rcases pathTo_through hd' hc'.2.1 hcc hs' with e | m2
          · exact e
          · obtain ⟨k1, k2⟩ := pathTo_below hu m1
            obtain ⟨k3, _⟩ := pathTo_below hd m2
            exact absurd (Relation.TransGen.trans_left k2 (hc.2.2 c' k1 k3)) (hs.acyclic c')
      subst e
      have e1 := C05_path_unique hu2 hu'
      have e2 := C05_path_unique hd2 hd'
      rw [h', e1, List.reverse_injective e2]

theorem addFrames_congr {s s' : State} (inv : Bool) (l : List ℕ) (h : ∀ i ∈ l, s'.data i = s.data i) : ∀ m, s'.addFrames inv l m = s.addFrames inv l m := by
  induction l with
  | nil => exact fun _ => rfl
  | cons i l ih =>
    intro m
    simp only [State.addFrames, State.addFrame, h i (by simp)]
    split
    · rfl
    · exact ih (fun j hj => h j (by simp [hj])) _

/-- Two states in which the frames between `a` and `b` (from each up to, but without, the nearest common ancestor) are the same give the same
transforms: neither frames elsewhere, nor what is above the common ancestor, nor the pose and the parent of the common ancestor, nor
registered names matter. -/
theorem C82_between {s s' : State} {h h' : List Event} (hs : Reachable s h) (hs' : Reachable s' h') {a b : ℕ} (ha : a < s.size) (hb : b < s.size)
    (ha' : a < s'.size) (hb' : b < s'.size) (hp : SameBetween s s' a b) :
    (∀ arrays, s'.getMatcher a (.byObj b) arrays = s.getMatcher a (.byObj b) arrays) ∧
    (∀ sq, s'.lookupTransform sq a (.byObj b) = s.lookupTransform sq a (.byObj b)) ∧
    (∀ sq arr o, s'.transformPoints sq a arr (.byObj b) o = s.transformPoints sq a arr (.byObj b) o ∧
      s'.transformVectors sq a arr (.byObj b) o = s.transformVectors sq a arr (.byObj b) o ∧
      s'.transformQuaternions sq a arr (.byObj b) o = s.transformQuaternions sq a arr (.byObj b) o) := by
  obtain ⟨up, down, hw, hp⟩ := hp
  have hw' := walk_congr hs.wf hs'.wf ha hb ha' hb' hw fun i hi => (hp i hi).1
  have e1 := addFrames_congr (s := s) (s' := s') false up fun i hi => (hp i (by simp [hi])).2
  have e2 := addFrames_congr (s := s) (s' := s') true down fun i hi => (hp i (by simp [hi])).2
  have key : ∀ arrays, s'.getMatcher a (.byObj b) arrays = s.getMatcher a (.byObj b) arrays := by
    intro arrays
    simp only [State.getMatcher, hw, hw', bind, Except.bind, e1, e2]
  refine ⟨key, fun sq => by simp only [State.lookupTransform, key], fun sq arr o => ⟨?_, ?_, ?_⟩⟩
  · simp only [State.transformPoints, State.transformPointsCore, key]
  · simp only [State.transformVectors, State.transformVectorsCore, key]
  · simp only [State.transformQuaternions, State.transformQuaternionsCore, key]

/-- The same for velocity lookups: only the frames between the moving frame, the reference frame and the representation frame matter. -/
theorem C82_velocities {s s' : State} {h h' : List Event} (hs : Reachable s h) (hs' : Reachable s' h') {a ref rep : ℕ} (ha : a < s.size) (hf : ref < s.size)
    (hp : rep < s.size) (ha' : a < s'.size) (hf' : ref < s'.size) (hp' : rep < s'.size)
    (h1 : SameBetween s s' a ref) (h2 : SameBetween s s' a rep) (h3 : SameBetween s s' ref rep) (ext : Ext) (o : VelArgs) :
    s'.lookupTwist ext a (some (.byObj ref)) (some (.byObj rep)) o = s.lookupTwist ext a (some (.byObj ref)) (some (.byObj rep)) o ∧
    s'.lookupLinearVelocity ext a (some (.byObj ref)) (some (.byObj rep)) o = s.lookupLinearVelocity ext a (some (.byObj ref)) (some (.byObj rep)) o ∧
    s'.lookupAngularVelocity ext a (some (.byObj ref)) (some (.byObj rep)) o = s.lookupAngularVelocity ext a (some (.byObj ref)) (some (.byObj rep)) o := by
  have b1 := C82_between hs hs' ha hf ha' hf' h1
  have b2 := C82_between hs hs' ha hp ha' hp' h2
  have b3 := C82_between hs hs' hf hp hf' hp' h3
  have r1 : ∀ t : State, ∀ i : ℕ, t.resolveOr a (some (.byObj i)) = .ok i := fun t i => rfl
  have v2 : ∀ arr o, s'.vectorsWithTs ext.squad a arr rep o = s.vectorsWithTs ext.squad a arr rep o := fun arr o => by
    simp only [State.vectorsWithTs, (b2.2.2 _ _ _).2.1]
  have v3 : ∀ arr o, s'.vectorsWithTs ext.squad ref arr rep o = s.vectorsWithTs ext.squad ref arr rep o := fun arr o => by
    simp only [State.vectorsWithTs, (b3.2.2 _ _ _).2.1]
  refine ⟨?_, ?_, ?_⟩
  · simp only [State.lookupTwist, r1, bind, Except.bind, b1.2.1, v2, v3]
  · simp only [State.lookupLinearVelocity, r1, bind, Except.bind, b1.2.1, v3]
  · simp only [State.lookupAngularVelocity, r1, bind, Except.bind, b1.2.1, v2]

theorem step_size {s : State} (hs : WF s) (op : Op) (hr : op.Refers s) : s.size ≤ (s.step op).1.size := by
  have cons : ∀ n p a, RefOk s p → (s.construct n p a).1.size = s.size + 1 := fun n p a h =>
    (construct_spec hs n p a h (s' := (s.construct n p a).1) (res := (s.construct n p a).2) rfl).2.1
  cases op with
  | construct n p a =>
    have e : (s.step (.construct n p a)).1 = (s.construct n p a).1 := by
      simp only [State.step]
      cases hc : s.construct n p a with
      | mk s' res => cases res <;> rfl
    rw [e, cons n p a (refOk_of_refers_construct hr)]; omega
  | registerFrame n p a u =>
    simp only [State.step, State.registerFrame]
    obtain ⟨h1, h2, h3, h4, h5, h6, h7⟩ := construct_spec hs n p a (refOk_of_refers_registerFrame hr) (s' := (s.construct n p a).1) (res := (s.construct n p a).2) rfl
    cases hc : s.construct n p a with
    | mk s' res =>
      rw [hc] at h1 h2 h7
      simp only at h1 h2 h7
      cases res with
      | error e => simp only; omega
      | ok i =>
        obtain rfl := h7 i rfl
        simp only
        have := (register_spec h1 (i := s.size) (by omega) u (s' := (s'.register s.size u).1) (res := (s'.register s.size u).2) rfl).2.1
        omega
  | register i u => exact (register_spec hs hr u (s' := (s.register i u).1) (res := (s.register i u).2) rfl).2.1.ge
  | deregisterFrame n => exact (deregister_spec hs (some n) (s' := (s.deregister (some n)).1) (res := (s.deregister (some n)).2) rfl).2.1.ge
  | deregister i => exact (deregister_spec hs (s.name i) (s' := (s.deregister (s.name i)).1) (res := (s.deregister (s.name i)).2) rfl).2.1.ge
  | clear => exact le_refl _
  | setParent i v =>
    simp only [State.step]
    rcases setParent_spec hs hr.1 hr.2 with ⟨_, _, _, _, h⟩ | ⟨s', _, h, _, _, h2, _⟩
    · rw [h]
    · rw [h]; exact h2.ge
  | del i =>
    simp only [State.step, State.del]
    cases s.name i with
    | none => exact le_refl _
    | some n =>
      simp only
      split_ifs
      · exact (deregister_spec hs (some n) (s' := (s.deregister (some n)).1) (res := (s.deregister (some n)).2) rfl).2.1.ge
      · exact le_refl _

theorem step_leaves {s : State} (hs : WF s) (op : Op) (hr : op.Refers s) {j : ℕ} (hj : j < s.size) (hm : ¬ Moves s op j) :
    (s.step op).1.parent j = s.parent j ∧ (s.step op).1.data j = s.data j ∧ s.size ≤ (s.step op).1.size := by
  have reg : ∀ {v : State} (hv : WF v) {i : ℕ} (hi : i < v.size) (u : Bool), (∀ n, v.name i = some n → u = true → v.resolve (.byName n) ≠ .ok j) →
      (v.register i u).1.parent j = v.parent j ∧ (v.register i u).1.data j = v.data j ∧ v.size ≤ (v.register i u).1.size := by
    intro v hv i hi u hne
    obtain ⟨_, h2, h3, h4, h5⟩ := register_spec hv hi u (s' := (v.register i u).1) (res := (v.register i u).2) rfl
    refine ⟨?_, by rw [h4], h2.ge⟩
    rcases h5 with ⟨_, h5, _⟩ | ⟨_, n, hn, _, ⟨_, h5⟩ | ⟨hu, o, ho, h5⟩⟩
    · rw [h5]
    · rw [h5]
    · rw [h5, Function.update_of_ne]
      rintro rfl
      exact hne n hn hu (by simp only [State.resolve, ho])
  cases op with
  | construct n p a =>
    obtain ⟨_, h2, _, _, h5, h6, _⟩ := construct_spec hs n p a (refOk_of_refers_construct hr) (s' := (s.construct n p a).1) (res := (s.construct n p a).2) rfl
    have e : (s.step (.construct n p a)).1 = (s.construct n p a).1 := by
      simp only [State.step]
      cases hc : s.construct n p a with
      | mk s' res => cases res <;> rfl
    rw [e]
    exact ⟨h5 j hj.ne, h6 j hj.ne, by omega⟩
  | registerFrame n p a u =>
    simp only [State.step, State.registerFrame]
    obtain ⟨h1, h2, h3, h4, h5, h6, h7⟩ := construct_spec hs n p a (refOk_of_refers_registerFrame hr) (s' := (s.construct n p a).1) (res := (s.construct n p a).2) rfl
    cases hc : s.construct n p a with
    | mk s' res =>
      rw [hc] at h1 h2 h3 h4 h5 h6 h7
      simp only at h1 h2 h3 h4 h5 h6 h7
      cases res with
      | error e => exact ⟨h5 j hj.ne, h6 j hj.ne, by simp only; omega⟩
      | ok i =>
        obtain rfl := h7 i rfl
        simp only
        have := reg h1 (i := s.size) (by omega) u (fun m hm' hu hres => hm ?_)
        · exact ⟨this.1.trans (h5 j hj.ne), this.2.1.trans (h6 j hj.ne), by omega⟩
        · rw [h4, Function.update_self] at hm'
          subst hm'; subst hu
          simp only [State.resolve, h3] at hres
          simpa only [Moves, State.resolve] using hres
  | register i u =>
    refine reg hs hr u fun n hn hu hres => hm ?_
    subst hu
    exact ⟨n, hn, hres⟩
  | deregisterFrame n =>
    obtain ⟨_, h2, _, h4, h5, _⟩ := deregister_spec hs (some n) (s' := (s.step (.deregisterFrame n)).1) (res := (s.step (.deregisterFrame n)).2) rfl
    exact ⟨by rw [h5], by rw [h4], h2.ge⟩
  | deregister i =>
    obtain ⟨_, h2, _, h4, h5, _⟩ := deregister_spec hs (s.name i) (s' := (s.step (.deregister i)).1) (res := (s.step (.deregister i)).2) rfl
    exact ⟨by rw [h5], by rw [h4], h2.ge⟩
  | clear => exact ⟨rfl, rfl, le_refl _⟩
  | setParent i v =>
    simp only [State.step]
    rcases setParent_spec hs hr.1 hr.2 with ⟨_, _, _, _, h⟩ | ⟨s', _, h, _, h1, h2, _, h3, _⟩
    · rw [h]; exact ⟨rfl, rfl, le_refl _⟩
    · rw [h]
      refine ⟨?_, by rw [h3], h2.ge⟩
      simp only
      rw [h1, Function.update_of_ne]
      exact fun e => hm e
  | del i =>
    simp only [State.step, State.del]
    cases s.name i with
    | none => exact ⟨rfl, rfl, le_refl _⟩
    | some n =>
      simp only
      split_ifs
      · obtain ⟨_, h2, _, h4, h5, _⟩ := deregister_spec hs (some n) (s' := (s.deregister (some n)).1) (res := (s.deregister (some n)).2) rfl
        exact ⟨by rw [h5], by rw [h4], h2.ge⟩
      · exact ⟨rfl, rfl, le_refl _⟩

theorem path_lt {s : State} (hs : WF s) {c a : ℕ} (ha : a < s.size) {l : List ℕ} (h : PathTo s.parent c a l) : ∀ i ∈ l, i < s.size := by
  induction h with
  | here => simp
  | up _ hp _ ih =>
    intro i hi
    rcases List.mem_cons.mp hi with rfl | hi
    · exact ha
    · exact ih (hs.parent_lt _ _ hp).2 i hi

/-- Whatever is registered, updated, removed, collected or moved elsewhere in the meantime, the transforms between two frames stay the same as long as none of the frames
between them is moved. -/
theorem C82_history {s : State} {h : List Event} (hs : Reachable s h) {a b : ℕ} (ha : a < s.size) (hb : b < s.size) {up down : List ℕ}
    (hw : s.walk a (.byObj b) = .ok (up, down)) (ops : List Op) (hops : LeavesAlone (up ++ down) s ops) :
    (∀ sq, (runOps s ops).lookupTransform sq a (.byObj b) = s.lookupTransform sq a (.byObj b)) ∧
    (∀ sq arr o, (runOps s ops).transformPoints sq a arr (.byObj b) o = s.transformPoints sq a arr (.byObj b) o ∧
      (runOps s ops).transformVectors sq a arr (.byObj b) o = s.transformVectors sq a arr (.byObj b) o ∧
      (runOps s ops).transformQuaternions sq a arr (.byObj b) o = s.transformQuaternions sq a arr (.byObj b) o) := by
  have hlt : ∀ i ∈ up ++ down, i < s.size := by
    have hw0 := hw
    simp only [State.walk, State.resolve] at hw0
    rcases walk_spec hs.wf ha hb with ⟨_, h⟩ | ⟨c, u, d, hc, hu, hd, h⟩
    · rw [h] at hw0; cases hw0
    · rw [h] at hw0
      cases hw0
      intro i hi
      rcases List.mem_append.mp hi with hi | hi
      · exact path_lt hs.wf ha hu i hi
      · exact path_lt hs.wf hb hd i (by simpa using hi)
  have key : ∀ (ops : List Op) (v : State) (hv : List Event), Reachable v hv → (∀ i ∈ up ++ down, i < v.size) → LeavesAlone (up ++ down) v ops →
      (∃ hv', Reachable (runOps v ops) hv') ∧ v.size ≤ (runOps v ops).size ∧
        ∀ i ∈ up ++ down, (runOps v ops).parent i = v.parent i ∧ (runOps v ops).data i = v.data i := by
    intro ops
    induction ops with
    | nil => exact fun v hv hr _ _ => ⟨⟨hv, hr⟩, le_refl _, fun _ _ => ⟨rfl, rfl⟩⟩
    | cons op ops ih =>
      intro v hv hr hl hlv
      obtain ⟨k1, k2, k3⟩ := hlv
      have st := fun i hi => step_leaves hr.wf op k1 (hl i hi) (k2 i hi)
      have hsz : v.size ≤ (v.step op).1.size := step_size hr.wf op k1
      obtain ⟨j1, j2, j3⟩ := ih (v.step op).1 _ (.step op hr k1) (fun i hi => (hl i hi).trans_le hsz) k3
      exact ⟨j1, hsz.trans j2, fun i hi => ⟨(j3 i hi).1.trans (st i hi).1, (j3 i hi).2.trans (st i hi).2.1⟩⟩
  obtain ⟨⟨h', k1⟩, k2, k3⟩ := key ops s h hs hlt hops
  have := C82_between hs k1 ha hb (ha.trans_le k2) (hb.trans_le k2) ⟨_, _, hw, k3⟩
  exact ⟨this.2.1, this.2.2⟩

theorem step_del4 : 0 < ((Ex.s4.step (.del 0)).1.step .clear).1.size :=
  (show 0 < 4 by decide).trans_le ((step_size Ex.reach4.wf (.del 0) (show 0 < 4 by decide)).trans (le_refl _))

example (sq : SquadFn) : (runOps Ex.s4 [.del 0, .clear, .setParent 0 none]).lookupTransform sq 2 (.byObj 3) = Ex.s4.lookupTransform sq 2 (.byObj 3) := by
  have hw : Ex.s4.walk 2 (.byObj 3) = .ok ([2, 1], [3]) := by decide
  exact (C82_history Ex.reach4 (by decide) (by decide) hw [.del 0, .clear, .setParent 0 none]
    ⟨(show 0 < 4 by decide), by simp [Moves], trivial, by simp [Moves], ⟨step_del4, by simp⟩, by simp [Moves], trivial⟩).1 sq

end RBM.Props
