import Verif.Lemmas.Forest

namespace RBM

open Spec

/-- A parent argument only refers to existing objects. -/
def RefOk (s : State) : Option FrameRef → Prop
  | some (.byObj i) => i < s.size
  | _ => True

theorem resolve_lt {s : State} (h : WF s) {ref : FrameRef} (hr : RefOk s (some ref)) {p : ℕ}
    (hp : s.resolve ref = .ok p) : p < s.size := by
  cases ref with
  | byObj i => simp [State.resolve] at hp; subst hp; exact hr
  | byName n =>
    simp only [State.resolve] at hp
    cases hd : dictGet s.reg n with
    | none => rw [hd] at hp; cases hp
    | some i => rw [hd] at hp; cases hp; exact (h.reg_ok n _ hd).1
  | other => simp [State.resolve] at hp

/-- After allocating a frame, attaching it to an existing one always succeeds. -/
theorem setParent_alloc {s : State} (h : WF s) (n : Option String) {p : ℕ} (hp : p < s.size) :
    ∃ s2, (s.alloc n).setParent s.size (some p) = (s2, .ok ()) ∧ WF s2 ∧
      s2.parent = Function.update s.parent s.size (some p) ∧
      s2.size = s.size + 1 ∧ s2.name = (s.alloc n).name ∧ s2.data = (s.alloc n).data ∧
      s2.reg = s.reg := by
  have hwf := wf_alloc h n
  rcases setParent_spec hwf (i := s.size) (v := some p) (by simp [State.alloc])
    (by intro q hq; cases hq; simp [State.alloc]; omega) with ⟨q, hq, _, hanc, _⟩ | ⟨s', h1, h2, h3, h4, h5, h6, h7, h8⟩
  · exfalso
    cases hq
    have hm := (RootPath.mem_iff (hwf.pathReverse (i := p) (by simp [State.alloc]; omega))).mpr hanc
    obtain ⟨l, hl⟩ := h.path p
    have hu : (s.alloc n).pathReverse p = l := by
      apply RootPath.unique (hwf.pathReverse (i := p) (by simp [State.alloc]; omega))
      rw [alloc_parent h]; exact hl
    rw [hu] at hm
    exact absurd (hl.mem_lt (fun a b hab => (h.parent_lt a b hab).2) hp _ hm) (lt_irrefl _)
  · refine ⟨s', h2, h3, ?_, by rw [h5]; rfl, h6, h7, by rw [h8]; rfl⟩
    rw [h4, alloc_parent h]

theorem construct_spec {s : State} (h : WF s) (n : Option String) (ref : Option FrameRef)
    (args : FrameArgs) (hr : RefOk s ref) {s' : State} {res : Res ℕ}
    (hc : s.construct n ref args = (s', res)) :
    WF s' ∧ s'.size = s.size + 1 ∧ s'.reg = s.reg ∧
      s'.name = Function.update s.name s.size n ∧
      (∀ j, j ≠ s.size → s'.parent j = s.parent j) ∧
      (∀ j, j ≠ s.size → s'.data j = s.data j) ∧
      (∀ i, res = .ok i → i = s.size) := by
  have hwf := wf_alloc h n
  have hpar := alloc_parent h n
  unfold State.construct at hc
  cases ref with
  | none =>
    simp only at hc
    cases hv : verifyRoot args with
    | error e =>
      rw [hv] at hc; simp only [Prod.mk.injEq] at hc; obtain ⟨rfl, rfl⟩ := hc
      refine ⟨hwf, rfl, rfl, rfl, fun j _ => by rw [hpar], ?_, by simp⟩
      intro j hj; simp [State.alloc, Function.update_of_ne hj]
    | ok _ =>
      rw [hv] at hc
      by_cases hd : args.discrete = true
      · simp only [hd, if_true, Prod.mk.injEq] at hc; obtain ⟨rfl, rfl⟩ := hc
        refine ⟨hwf, rfl, rfl, rfl, fun j _ => by rw [hpar], ?_, by simp⟩
        intro j hj; simp [State.alloc, Function.update_of_ne hj]
      · simp only [hd] at hc
        simp only [Bool.false_eq_true, if_false, Prod.mk.injEq] at hc; obtain ⟨rfl, rfl⟩ := hc
        refine ⟨wf_setData hwf _ _, rfl, rfl, rfl, ?_, ?_, ?_⟩
        · intro j hj; show (s.alloc n).parent j = _; rw [hpar]
        · intro j hj; simp [State.setData, State.alloc, Function.update_of_ne hj]
        · rintro i hi; cases hi; rfl
  | some ref =>
    simp only at hc
    cases hres : s.resolve ref with
    | error e =>
      rw [hres] at hc; simp only [Prod.mk.injEq] at hc; obtain ⟨rfl, rfl⟩ := hc
      refine ⟨hwf, rfl, rfl, rfl, fun j _ => by rw [hpar], ?_, by simp⟩
      intro j hj; simp [State.alloc, Function.update_of_ne hj]
    | ok p =>
      rw [hres] at hc
      obtain ⟨s2, e2, hwf2, hp2, hs2, hn2, hd2, hr2⟩ := setParent_alloc h n (resolve_lt h hr hres)
      simp only [e2] at hc
      have hparj : ∀ j, j ≠ s.size → s2.parent j = s.parent j := by
        intro j hj; rw [hp2, Function.update_of_ne hj]
      have hdataj : ∀ j, j ≠ s.size → s2.data j = s.data j := by
        intro j hj; rw [hd2]; simp [State.alloc, Function.update_of_ne hj]
      cases hi : initArrays args with
      | error e =>
        rw [hi] at hc; simp only [Prod.mk.injEq] at hc; obtain ⟨rfl, rfl⟩ := hc
        exact ⟨hwf2, hs2, hr2, by rw [hn2]; rfl, hparj, hdataj, by simp⟩
      | ok x =>
        obtain ⟨t, r, ts⟩ := x
        rw [hi] at hc
        simp only at hc
        split at hc
        · simp only [Prod.mk.injEq] at hc; obtain ⟨rfl, rfl⟩ := hc
          exact ⟨hwf2, hs2, hr2, by rw [hn2]; rfl, hparj, hdataj, by simp⟩
        · simp only [Prod.mk.injEq] at hc; obtain ⟨rfl, rfl⟩ := hc
          refine ⟨wf_setData hwf2 _ _, hs2, hr2, by show s2.name = _; rw [hn2]; rfl, hparj, ?_, ?_⟩
          · intro j hj; simp [State.setData, Function.update_of_ne hj, hdataj j hj]
          · rintro i hi; cases hi; rfl

/-- Complete description of `_register`. -/
theorem register_spec {s : State} (h : WF s) {i : ℕ} (hi : i < s.size) (u : Bool) {s' : State}
    {res : Res Unit} (hc : s.register i u = (s', res)) :
    WF s' ∧ s'.size = s.size ∧ s'.name = s.name ∧ s'.data = s.data ∧
    ((res = .error .valueError ∧ s' = s ∧
        (s.name i = none ∨ (u = false ∧ ∃ n o, s.name i = some n ∧ dictGet s.reg n = some o))) ∨
     (res = .ok () ∧ ∃ n, s.name i = some n ∧ s'.reg = dictSet s.reg n i ∧
        ((dictGet s.reg n = none ∧ s'.parent = s.parent) ∨
         (u = true ∧ ∃ o, dictGet s.reg n = some o ∧
            s'.parent = Function.update s.parent o none)))) := by
  unfold State.register at hc
  cases hn : s.name i with
  | none =>
    rw [hn] at hc; simp only [Prod.mk.injEq] at hc; obtain ⟨rfl, rfl⟩ := hc
    exact ⟨h, rfl, rfl, rfl, .inl ⟨rfl, rfl, .inl rfl⟩⟩
  | some n =>
    rw [hn] at hc
    simp only at hc
    have hset : ∀ (d : List (String × ℕ)), (∀ m k, dictGet d m = some k → k < s.size ∧ s.name k = some m) →
        ∀ m k, dictGet (dictSet d n i) m = some k → k < s.size ∧ s.name k = some m := by
      intro d hd m k hk
      rw [dictGet_set] at hk
      split at hk
      · cases hk; subst m; exact ⟨hi, hn⟩
      · exact hd m k hk
    cases hd : dictGet s.reg n with
    | none =>
      rw [hd] at hc; simp only [Prod.mk.injEq] at hc; obtain ⟨rfl, rfl⟩ := hc
      exact ⟨wf_reg h _ (hset _ h.reg_ok), rfl, rfl, rfl, .inr ⟨rfl, n, rfl, rfl, .inl ⟨hd, rfl⟩⟩⟩
    | some o =>
      rw [hd] at hc
      simp only at hc
      have ho := h.reg_ok n o hd
      cases u with
      | false =>
        simp only [Bool.false_eq_true, if_false, Prod.mk.injEq] at hc
        obtain ⟨rfl, rfl⟩ := hc
        exact ⟨h, rfl, rfl, rfl, .inl ⟨rfl, rfl, .inr ⟨rfl, n, o, rfl, hd⟩⟩⟩
      | true =>
        simp only [if_true] at hc
        rcases setParent_spec h (i := o) (v := none) ho.1 (by simp) with
          ⟨q, hq, _⟩ | ⟨s2, _, e2, hwf2, hp2, hs2, hn2, hd2, hr2⟩
        · cases hq
        · simp only [e2, Prod.mk.injEq] at hc
          obtain ⟨rfl, rfl⟩ := hc
          refine ⟨wf_reg hwf2 _ ?_, hs2, hn2, hd2, .inr ⟨rfl, n, rfl, by simp [hr2], .inr ⟨rfl, o, hd, hp2⟩⟩⟩
          rw [hr2, hs2, hn2]; exact hset _ h.reg_ok

theorem deregister_spec {s : State} (h : WF s) (n : Option String) {s' : State}
    {res : Res Unit} (hc : s.deregister n = (s', res)) :
    WF s' ∧ s'.size = s.size ∧ s'.name = s.name ∧ s'.data = s.data ∧ s'.parent = s.parent ∧
    s'.children = s.children ∧
    ((n = none ∧ res = .error .typeError ∧ s' = s) ∨
     (∃ m, n = some m ∧ dictGet s.reg m = none ∧ res = .error .valueError ∧ s' = s) ∨
     (∃ m i, n = some m ∧ dictGet s.reg m = some i ∧ res = .ok () ∧ s'.reg = dictPop s.reg m)) := by
  unfold State.deregister at hc
  cases n with
  | none =>
    simp only [Prod.mk.injEq] at hc; obtain ⟨rfl, rfl⟩ := hc
    exact ⟨h, rfl, rfl, rfl, rfl, rfl, .inl ⟨rfl, rfl, rfl⟩⟩
  | some m =>
    simp only at hc
    cases hd : dictGet s.reg m with
    | none =>
      rw [hd] at hc; simp only [Prod.mk.injEq] at hc; obtain ⟨rfl, rfl⟩ := hc
      exact ⟨h, rfl, rfl, rfl, rfl, rfl, .inr (.inl ⟨m, rfl, hd, rfl, rfl⟩)⟩
    | some i =>
      rw [hd] at hc; simp only [Prod.mk.injEq] at hc; obtain ⟨rfl, rfl⟩ := hc
      refine ⟨wf_reg h _ ?_, rfl, rfl, rfl, rfl, rfl, .inr (.inr ⟨m, i, rfl, hd, rfl, rfl⟩)⟩
      intro k j hk
      rw [dictGet_pop] at hk
      split at hk
      · cases hk
      · exact h.reg_ok k j hk

theorem refOk_of_refers_construct {s : State} {n p a} (h : (Op.construct n p a).Refers s) :
    RefOk s p := by
  cases p with
  | none => trivial
  | some r => cases r <;> first | trivial | exact h

theorem refOk_of_refers_registerFrame {s : State} {n p a u}
    (h : (Op.registerFrame n p a u).Refers s) : RefOk s p := by
  cases p with
  | none => trivial
  | some r => cases r <;> first | trivial | exact h

theorem wf_step {s : State} (h : WF s) (op : Op) (hr : op.Refers s) : WF (s.step op).1 := by
  cases op with
  | construct n p a =>
    have hro := refOk_of_refers_construct hr
    rcases hc : s.construct n p a with ⟨s', res⟩
    have := (construct_spec h n p a hro hc).1
    cases res <;> simp only [State.step, hc] <;> exact this
  | registerFrame n p a u =>
    have hro := refOk_of_refers_registerFrame hr
    rcases hc : s.construct n p a with ⟨s', res⟩
    have hs := construct_spec h n p a hro hc
    cases res with
    | error e => simp only [State.step, State.registerFrame, hc]; exact hs.1
    | ok i =>
      simp only [State.step, State.registerFrame, hc]
      have hi := hs.2.2.2.2.2.2 i rfl
      exact (register_spec hs.1 (i := i) (by omega) u rfl).1
  | register i u => exact (register_spec h hr u rfl).1
  | deregisterFrame n => exact (deregister_spec h (some n) rfl).1
  | deregister i => exact (deregister_spec h (s.name i) rfl).1
  | clear => exact wf_reg h [] (by simp [dictGet])
  | setParent i v =>
    rcases setParent_spec h hr.1 hr.2 with ⟨_, _, _, _, e⟩ | ⟨_, _, e, hw, _⟩
    · simp only [State.step, e]; exact h
    · simp only [State.step, e]; exact hw
  | del i =>
    simp only [State.step, State.del]
    cases hn : s.name i with
    | none => exact h
    | some n =>
      simp only
      split
      · exact (deregister_spec h (some n) rfl).1
      · exact h

theorem Spec.Reachable.wf {s : State} {h : List Event} (hr : Reachable s h) : WF s := by
  induction hr with
  | init => exact wf_init
  | step op _ href ih => exact wf_step ih op href

/-- The registry is exactly the owner function of the history. -/
theorem Spec.Reachable.owner {s : State} {h : List Event} (hr : Reachable s h) (m : String) :
    dictGet s.reg m = Spec.owner h m := by
  induction hr generalizing m with
  | init => simp [State.init, dictGet, Spec.owner]
  | @step s h op hre href ih =>
    have hwf := hre.wf
    cases op with
    | construct n p a =>
      have hro := refOk_of_refers_construct href
      rcases hc : s.construct n p a with ⟨s', res⟩
      have := (construct_spec hwf n p a hro hc).2.2.1
      cases res <;> simp only [State.step, hc, eventOf, List.nil_append] <;> rw [this, ih]
    | registerFrame n p a u =>
      have hro := refOk_of_refers_registerFrame href
      rcases hc : s.construct n p a with ⟨s', res⟩
      have hs := construct_spec hwf n p a hro hc
      cases res with
      | error e =>
        simp only [State.step, State.registerFrame, hc]
        cases n <;> simp only [eventOf, List.nil_append] <;> rw [hs.2.2.1, ih]
      | ok i =>
        simp only [State.step, State.registerFrame, hc]
        have hi := hs.2.2.2.2.2.2 i rfl
        rcases hc2 : s'.register i u with ⟨s2, res2⟩
        have hnm : s'.name i = n := by rw [hs.2.2.2.1, hi]; simp
        rcases (register_spec hs.1 (i := i) (by omega) u hc2).2.2.2.2 with
          ⟨e1, e2, _⟩ | ⟨e1, k, e2, e3, _⟩
        · subst e1 e2
          cases n <;> simp only [eventOf, List.nil_append] <;> rw [hs.2.2.1, ih]
        · subst e1
          rw [hnm] at e2; subst e2
          simp only [eventOf, List.cons_append, List.nil_append, Spec.owner]
          rw [e3, dictGet_set, hs.2.2.1, ih, hi]
    | register i u =>
      rcases hc : s.register i u with ⟨s2, res2⟩
      rcases (register_spec hwf href u hc).2.2.2.2 with ⟨e1, e2, _⟩ | ⟨e1, k, e2, e3, _⟩
      · subst e1 e2; simp only [State.step, hc, eventOf, List.nil_append]; exact ih m
      · subst e1
        simp only [State.step, hc, eventOf, e2, List.cons_append, List.nil_append, Spec.owner]
        rw [e3, dictGet_set, ih]
    | deregisterFrame n =>
      rcases hc : s.deregister (some n) with ⟨s2, res2⟩
      rcases (deregister_spec hwf (some n) hc).2.2.2.2.2.2 with
        ⟨e1, _, _⟩ | ⟨k, _, _, e1, e2⟩ | ⟨k, i, e0, _, e1, e2⟩
      · cases e1
      · subst e1 e2; simp only [State.step, hc, eventOf, List.nil_append]; exact ih m
      · subst e1; cases e0
        simp only [State.step, hc, eventOf, List.cons_append, List.nil_append, Spec.owner]
        rw [e2, dictGet_pop, ih]
    | deregister j =>
      rcases hc : s.deregister (s.name j) with ⟨s2, res2⟩
      rcases (deregister_spec hwf (s.name j) hc).2.2.2.2.2.2 with
        ⟨_, e1, e2⟩ | ⟨k, _, _, e1, e2⟩ | ⟨k, i, e0, _, e1, e2⟩
      · subst e1 e2; simp only [State.step, hc, eventOf, List.nil_append]; exact ih m
      · subst e1 e2; simp only [State.step, hc, eventOf, List.nil_append]; exact ih m
      · subst e1
        simp only [State.step, hc, eventOf]
        simp only [e0, List.cons_append, List.nil_append, Spec.owner]
        rw [e2, dictGet_pop, ih]
    | clear => simp [State.step, eventOf, Spec.owner, dictGet]
    | setParent i v =>
      rcases setParent_spec hwf href.1 href.2 with ⟨_, _, _, _, e⟩ | ⟨s', _, e, _, _, _, _, _, e8⟩
      · simp only [State.step, e, eventOf, List.nil_append]; exact ih m
      · simp only [State.step, e, eventOf, List.nil_append]; rw [e8]; exact ih m
    | del i =>
      have key : ((s.del i).2 = .ok ()) ∧ dictGet (s.del i).1.reg m =
          if dictGet s.reg m = some i then none else dictGet s.reg m := by
        simp only [State.del]
        cases hn : s.name i with
        | none =>
          refine ⟨rfl, ?_⟩
          by_cases hd : dictGet s.reg m = some i
          · rw [(hwf.reg_ok _ _ hd).2] at hn; cases hn
          · rw [if_neg hd]
        | some n =>
          simp only
          split
          · rename_i hd
            rcases hc : s.deregister (some n) with ⟨s2, res2⟩
            rcases (deregister_spec hwf (some n) hc).2.2.2.2.2.2 with
              ⟨e1, _, _⟩ | ⟨k, e0, e3, e1, e2⟩ | ⟨k, i', e0, e4, e1, e2⟩
            · cases e1
            · cases e0; rw [hd] at e3; cases e3
            · cases e0
              refine ⟨e1, ?_⟩
              simp only
              rw [e2, dictGet_pop]
              split
              · subst m; simp [hd]
              · rename_i hne
                rw [if_neg]
                intro hm
                have := (hwf.reg_ok _ _ hm).2
                rw [hn] at this; cases this; exact hne rfl
          · rename_i hd
            refine ⟨rfl, ?_⟩
            rw [if_neg]
            intro hm
            have := (hwf.reg_ok _ _ hm).2
            rw [hn] at this; cases this; exact hd hm
      rcases hdel : s.del i with ⟨s2, res2⟩
      rw [hdel] at key
      obtain ⟨k1, k2⟩ := key
      simp only at k1 k2
      subst k1
      simp only [State.step, hdel, eventOf, List.cons_append, List.nil_append, Spec.owner]
      rw [k2, ih]

end RBM
