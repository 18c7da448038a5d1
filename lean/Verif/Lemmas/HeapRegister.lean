import Verif.Lemmas.HeapTransform

namespace RBM.Heap

open RBM

theorem data_update {s : HState} (hs : s.Sound) {m : Mem} (hm : Keeps s.mem m) (i : ℕ) (o : Option HFrame) :
    (fun j => (Function.update s.obj i o j).map (HFrame.read m)) = Function.update s.view.data i (o.map (HFrame.read m)) := by
  funext j
  by_cases h : j = i
  · subst h; simp
  · rw [Function.update_of_ne h, Function.update_of_ne h]
    change _ = (s.obj j).map (HFrame.read s.mem)
    cases ho : s.obj j with
    | none => rfl
    | some f => simp [((hs j f ho).keeps hm).2]

theorem sound_update {s : HState} (hs : s.Sound) {m : Mem} (hm : Keeps s.mem m) (st : State) (i : ℕ) {o : Option HFrame}
    (ho : ∀ f, o = some f → f.Known m) : (⟨m, st, Function.update s.obj i o⟩ : HState).Sound := by
  intro j f h
  by_cases e : j = i
  · subst e
    simp only [Function.update_self] at h
    exact ho f h
  · simp only [Function.update_of_ne e] at h
    exact ((hs j f h).keeps hm).1

/-- Registering behaves as if arrays were values, and changes no array. -/
structure Agrees {α : Type} (s : HState) (r : HState × Res α) (v : State × Res α) : Prop where
  view : r.1.view = v.1
  result : r.2 = v.2
  keeps : Keeps s.mem r.1.mem
  sound : r.1.Sound

theorem construct_agrees {s : HState} (hs : s.Sound) (n : Option String) (p : Option FrameRef) {args : HArgs} (ha : args.Known s.mem) :
    Agrees s (s.construct n p args) (s.view.construct n p (args.read s.mem)) := by
  have hfail : ∀ (m : Mem), Keeps s.mem m → ∀ (st : State) (e : PyErr) (v : State), v = { st with data := Function.update s.view.data s.st.size none } →
      Agrees (α := ℕ) s (⟨m, st, Function.update s.obj s.st.size none⟩, .error e) (v, .error e) := by
    rintro m hm st e v rfl
    exact ⟨by rw [view_with s, data_update hs hm]; rfl, rfl, hm, sound_update hs hm st _ (by simp)⟩
  unfold HState.construct State.construct
  simp only
  cases p with
  | none =>
    have hv : verifyRoot (args.read s.mem) = verifyRootH args := by
      simp only [verifyRoot, verifyRootH, HArgs.read, Option.isSome_map]
    simp only [hv]
    cases verifyRootH args with
    | error e => exact hfail s.mem (.refl _) _ _ _ rfl
    | ok u =>
      simp only
      change Agrees s _ (if args.discrete then _ else _)
      cases args.discrete with
      | true => exact hfail s.mem (.refl _) _ _ _ rfl
      | false =>
        simp only [Bool.false_eq_true, if_false]
        refine ⟨?_, rfl, .refl _, sound_update hs (.refl _) _ _ (fun f hf => ?_)⟩
        · rw [view_with s, data_update hs (.refl _)]
          simp only [State.setData, State.alloc]
          congr 1
          rw [Function.update_idem]
          rfl
        · cases hf; exact ⟨by simp, by simp⟩
  | some ref =>
    have hr : s.view.resolve ref = s.st.resolve ref := by cases ref <;> rfl
    simp only [hr]
    cases s.st.resolve ref with
    | error e => exact hfail s.mem (.refl _) _ _ _ rfl
    | ok q =>
      simp only
      have hsp : (s.view.alloc n).setParent s.view.size (some q) =
          ({ ((s.st.alloc n).setParent s.st.size (some q)).1 with data := Function.update s.view.data s.st.size none },
            ((s.st.alloc n).setParent s.st.size (some q)).2) :=
        withData_setParent (s.st.alloc n) (Function.update s.view.data s.st.size none) s.st.size (some q)
      rw [hsp]
      rcases (s.st.alloc n).setParent s.st.size (some q) with ⟨st2, e | u⟩
      · exact hfail s.mem (.refl _) _ _ _ rfl
      · simp only
        obtain ⟨m', hk, ⟨⟨t, r, ts⟩, ⟨tv, rv, l⟩, e1, e2, h1, h2, h3⟩ | ⟨e, e1, e2⟩⟩ := runs_initArrays ha
        · rw [e1, e2]
          simp only at h1 h2 h3
          have hn : ts.isNone = true ↔ l = none := by
            rw [← h3.1]; cases ts <;> simp
          have hd : (args.read s.mem).discrete = args.discrete := rfl
          simp only [hd, hn]
          by_cases hc : args.discrete = true ∧ l = none
          · simp only [if_pos hc]
            exact hfail m' hk _ _ _ rfl
          · simp only [if_neg hc]
            refine ⟨?_, rfl, hk, sound_update hs hk _ _ (fun f hf => ?_)⟩
            · rw [view_with s, data_update hs hk]
              simp only [State.setData]
              congr 1
              have hsz : s.view.size = s.st.size := rfl
              rw [hsz, Function.update_idem]
              simp only [Option.map_some, HFrame.read, h3.1]
              rw [h1.1, h2.1]
            · cases hf
              refine ⟨?_, h3.2⟩
              rintro t' r' e
              cases e
              exact ⟨h1.2, h2.2⟩
        · rw [e1, e2]
          exact hfail m' hk _ _ _ rfl

theorem register_agrees {s : HState} (hs : s.Sound) (n : Option String) (p : Option FrameRef) {args : HArgs} (ha : args.Known s.mem) (u : Bool) :
    Agrees s (s.registerFrame n p args u) (s.view.registerFrame n p (args.read s.mem) u) := by
  have h := construct_agrees hs n p ha
  unfold HState.registerFrame State.registerFrame
  rcases hc : s.construct n p args with ⟨s', r⟩
  rcases hv : s.view.construct n p (args.read s.mem) with ⟨v, r'⟩
  rw [hc, hv] at h
  obtain ⟨h1, h2, h3, h4⟩ := h
  simp only at h1 h2 h3 h4
  subst h2
  cases r with
  | error e => exact ⟨h1, rfl, h3, h4⟩
  | ok i =>
    simp only
    have hreg : v.register i u = ({ (s'.st.register i u).1 with data := s'.view.data }, (s'.st.register i u).2) := by
      rw [← h1]
      exact withData_register s'.st s'.view.data i u
    rw [hreg]
    refine ⟨?_, rfl, h3, fun j f hj => h4 j f hj⟩
    rfl

end RBM.Heap
