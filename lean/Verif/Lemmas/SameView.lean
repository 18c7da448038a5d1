import Verif.Props.Equivalent
import Verif.Lemmas.AxisSame
import Verif.Model.Velocity

/-!
Matchers of two pairs of frames with the same view give the same results.
-/

namespace RBM

open RBM.Spec RBM.Props

theorem addArrays_frames (xs : List MArray) (m : Matcher) :
    (∃ e, ∀ fr, addArrays xs ⟨fr, m.arrays⟩ = .error e) ∨ (∃ ys, ∀ fr, addArrays xs ⟨fr, m.arrays⟩ = .ok ⟨fr, ys⟩) := by
  induction xs generalizing m with
  | nil => exact .inr ⟨m.arrays, fun fr => rfl⟩
  | cons x xs ih =>
    have hx : (∃ e, ∀ fr, Matcher.addArray ⟨fr, m.arrays⟩ x = .error e) ∨
        (∀ fr, Matcher.addArray ⟨fr, m.arrays⟩ x = .ok ⟨fr, m.arrays ++ [x]⟩) := by
      simp only [Matcher.addArray]
      split
      · exact .inr fun fr => rfl
      · exact .inl ⟨_, fun fr => rfl⟩
      · split
        · exact .inl ⟨_, fun fr => rfl⟩
        · exact .inr fun fr => rfl
    rcases hx with ⟨e, he⟩ | he
    · exact .inl ⟨e, fun fr => by simp only [addArrays, he]⟩
    · rcases ih ⟨m.frames, m.arrays ++ [x]⟩ with ⟨e, h⟩ | ⟨ys, h⟩
      · exact .inl ⟨e, fun fr => by simp only [addArrays, he]; exact h fr⟩
      · exact .inr ⟨ys, fun fr => by simp only [addArrays, he]; exact h fr⟩

theorem firstStamps_ne {ls : List (List ℝ)} {r : List ℝ} (h : firstStamps ls = .ok r) : ∀ c ∈ ls, c ≠ [] := by
  induction ls generalizing r with
  | nil => simp
  | cons c ls ih =>
    cases c with
    | nil => simp [firstStamps] at h
    | cons x c =>
      cases hf : firstStamps ls with
      | error e => simp [firstStamps, hf] at h
      | ok r' =>
        intro d hd
        rcases List.mem_cons.mp hd with rfl | hd
        · simp
        · exact ih hf d hd

theorem getTimestamps_ne {m : Matcher} {af : Bool} {o : Option (List ℝ)} (h : m.getTimestamps af = .ok o) : ∀ c ∈ m.continuous, c ≠ [] := by
  simp only [Matcher.getTimestamps, Matcher.getRange] at h
  cases hf : firstStamps m.continuous with
  | error e => simp [hf] at h
  | ok r => exact firstStamps_ne hf

/-- The matchers built for two pairs of frames with the same view: they fail alike, or give the same transformation and arrays. -/
theorem sameView_matcher {sq : SquadFn} (hsq : SquadLaw sq) {s s' : State} {a b a' b' : ℕ} (hw : WF s) (hw' : WF s')
    (ha : a < s.size) (hb : b < s.size) (ha' : a' < s'.size) (hb' : b' < s'.size) (hv : SameView sq s s' a b a' b') (xs : List MArray) :
    (∃ e, s.getMatcher a (.byObj b) xs = .error e ∧ s'.getMatcher a' (.byObj b') xs = .error e) ∨
    ∃ m m', s.getMatcher a (.byObj b) xs = .ok m ∧ s'.getMatcher a' (.byObj b') xs = .ok m' ∧
      m'.getTransformation sq = m.getTransformation sq ∧ ∀ ts, m'.getArray1 sq ts = m.getArray1 sq ts := by
  have hlook := hv.lookup hsq hw hw' ha hb ha' hb'
  obtain ⟨heq, c, la, lb, c', la', lb', h1, h2, h3, h4, h5, h6, h7, h8, h9, h10⟩ := hv
  obtain ⟨fa, fb, e, f1, f2⟩ := getMatcher_ok hw ha hb h1 h2 h3 (fun i hi => by
    obtain ⟨d, k1, k2⟩ := frameOk_true.mp (h4 i hi); exact GoodData.checked k1 k2) xs
  obtain ⟨fa', fb', e', f1', f2'⟩ := getMatcher_ok hw' ha' hb' h5 h6 h7 (fun i hi => by
    obtain ⟨d, k1, k2⟩ := frameOk_true.mp (h8 i hi); exact GoodData.checked k1 k2) xs
  obtain ⟨ga, gb, E, g1, g2⟩ := getMatcher_ok hw ha hb h1 h2 h3 (fun i hi => by
    obtain ⟨d, k1, k2⟩ := frameOk_true.mp (h4 i hi); exact GoodData.checked k1 k2) []
  obtain ⟨ga', gb', E', g1', g2'⟩ := getMatcher_ok hw' ha' hb' h5 h6 h7 (fun i hi => by
    obtain ⟨d, k1, k2⟩ := frameOk_true.mp (h8 i hi); exact GoodData.checked k1 k2) []
  have uniq : ∀ {s : State} {inv : Bool} {l : List ℕ} {x y : List MFrame}, List.Forall₂ (FrameOf s inv) l x → List.Forall₂ (FrameOf s inv) l y → x = y := by
    intro s inv l x y hx
    induction hx generalizing y with
    | nil => intro hy; cases hy; rfl
    | @cons i f l fs hf _ ih =>
      intro hy
      obtain ⟨f', fs', hf', hy', rfl⟩ := List.forall₂_cons_left_iff.mp hy
      rw [ih hy']
      have e1 := hf.1; have e2 := hf'.1; have e3 := hf.2; have e4 := hf'.2
      rw [e1] at e2
      obtain ⟨t, r, ts, d, inv1⟩ := f
      obtain ⟨t', r', ts', d', inv2⟩ := f'
      simp only [MFrame.data, Option.some.injEq, FrameData.mk.injEq, Prod.mk.injEq] at e2
      simp only at e3 e4
      obtain ⟨⟨rfl, rfl⟩, rfl, rfl⟩ := e2
      rw [e3, e4]
  rw [uniq g1 f1, uniq g2 f2] at E
  rw [uniq g1' f1', uniq g2' f2'] at E'
  rcases addArrays_frames xs ⟨[], []⟩ with ⟨er, hx⟩ | ⟨ys, hx⟩
  · exact .inl ⟨er, by rw [e]; exact hx _, by rw [e']; exact hx _⟩
  · right
    refine ⟨⟨fa ++ fb, ys⟩, ⟨fa' ++ fb', ys⟩, by rw [e]; exact hx _, by rw [e']; exact hx _, ?_⟩
    have ec : (fa ++ fb).filterMap (fun f => if f.discrete then none else f.timestamps) =
        (fa' ++ fb').filterMap (fun f => if f.discrete then none else f.timestamps) := by
      rw [List.filterMap_append, List.filterMap_append, (filterMap_frames f1).1, (filterMap_frames f2).1, (filterMap_frames f1').1,
        (filterMap_frames f2').1, ← List.filterMap_append, ← List.filterMap_append]
      exact h9 false
    have ed : (fa ++ fb).filterMap (fun f => if f.discrete then f.timestamps else none) =
        (fa' ++ fb').filterMap (fun f => if f.discrete then f.timestamps else none) := by
      rw [List.filterMap_append, List.filterMap_append, (filterMap_frames f1).2, (filterMap_frames f2).2, (filterMap_frames f1').2,
        (filterMap_frames f2').2, ← List.filterMap_append, ← List.filterMap_append]
      exact h9 true
    have ets : ∀ ys af, Matcher.getTimestamps ⟨fa' ++ fb', ys⟩ af = Matcher.getTimestamps ⟨fa ++ fb, ys⟩ af := by
      intro ys af
      simp only [Matcher.getTimestamps, Matcher.getRange, Matcher.continuous, ec, ed]
    refine ⟨?_, fun ts => by cases ts <;> simp only [Matcher.getArray1, Matcher.getArrays, ets]⟩
    simp only [Matcher.getTransformation, ets]
    show Except.bind _ _ = Except.bind _ _
    refine bind_same fun ts hts => ?_
    have hloop : transLoop sq ts (fa' ++ fb') (initTranslation ts, .one 1) = transLoop sq ts (fa ++ fb) (initTranslation ts, .one 1) := by
      have good : ∀ {s : State} {inv : Bool} {l : List ℕ} {fs : List MFrame}, List.Forall₂ (FrameOf s inv) l fs → (∀ i ∈ l, FrameOk true s i) →
          ∀ f ∈ fs, GoodData f.data := by
        intro s inv l fs hf
        induction hf with
        | nil => simp
        | cons hx _ ih =>
          intro hl f hf
          rcases List.mem_cons.mp hf with rfl | hf
          · obtain ⟨d, g1, g2⟩ := frameOk_true.mp (hl _ (List.mem_cons_self ..))
            rw [hx.1] at g1; cases g1; exact g2
          · exact ih (fun i hi => hl i (List.mem_cons_of_mem _ hi)) f hf
      have hgf : ∀ f ∈ fa ++ fb, GoodData f.data := fun f hf => (List.mem_append.mp hf).elim
        (good f1 (fun i hi => h4 i (by simp [hi])) f) (good f2 (fun i hi => h4 i (by simp at hi; simp [hi])) f)
      have hgf' : ∀ f ∈ fa' ++ fb', GoodData f.data := fun f hf => (List.mem_append.mp hf).elim
        (good f1' (fun i hi => h8 i (by simp [hi])) f) (good f2' (fun i hi => h8 i (by simp at hi; simp [hi])) f)
      cases ts with
      | none =>
        -- no timestamps anywhere: this is what the lookup does
        have hnone : Matcher.getTimestamps ⟨fa ++ fb, []⟩ true = .ok none := by
          rcases getTimestamps_spec ⟨fa ++ fb, ys⟩ true (getTimestamps_ne hts) with ⟨_, _, _, _, g, _⟩ | ⟨_, _, g⟩ | ⟨k1, k2, _⟩
          · rw [hts] at g; cases g
          · rw [hts] at g; cases g
          · simp only [Matcher.continuous, List.append_eq_nil_iff] at k1
            simp only [Matcher.discretes] at k2
            simp [Matcher.getTimestamps, Matcher.getRange, Matcher.continuous, k1.1, k2, firstStamps, lastStamps, npMax, npMin]
        have L : ∀ {s : State} {a b : ℕ} {fr : List MFrame}, s.getMatcher a (.byObj b) [] = addArrays [] ⟨fr, []⟩ →
            Matcher.getTimestamps ⟨fr, []⟩ true = .ok none → s.lookupTransform sq a (.byObj b) =
              match transLoop sq none fr (.one 0, .one 1) with
              | .error e => .error e
              | .ok p => .ok (p.1, p.2, none) := by
          intro s a b fr hm ht
          simp only [State.lookupTransform, hm, addArrays, bind, Except.bind, Matcher.getTransformation, ht, initTranslation]
          cases transLoop sq none fr (.one 0, .one 1) <;> rfl
        rw [L E hnone, L E' (by rw [ets]; exact hnone)] at hlook
        simp only [initTranslation]
        revert hlook
        cases transLoop sq none (fa ++ fb) (.one 0, .one 1) <;> cases transLoop sq none (fa' ++ fb') (.one 0, .one 1) <;>
          intro hlook <;> simp_all
        rename_i p q
        exact Prod.ext hlook.1 hlook.2
      | some ts =>
        have hrange : ∀ τ ∈ ts, ∀ c ∈ Matcher.continuous ⟨fa ++ fb, ys⟩, InRange c τ := by
          classical
          rcases getTimestamps_spec ⟨fa ++ fb, ys⟩ true (getTimestamps_ne hts) with ⟨x, xs, ts0, _, g, _, g'⟩ | ⟨k1, _, _⟩ | ⟨_, _, g⟩
          · rw [hts] at g; cases g
            intro τ hτ
            rw [g' (fun t => ∀ c ∈ Matcher.continuous ⟨fa ++ fb, ys⟩, InRange c t) (fun t => Iff.rfl)] at hτ
            simpa using (List.mem_filter.mp hτ).2
          · intro τ _ c hc; rw [k1] at hc; simp at hc
          · rw [hts] at g; cases g
        have hrange' : ∀ τ ∈ ts, ∀ c ∈ Matcher.continuous ⟨fa' ++ fb', ys⟩, InRange c τ := by
          have : Matcher.continuous ⟨fa' ++ fb', ys⟩ = Matcher.continuous ⟨fa ++ fb, ys⟩ := by simp only [Matcher.continuous, ec]
          rw [this]; exact hrange
        by_cases hab : a = b
        · have hab' := heq.mp hab
          subst hab hab'
          have n1 : c = a := h1.unique hw ⟨.refl, .refl, fun d h _ => h⟩
          have n2 : c' = a' := h5.unique hw' ⟨.refl, .refl, fun d h _ => h⟩
          subst n1 n2
          have z1 := h2.unique .here; have z2 := h3.unique .here; have z3 := h6.unique .here; have z4 := h7.unique .here
          subst z1 z2 z3 z4
          cases f1; cases f2; cases f1'; cases f2'
          rfl
        · have hne : ∀ {s : State} {a b c : ℕ} {la lb : List ℕ} {fa fb : List MFrame}, a ≠ b → PathTo s.parent c a la → PathTo s.parent c b lb →
              List.Forall₂ (FrameOf s false) la fa → List.Forall₂ (FrameOf s true) lb.reverse fb → fa ++ fb ≠ [] := by
            intro s a b c la lb fa fb hab p1 p2 q1 q2 h0
            obtain ⟨rfl, rfl⟩ := List.append_eq_nil_iff.mp h0
            cases q1
            have : lb.reverse = [] := by cases h : lb.reverse with
              | nil => rfl
              | cons x y => rw [h] at q2; cases q2
            rw [List.reverse_eq_nil_iff] at this
            subst this
            cases p1; cases p2
            exact hab rfl
          have hab' : a' ≠ b' := fun h => hab (heq.mpr h)
          obtain ⟨T, t1, t2⟩ := transLoop_good sq hsq ts f1 f2 hgf
            (fun f hf τ hτ => admissible_of_continuous (m := ⟨fa ++ fb, ys⟩) (hrange τ hτ) f hf) (hne hab h2 h3 f1 f2)
          obtain ⟨T', t1', t2'⟩ := transLoop_good sq hsq ts f1' f2' hgf'
            (fun f hf τ hτ => admissible_of_continuous (m := ⟨fa' ++ fb', ys⟩) (hrange' τ hτ) f hf) (hne hab' h6 h7 f1' f2')
          have key : ∀ τ ∈ ts, T' τ = T τ := by
            intro τ hτ
            obtain ⟨Pa, Pb, p1, p2, p3, p4⟩ := t2 τ hτ
            obtain ⟨Pa', Pb', r1, r2, r3, r4⟩ := t2' τ hτ
            obtain ⟨Qa, Qb, q1, q2, _, q3⟩ := h10 τ Pa Pb p1 p2 p3
            rw [r4, p4, ← q3, poses_unique (fun i hi => h8 i (by simp [hi])) q1 r1,
              poses_unique (fun i hi => h8 i (by simp [hi])) q2 r2]
          simp only [initTranslation, t1, t1']
          congr 2
          · congr 1; exact List.map_congr_left fun τ hτ => by rw [key τ hτ]
          · congr 1; exact List.map_congr_left fun τ hτ => by rw [key τ hτ]
    rw [hloop]

end RBM
