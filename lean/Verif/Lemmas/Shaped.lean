import Verif.Lemmas.Single
import Verif.Lemmas.Registry

/-!
The attributes of every frame have matching shapes.
-/

namespace RBM

open RBM.Spec RBM.Props

/-- The shapes of the attributes fit together. -/
def FrameData.Shaped (d : FrameData) : Prop :=
  match d.pose, d.timestamps with
  | none, _ => True
  | some (.one _, .one _), none => True
  | some (.many t, .many r), some ts => t.length = ts.length ∧ r.length = ts.length
  | _, _ => False

theorem setParent_data (s : State) (i : ℕ) (v : Option ℕ) : (s.setParent i v).1.data = s.data := by
  unfold State.setParent
  split_ifs
  · rfl
  cases s.checkLoop i v with
  | error e => rfl
  | ok u =>
    simp only [State.detach]
    cases s.parent i with
    | none => cases v with
      | none => rfl
      | some p => simp only [State.attach]; split_ifs <;> rfl
    | some q =>
      simp only
      by_cases h : i ∈ s.children q
      · simp only [if_pos h]
        cases v with
        | none => rfl
        | some p => simp only [State.attach]; split_ifs <;> rfl
      · simp only [if_neg h]

theorem register_data (s : State) (i : ℕ) (u : Bool) : (s.register i u).1.data = s.data := by
  unfold State.register
  cases s.name i with
  | none => rfl
  | some n =>
    simp only
    cases dictGet s.reg n with
    | none => rfl
    | some o =>
      simp only
      cases u with
      | false => rfl
      | true =>
        simp only [if_true]
        have := setParent_data s o none
        cases e : s.setParent o none with
        | mk s' r => rw [e] at this; cases r <;> exact this

theorem deregister_data (s : State) (n : Option String) : (s.deregister n).1.data = s.data := by
  cases n with
  | none => rfl
  | some n => simp only [State.deregister]; cases dictGet s.reg n <;> rfl

theorem initArrays_shaped {args : FrameArgs} {t : Arr Vec} {r : Arr Quat} {ts : Option (List ℝ)} (h : initArrays args = .ok (t, r, ts)) (disc : Bool) :
    FrameData.Shaped ⟨some (t, r), ts, disc⟩ := by
  simp only [initArrays, bind] at h
  obtain ⟨ts0, _, h⟩ := bind_ok' h
  obtain ⟨t0, ht, h⟩ := bind_ok' h
  obtain ⟨r0, hr, h⟩ := bind_ok' h
  have h0 : FrameData.Shaped ⟨some (t0, r0), ts0, disc⟩ := by
    cases ts0 with
    | none =>
      have h1 : ∃ v, t0 = .one v := by
        cases ha : args.translation with
        | none => rw [ha] at ht; cases ht; exact ⟨_, rfl⟩
        | some a => rw [ha] at ht; simp only [initTranslationArg] at ht; split_ifs at ht; cases ht; exact ⟨_, rfl⟩
      have h2 : ∃ v, r0 = .one v := by
        cases ha : args.rotation with
        | none => rw [ha] at hr; cases hr; exact ⟨_, rfl⟩
        | some a => rw [ha] at hr; simp only [initRotationArg] at hr; split_ifs at hr; cases hr; exact ⟨_, rfl⟩
      obtain ⟨v, rfl⟩ := h1
      obtain ⟨q, rfl⟩ := h2
      trivial
    | some l =>
      have h1 : ∃ v, t0 = .many v ∧ v.length = l.length := by
        cases ha : args.translation with
        | none => rw [ha] at ht; cases ht; exact ⟨_, rfl, by simp⟩
        | some a => rw [ha] at ht; simp only [initTranslationArg] at ht; split_ifs at ht; cases ht; exact ⟨_, rfl, by simp [vecRows]⟩
      have h2 : ∃ v, r0 = .many v ∧ v.length = l.length := by
        cases ha : args.rotation with
        | none => rw [ha] at hr; cases hr; exact ⟨_, rfl, by simp⟩
        | some a => rw [ha] at hr; simp only [initRotationArg] at hr; split_ifs at hr; cases hr; exact ⟨_, rfl, (List.length_map _).trans List.length_range⟩
      obtain ⟨v, rfl, hv⟩ := h1
      obtain ⟨q, rfl, hq⟩ := h2
      exact ⟨hv, hq⟩
  cases hi : args.inverse with
  | false => rw [hi] at h; cases h; exact h0
  | true =>
    rw [hi, if_pos rfl] at h
    obtain ⟨r1, h1, h⟩ := bind_ok' h
    obtain ⟨t1, h2, h⟩ := bind_ok' h
    cases h
    cases t0 with
    | one v =>
      cases r0 with
      | many q => cases ts <;> cases h0
      | one q =>
        cases ts with
        | some l => cases h0
        | none =>
          simp only [qinvArr] at h1
          split_ifs at h1
          cases h1
          simp only [rotateVectors] at h2
          split_ifs at h2
          cases h2
          trivial
    | many v =>
      cases r0 with
      | one q => cases ts <;> cases h0
      | many q =>
        cases ts with
        | none => cases h0
        | some l =>
          obtain ⟨a1, a2⟩ := h0
          simp only [qinvArr] at h1
          split_ifs at h1
          cases h1
          have e : ((q.map (·⁻¹)).length) = v.length := by rw [List.length_map]; exact a2.trans a1.symm
          simp only [rotateVectors, Arr.bzip, e, if_true] at h2
          split_ifs at h2
          cases h2
          simp only [FrameData.Shaped, Arr.map, List.length_map, List.length_zipWith]
          omega

theorem construct_shaped {s : State} (h : ∀ i d, s.data i = some d → d.Shaped) (n : Option String) (p : Option FrameRef) (args : FrameArgs) :
    ∀ i d, (s.construct n p args).1.data i = some d → d.Shaped := by
  have h1 : ∀ i d, (s.alloc n).data i = some d → d.Shaped := by
    intro i d hd
    simp only [State.alloc, Function.update_apply] at hd
    split at hd
    · cases hd
    · exact h i d hd
  unfold State.construct
  cases p with
  | none =>
    simp only
    cases verifyRoot args with
    | error e => exact h1
    | ok u =>
      simp only
      split_ifs
      · exact h1
      · intro i d hd
        simp only [State.setData, Function.update_apply] at hd
        split at hd
        · cases hd; trivial
        · exact h1 i d hd
  | some ref =>
    simp only
    cases s.resolve ref with
    | error e => exact h1
    | ok q =>
      simp only
      have h2 := setParent_data (s.alloc n) s.size (some q)
      cases e : (s.alloc n).setParent s.size (some q) with
      | mk s2 res =>
        rw [e] at h2
        simp only at h2
        cases res with
        | error x => simp only [h2]; exact h1
        | ok u =>
          simp only
          cases e3 : initArrays args with
          | error x => simp only [h2]; exact h1
          | ok y =>
            obtain ⟨t, r, ts⟩ := y
            simp only
            split_ifs
            · simp only [h2]; exact h1
            · intro i d hd
              simp only [State.setData, Function.update_apply] at hd
              split at hd
              · cases hd; exact initArrays_shaped e3 _
              · rw [h2] at hd; exact h1 i d hd

/-- In every reachable state the attributes of every frame fit together. -/
theorem Spec.Reachable.shaped {s : State} {h : List Event} (hr : Reachable s h) : ∀ i d, s.data i = some d → d.Shaped := by
  induction hr with
  | init => intro i d hd; cases hd
  | @step s h op hr ho ih =>
    cases op with
    | construct n p a =>
      have := construct_shaped ih n p a
      simp only [State.step]
      cases e : s.construct n p a with
      | mk s' r => rw [e] at this; cases r <;> exact this
    | registerFrame n p a u =>
      have := construct_shaped ih n p a
      simp only [State.step, State.registerFrame]
      cases e : s.construct n p a with
      | mk s' r =>
        rw [e] at this
        cases r with
        | error x => exact this
        | ok i => simp only [register_data]; exact this
    | register i u => simp only [State.step, register_data]; exact ih
    | deregisterFrame n => simp only [State.step, deregister_data]; exact ih
    | deregister i => simp only [State.step, deregister_data]; exact ih
    | clear => exact ih
    | setParent i v => simp only [State.step, setParent_data]; exact ih
    | del i =>
      simp only [State.step, State.del]
      cases s.name i with
      | none => exact ih
      | some n =>
        simp only
        split_ifs
        · simp only [deregister_data]; exact ih
        · exact ih

theorem discreteRows_length {α} {rows : List α} {events ts : List ℝ} {out : List α} (h : discreteRows rows events ts = .ok out) : out.length = ts.length := by
  classical
  unfold discreteRows at h
  cases rows with
  | nil => cases h
  | cons r0 rs =>
    simp only at h
    cases h
    have key : ∀ (l : List (α × ℝ)) (o : List α), o.length = ts.length →
        (l.foldl (fun out ev => List.zipWith (fun o τ => if τ ≥ ev.2 then ev.1 else o) out ts) o).length = ts.length := by
      intro l
      induction l with
      | nil => intro o ho; exact ho
      | cons e l ih => intro o ho; exact ih _ (by simp [ho])
    exact key _ _ (by simp)

theorem collect_len {α} {l : List (Res α)} {out : List α} (h : collect l = .ok out) : out.length = l.length := by
  induction l generalizing out with
  | nil => cases h; rfl
  | cons x l ih =>
    cases x with
    | error e => cases h
    | ok a =>
      simp only [collect] at h
      cases e : collect l with
      | error y => rw [e] at h; cases h
      | ok r => rw [e] at h; cases h; simp [ih e]

theorem interp1d_length {V} [AddCommGroup V] [Module ℝ V] {xs : List ℝ} {ys : List V} {ts : List ℝ} {out : List V} (h : interp1d xs ys ts = .ok out) :
    out.length = ts.length := by
  unfold interp1d at h
  split_ifs at h
  simpa using collect_len h

/-- Shapes of the pose of one frame at the timestamps of the result. -/
theorem transformFromFrame_shape {sq : SquadFn} {f : MFrame} {ts : List ℝ} {p : Arr Vec × Arr Quat}
    (h1 : f.timestamps = none → ∃ t r, f.translation = .one t ∧ f.rotation = .one r)
    (h2 : ∀ fts tr ro, f.discrete = false → f.timestamps = some fts → f.translation = .many tr → f.rotation = .many ro → ro ≠ [])
    (h : transformFromFrame sq f (some ts) = .ok p) :
    ∃ tl rl, p = (.many tl, .many rl) ∧ tl.length = ts.length ∧ rl.length = ts.length := by
  unfold transformFromFrame at h
  cases e : f.timestamps with
  | none =>
    obtain ⟨t, r, et, er⟩ := h1 e
    rw [e, et, er] at h
    cases h
    exact ⟨_, _, rfl, by simp [tileRows], by simp [tileRows]⟩
  | some fts =>
    rw [e] at h
    simp only at h
    cases et : f.translation with
    | one t => rw [et] at h; cases h
    | many tr =>
      cases er : f.rotation with
      | one r => rw [et, er] at h; cases h
      | many ro =>
        rw [et, er] at h
        simp only at h
        split_ifs at h with hdisc
        · cases e1 : discreteRows tr fts ts with
          | error x => rw [e1] at h; cases h
          | ok t =>
            cases e2 : discreteRows ro fts ts with
            | error x => rw [e1, e2] at h; cases h
            | ok r => rw [e1, e2] at h; cases h; exact ⟨_, _, rfl, discreteRows_length e1, discreteRows_length e2⟩
        · cases e1 : interp1d fts tr ts with
          | error x => rw [e1] at h; cases h
          | ok t =>
            cases e2 : squad sq ro fts ts with
            | error x => rw [e1, e2] at h; cases h
            | ok r =>
              rw [e1, e2] at h
              cases h
              refine ⟨_, _, rfl, interp1d_length e1, ?_⟩
              unfold squad at e2
              split_ifs at e2 with g1 g2
              · cases e2
                rcases g1 with g1 | g1
                · exact absurd g1 (h2 fts tr ro (by simpa using hdisc) e et er)
                · rw [g1]; rfl
              · cases e2; simp

/-- The accumulated pose before (`seen = false`) and after the first frame. -/
def AccShape (n : ℕ) (seen : Bool) (acc : Arr Vec × Arr Quat) : Prop :=
  match seen with
  | false => ∃ v q, acc = (.many [v], .one q)
  | true => ∃ tl rl, acc = (.many tl, .many rl) ∧ tl.length = n ∧ rl.length = n

theorem bzip_len {α β γ} {f : α → β → γ} {a : List α} {b : List β} {n : ℕ} {out : Arr γ} (ha : a.length = n ∨ a.length = 1) (hb : b.length = n)
    (h : Arr.bzip f (.many a) (.many b) = .ok out) : ∃ l, out = .many l ∧ l.length = n := by
  simp only [Arr.bzip] at h
  split_ifs at h with g
  · cases h; exact ⟨_, rfl, by simp; omega⟩
  · rcases ha with ha | ha
    · omega
    · obtain ⟨x, rfl⟩ := List.length_eq_one_iff.mp ha
      cases h
      exact ⟨_, rfl, by simpa using hb⟩

theorem bzip_len' {α β γ} {f : α → β → γ} {a : List α} {b : List β} {n : ℕ} {out : Arr γ} (ha : a.length = n) (hb : b.length = n ∨ b.length = 1)
    (h : Arr.bzip f (.many a) (.many b) = .ok out) : ∃ l, out = .many l ∧ l.length = n := by
  simp only [Arr.bzip] at h
  split_ifs at h with g
  · cases h; exact ⟨_, rfl, by simp; omega⟩
  · rcases hb with hb | hb
    · omega
    · obtain ⟨x, rfl⟩ := List.length_eq_one_iff.mp hb
      split at h
      · rename_i e
        simp at g
      · cases h; exact ⟨_, rfl, by simpa using ha⟩
      · rename_i h1 h2
        exact (h2 _ rfl).elim

theorem rotateVectors_len {q : List Quat} {v : List Vec} {n : ℕ} {out : Arr Vec} (hq : q.length = n) (hv : v.length = n ∨ v.length = 1)
    (h : rotateVectors (.many q) (.many v) = .ok out) : ∃ l, out = .many l ∧ l.length = n := by
  simp only [rotateVectors] at h
  cases e : Arr.bzip rotateCrossForm (.many q) (.many v) with
  | error x => rw [e] at h; cases h
  | ok y =>
    rw [e] at h
    simp only at h
    split_ifs at h
    cases h
    exact bzip_len' hq hv e

theorem qinvArr_len {q : List Quat} {out : Arr Quat} (h : qinvArr (.many q) = .ok out) : ∃ l, out = .many l ∧ l.length = q.length := by
  simp only [qinvArr] at h
  split_ifs at h
  cases h
  exact ⟨_, rfl, by simp⟩

theorem transStep_shape {sq : SquadFn} {ts : List ℝ} {f : MFrame} {seen : Bool} {acc acc' : Arr Vec × Arr Quat} (ha : AccShape ts.length seen acc)
    (hf : ∀ p, transformFromFrame sq f (some ts) = .ok p → ∃ tl rl, p = (.many tl, .many rl) ∧ tl.length = ts.length ∧ rl.length = ts.length)
    (h : transStep sq (some ts) f acc = .ok acc') : AccShape ts.length true acc' := by
  simp only [transStep, bind] at h
  obtain ⟨p, hp, h⟩ := bind_ok' h
  obtain ⟨tl, rl, rfl, h1, h2⟩ := hf p hp
  simp only at h
  have a1 : ∃ l, acc.1 = .many l ∧ (l.length = ts.length ∨ l.length = 1) := by
    cases seen with
    | false => obtain ⟨v, q, rfl⟩ := ha; exact ⟨_, rfl, .inr rfl⟩
    | true => obtain ⟨t, r, rfl, e1, _⟩ := ha; exact ⟨_, rfl, .inl e1⟩
  have a2 : ∀ {l : List Quat} {out : Arr Quat}, l.length = ts.length → Arr.bzip (fun a b => a * b) (.many l) acc.2 = .ok out →
      ∃ r, out = .many r ∧ r.length = ts.length := by
    intro l out hl e
    cases seen with
    | false => obtain ⟨v, q, rfl⟩ := ha; simp only [Arr.bzip] at e; cases e; exact ⟨_, rfl, by simpa using hl⟩
    | true => obtain ⟨t, r, rfl, _, e2⟩ := ha; exact bzip_len (.inl hl) e2 e
  obtain ⟨at1, e1, h3⟩ := a1
  rw [e1] at h
  split_ifs at h
  · obtain ⟨ri, g1, h⟩ := bind_ok' h
    obtain ⟨d, g2, h⟩ := bind_ok' h
    obtain ⟨t', g3, h⟩ := bind_ok' h
    obtain ⟨r', g4, h⟩ := bind_ok' h
    cases h
    obtain ⟨il, rfl, k1⟩ := qinvArr_len g1
    obtain ⟨dl, rfl, k2⟩ := bzip_len h3 h1 g2
    obtain ⟨tl', rfl, k3⟩ := rotateVectors_len (k1.trans h2) (.inl k2) g3
    obtain ⟨rl', rfl, k4⟩ := a2 (k1.trans h2) g4
    exact ⟨_, _, rfl, k3, k4⟩
  · obtain ⟨d, g2, h⟩ := bind_ok' h
    obtain ⟨t', g3, h⟩ := bind_ok' h
    obtain ⟨r', g4, h⟩ := bind_ok' h
    cases h
    obtain ⟨dl, rfl, k2⟩ := rotateVectors_len h2 h3 g2
    obtain ⟨tl', rfl, k3⟩ := bzip_len (.inl k2) h1 g3
    obtain ⟨rl', rfl, k4⟩ := a2 h2 g4
    exact ⟨_, _, rfl, k3, k4⟩

theorem transLoop_shape {sq : SquadFn} {ts : List ℝ} {fs : List MFrame} {seen : Bool} {acc acc' : Arr Vec × Arr Quat} (ha : AccShape ts.length seen acc)
    (hf : ∀ f ∈ fs, ∀ p, transformFromFrame sq f (some ts) = .ok p → ∃ tl rl, p = (.many tl, .many rl) ∧ tl.length = ts.length ∧ rl.length = ts.length)
    (hs : seen = true ∨ fs ≠ []) (h : transLoop sq (some ts) fs acc = .ok acc') : AccShape ts.length true acc' := by
  induction fs generalizing acc seen with
  | nil =>
    cases h
    rcases hs with rfl | hs
    · exact ha
    · exact absurd rfl hs
  | cons f fs ih =>
    simp only [transLoop] at h
    cases e : transStep sq (some ts) f acc with
    | error x => rw [e] at h; cases h
    | ok a1 =>
      rw [e] at h
      exact ih (transStep_shape ha (hf f (by simp)) e) (fun g hg => hf g (by simp [hg])) (.inl rfl) h

theorem transLoop_static_shape {sq : SquadFn} {fs : List MFrame} {t : Vec} {r : Quat} {acc' : Arr Vec × Arr Quat}
    (hf : ∀ f ∈ fs, f.timestamps = none ∧ ∃ t r, f.translation = .one t ∧ f.rotation = .one r)
    (h : transLoop sq none fs (.one t, .one r) = .ok acc') : ∃ t r, acc' = (.one t, .one r) := by
  induction fs generalizing t r with
  | nil => cases h; exact ⟨_, _, rfl⟩
  | cons f fs ih =>
    simp only [transLoop] at h
    cases e : transStep sq none f (.one t, .one r) with
    | error x => rw [e] at h; cases h
    | ok a1 =>
      rw [e] at h
      have : ∃ t r, a1 = (.one t, .one r) := by
        obtain ⟨e1, t0, r0, e2, e3⟩ := hf f (by simp)
        simp only [transStep, bind] at e
        obtain ⟨p, hp, e⟩ := bind_ok' e
        simp only [transformFromFrame, e1] at hp
        cases hp
        rw [e2, e3] at e
        simp only at e
        split_ifs at e
        · obtain ⟨ri, g1, e⟩ := bind_ok' e
          obtain ⟨d, g2, e⟩ := bind_ok' e
          obtain ⟨t', g3, e⟩ := bind_ok' e
          obtain ⟨r', g4, e⟩ := bind_ok' e
          cases e
          simp only [qinvArr] at g1
          split_ifs at g1
          cases g1
          cases g2
          simp only [rotateVectors] at g3
          split_ifs at g3
          cases g3
          cases g4
          exact ⟨_, _, rfl⟩
        · obtain ⟨d, g2, e⟩ := bind_ok' e
          obtain ⟨t', g3, e⟩ := bind_ok' e
          obtain ⟨r', g4, e⟩ := bind_ok' e
          cases e
          simp only [rotateVectors] at g2
          split_ifs at g2
          cases g2
          cases g3
          cases g4
          exact ⟨_, _, rfl⟩
      obtain ⟨t1, r1, rfl⟩ := this
      exact ih (fun g hg => hf g (by simp [hg])) h

end RBM
