import Verif.Spec.Threads
import Verif.Props.Broadcaster

/-!
Steps of the threads of a broadcaster.
-/

namespace RBM.Props

open RBM RBM.Ros RBM.Spec

section

variable {b : Broadcaster} {ns : List ℕ} {tl : List Vec} {rl : List Quat}

theorem sentBy_cons (i j : ℕ) (m : OutMsg) (log : List (ℕ × OutMsg)) : sentBy i ((j, m) :: log) = sentBy i log ++ if j = i then [m] else [] := by
  simp only [sentBy, List.reverse_cons, List.filter_append, List.map_append]
  by_cases h : j = i <;> simp [h]

theorem sleptBy_cons (i j : ℕ) (d : ℝ) (log : List (ℕ × ℝ)) : sleptBy i ((j, d) :: log) = sleptBy i log ++ if j = i then [d] else [] := by
  simp only [sleptBy, List.reverse_cons, List.filter_append, List.map_append]
  by_cases h : j = i <;> simp [h]

theorem sentBy_fresh {i n : ℕ} {log : List (ℕ × OutMsg)} (h : ∀ e ∈ log, e.1 < n) (hi : n ≤ i) : sentBy i log = [] := by
  simp only [sentBy, List.map_eq_nil_iff, List.filter_eq_nil_iff, List.mem_reverse]
  intro e he
  have := h e he
  simp only [decide_eq_true_eq]
  omega

theorem sleptBy_fresh {i n : ℕ} {log : List (ℕ × ℝ)} (h : ∀ e ∈ log, e.1 < n) (hi : n ≤ i) : sleptBy i log = [] := by
  simp only [sleptBy, List.map_eq_nil_iff, List.filter_eq_nil_iff, List.mem_reverse]
  intro e he
  have := h e he
  simp only [decide_eq_true_eq]
  omega

theorem set_same {α : Type _} {l : List α} {i : ℕ} {x : α} (h : l[i]? = some x) : l.set i x = l := by
  obtain ⟨hlt, rfl⟩ := List.getElem?_eq_some_iff.mp h
  exact List.set_getElem_self hlt

/-- The twist message of a sample. -/
noncomputable def twPart (b : Broadcaster) (k : ℤ) : List OutMsg :=
  match b.twist with
  | none => []
  | some (lin, ang) =>
    match twistMsg b k lin ang with
    | .ok m => [m]
    | .error _ => []

/-- The messages that the call of `publish` in which a thread is will still send. -/
noncomputable def pend (b : Broadcaster) : TPC → List OutMsg
  | .send k ms => ms ++ twPart b k
  | .twist k => twPart b k
  | _ => []

/-- An index that numpy accepts. -/
def ValidIdx (n : ℕ) (k : ℤ) : Prop := -(n : ℤ) ≤ k ∧ k < n

theorem moving_ok (hb : Playable b ns tl rl) {k : ℤ} (hk : ValidIdx ns.length k) :
    ∃ ms, movingMsgs b (ns.map fun n : ℕ => (n : ℝ)) k = .ok ms ∧ ms.length ≤ 2 ∧ ShowsSample b ns tl rl (k % ns.length).toNat (ms ++ twPart b k) ∧
      ∀ lin ang, b.twist = some (lin, ang) → ∃ m, twistMsg b k lin ang = .ok m := by
  obtain ⟨h1, h2⟩ := hk
  have hpos : 0 < ns.length := List.length_pos_iff.mpr hb.nonempty
  have hj : (k % ns.length).toNat < ns.length := by
    have := Int.emod_lt_of_pos k (show (0 : ℤ) < ns.length by omega)
    have := Int.emod_nonneg k (show (ns.length : ℤ) ≠ 0 by omega)
    omega
  set j := (k % ns.length).toNat with hjd
  obtain ⟨n, hn⟩ : ∃ n, ns[j]? = some n := ⟨_, List.getElem?_eq_getElem hj⟩
  obtain ⟨t, ht⟩ : ∃ t, tl[j]? = some t := ⟨_, List.getElem?_eq_getElem (by rw [hb.tlen]; exact hj)⟩
  obtain ⟨r, hr⟩ : ∃ r, rl[j]? = some r := ⟨_, List.getElem?_eq_getElem (by rw [hb.rlen]; exact hj)⟩
  have e1 : pyGet (ns.map fun n : ℕ => (n : ℝ)) k = .ok (n : ℝ) := by
    apply pyGet_mod
    · simpa using h1
    · simpa using h2
    · rw [List.length_map, ← hjd]; simp [hn]
  have e2 : pyGet tl k = .ok t := pyGet_mod _ (by rw [hb.tlen]; exact h1) (by rw [hb.tlen]; exact h2) (by rw [hb.tlen, ← hjd]; exact ht)
  have e3 : pyGet rl k = .ok r := pyGet_mod _ (by rw [hb.rlen]; exact h1) (by rw [hb.rlen]; exact h2) (by rw [hb.rlen, ← hjd]; exact hr)
  have e4 : movingMsgs b (ns.map fun n : ℕ => (n : ℝ)) k = .ok ([.tf ⟨⟨n, b.baseName⟩, b.frameName, ⟨xyz t, xyzw r⟩⟩] ++
      (if b.pose then [.pose ⟨⟨n, b.baseName⟩, ⟨xyz t, xyzw r⟩⟩] else [])) := by
    simp only [movingMsgs, e1, bind, Except.bind, hb.translation, hb.rotation, e2, e3, sampleMsgs_ok]
  refine ⟨_, e4, by split_ifs <;> simp, ?_⟩
  cases htw : b.twist with
  | none =>
    refine ⟨⟨n, t, r, hn, ht, hr, ?_⟩, by simp⟩
    simp only [twPart, htw]
  | some p =>
    obtain ⟨lin, ang⟩ := p
    obtain ⟨s1, s2⟩ := hb.twist lin ang htw
    have len : ∀ a : ND ℝ, a.shape = [ns.length, 3] → (ndRows a).length = ns.length := by
      intro a ha; simp [ndRows, ha]
    have l1 : pyGet (ndRows lin) k = .ok _ := pyGet_mod _ (by rw [len _ s1]; exact h1) (by rw [len _ s1]; exact h2)
      (by rw [len _ s1, ← hjd]; exact ndRows_get s1 hj)
    have l2 : pyGet (ndRows ang) k = .ok _ := pyGet_mod _ (by rw [len _ s2]; exact h1) (by rw [len _ s2]; exact h2)
      (by rw [len _ s2, ← hjd]; exact ndRows_get s2 hj)
    have e5 : twistMsg b k lin ang = .ok (.twist ⟨⟨0, b.frameName⟩, ⟨rowXyz lin j, rowXyz ang j⟩⟩) := by
      simp only [twistMsg, l1, l2, bind, Except.bind, makeTwistMsg, header_zero, mkXYZ, Pure.pure, Except.pure]
      rfl
    refine ⟨⟨n, t, r, hn, ht, hr, ?_⟩, ?_⟩
    · simp only [twPart, htw, e5]
    · intro l a hla
      cases hla
      exact ⟨_, e5⟩

theorem moving_out (hb : Playable b ns tl rl) {k : ℤ} (hk : ¬ ValidIdx ns.length k) :
    movingMsgs b (ns.map fun n : ℕ => (n : ℝ)) k = .error .indexError := by
  have e : pyGet (ns.map fun n : ℕ => (n : ℝ)) k = .error .indexError := pyGet_out _ (by
    simp only [ValidIdx, not_and_or, not_le, not_lt] at hk
    simpa using hk)
  simp only [movingMsgs, e, bind, Except.bind]

theorem Same.movingMsgs {b b' : Broadcaster} (h : Same b b') (ts : List ℝ) (k : ℤ) : movingMsgs b' ts k = Ros.movingMsgs b ts k := by
  simp only [Ros.movingMsgs, sampleMsgs, h.translation, h.rotation, h.baseName, h.frameName, h.pose]

theorem Same.twistMsg {b b' : Broadcaster} (h : Same b b') (k : ℤ) (lin ang : ND ℝ) : twistMsg b' k lin ang = Ros.twistMsg b k lin ang := by
  simp only [Ros.twistMsg, h.frameName]

theorem twPart_length (b : Broadcaster) (k : ℤ) : (twPart b k).length ≤ 1 := by
  simp only [twPart]
  split
  · simp
  · split <;> simp

/-- What holds of a thread between two steps. -/
def TOk (n : ℕ) (t : Thr) : Prop :=
  match t.pc with
  | .send k ms => ValidIdx n k ∧ ms.length ≤ 2
  | .twist k => ValidIdx n k
  | .store v => t.role = .loop ∧ 0 ≤ v ∧ v < n
  | .dead _ => t.role ≠ .loop
  | .fetch idx => t.role = .loop → idx = none
  | .done => True
  | _ => t.role = .loop

/-- What one step of thread `i` does. -/
structure StepFacts (b : Broadcaster) (ns : List ℕ) (tl : List Vec) (rl : List Quat) (σ : Threads) (i : ℕ) (t : Thr) (σ' : Threads) (t' : Thr) : Prop where
  threads : σ'.threads = σ.threads.set i t'
  same : Same b σ'.b
  idx : 0 ≤ σ'.b.idx ∧ σ'.b.idx < ns.length
  ok : TOk ns.length t'
  others : ∀ j, j ≠ i → sentBy j σ'.log = sentBy j σ.log
  mem : ∀ e ∈ σ'.log, e ∈ σ.log ∨ e.1 = i
  shutdown : σ'.shutdown = σ.shutdown
  datetime : σ'.datetime = σ.datetime
  loop : t.role = .loop ↔ t'.role = .loop
  out : (∀ idx, t.pc ≠ .fetch idx) → sentBy i σ'.log ++ pend b t'.pc = sentBy i σ.log ++ pend b t.pc
  suffix : (∀ idx, t.pc ≠ .fetch idx) → pend b t'.pc <:+ pend b t.pc
  fetch : ∀ idx, t.pc = .fetch idx → sentBy i σ'.log = sentBy i σ.log ∧ t'.role = t.role ∧
    ((∃ ms, ValidIdx ns.length (if idx.getD 0 = 0 then σ.b.idx else idx.getD 0) ∧ t'.pc = .send (if idx.getD 0 = 0 then σ.b.idx else idx.getD 0) ms ∧
        ShowsSample b ns tl rl ((if idx.getD 0 = 0 then σ.b.idx else idx.getD 0) % ns.length).toNat (pend b t'.pc)) ∨
      (∃ k, idx = some k ∧ ¬ ValidIdx ns.length k) ∧ ∃ e, t'.pc = .dead e)

theorem stmt_facts (hb : Playable b ns tl rl) {σ : Threads} (hs : Same b σ.b) (hi : 0 ≤ σ.b.idx ∧ σ.b.idx < ns.length) {i : ℕ} {t : Thr}
    (ht : TOk ns.length t) (hget : σ.threads[i]? = some t) : ∃ t', StepFacts b ns tl rl σ i t (σ.stmt i t) t' := by
  have hn : 0 < ns.length := List.length_pos_iff.mpr hb.nonempty
  have hts : σ.b.timestamps = some (ns.map fun n : ℕ => (n : ℝ)) := by rw [hs.timestamps]; exact hb.stamps
  have get : ∀ k : ℤ, -(ns.length : ℤ) ≤ k → k < ns.length → ∃ a, pyGet (ns.map fun n : ℕ => (n : ℝ)) k = .ok a := by
    intro k h1 h2
    have hj : (k % ns.length).toNat < ns.length := by
      have := Int.emod_lt_of_pos k (show (0 : ℤ) < ns.length by omega)
      have := Int.emod_nonneg k (show (ns.length : ℤ) ≠ 0 by omega)
      omega
    refine ⟨_, pyGet_mod _ (by simpa using h1) (by simpa using h2) (by rw [List.length_map]; exact List.getElem?_eq_getElem (by simpa using hj))⟩
  -- a step that only changes where the thread is
  have plain : ∀ pc : TPC, σ.stmt i t = σ.goto i t pc → TOk ns.length ⟨t.role, pc⟩ → (∀ idx, t.pc ≠ .fetch idx) → pend b pc = pend b t.pc →
      ∃ t', StepFacts b ns tl rl σ i t (σ.stmt i t) t' := by
    intro pc e hok hf hp
    rw [e]
    exact ⟨⟨t.role, pc⟩, rfl, hs, hi, hok, fun _ _ => rfl, fun e he => .inl he, rfl, rfl, Iff.rfl, fun _ => by simp only [Threads.goto]; rw [hp],
      fun _ => by rw [hp], fun idx h => absurd h (hf idx)⟩
  cases hp : t.pc with
  | clear =>
    simp only [TOk, hp] at ht
    simp only [Threads.stmt, hp]
    refine ⟨⟨t.role, _⟩, rfl, hs.upd _ _, hi, ?_, fun _ _ => rfl, fun e he => .inl he, rfl, rfl, Iff.rfl, fun _ => ?_, fun _ => ?_, fun idx h => by rw [hp] at h; cases h⟩
    · split_ifs <;> simp [TOk, ht]
    · simp only [Threads.goto, hp]; split_ifs <;> rfl
    · simp only; split_ifs <;> simp [pend]
  | shut =>
    simp only [TOk, hp] at ht
    refine plain _ (by simp only [Threads.stmt, hp]; rfl) ?_ (by simp [hp]) ?_
    · split_ifs <;> simp [TOk, ht]
    · rw [hp]; split_ifs <;> rfl
  | halt =>
    simp only [TOk, hp] at ht
    refine plain _ (by simp only [Threads.stmt, hp]; rfl) ?_ (by simp [hp]) ?_
    · split_ifs <;> simp [TOk, ht]
    · rw [hp]; split_ifs <;> rfl
  | fetch idx =>
    simp only [TOk, hp] at ht
    simp only [Threads.stmt, hp, hts, hs.movingMsgs]
    by_cases hv : ValidIdx ns.length (if idx.getD 0 = 0 then σ.b.idx else idx.getD 0)
    · obtain ⟨ms, e, hl, hsh, _⟩ := moving_ok hb hv
      rw [e]
      exact ⟨⟨t.role, .send _ ms⟩, rfl, hs, hi, ⟨hv, hl⟩, fun _ _ => rfl, fun e he => .inl he, rfl, rfl, Iff.rfl, fun h => absurd hp (h idx), fun h => absurd hp (h idx),
        fun idx' h => by rw [hp] at h; cases h; exact ⟨rfl, rfl, .inl ⟨ms, hv, rfl, hsh⟩⟩⟩
    · rw [moving_out hb hv]
      have hk : ∃ k, idx = some k ∧ ¬ ValidIdx ns.length k := by
        cases idx with
        | none => exact absurd ⟨by simp; omega, by simp; omega⟩ hv
        | some k =>
          refine ⟨k, rfl, ?_⟩
          by_cases h0 : k = 0
          · simp only [Option.getD_some, h0, if_true] at hv
            exact absurd ⟨by omega, by omega⟩ hv
          · simpa [h0] using hv
      refine ⟨⟨t.role, .dead .indexError⟩, rfl, hs, hi, ?_, fun _ _ => rfl, fun e he => .inl he, rfl, rfl, Iff.rfl, fun h => absurd hp (h idx), fun h => absurd hp (h idx),
        fun idx' h => by rw [hp] at h; cases h; exact ⟨rfl, rfl, .inr ⟨hk, _, rfl⟩⟩⟩
      intro hl
      obtain ⟨k, hk, _⟩ := hk
      rw [ht hl] at hk
      cases hk
  | send k ms =>
    simp only [TOk, hp] at ht
    cases ms with
    | nil => exact plain (.twist k) (by simp only [Threads.stmt, hp]) ht.1 (by simp [hp]) (by simp [hp, pend])
    | cons m ms =>
      simp only [Threads.stmt, hp]
      refine ⟨⟨t.role, .send k ms⟩, rfl, hs, hi, ⟨ht.1, by have := ht.2; simp only [List.length_cons] at this; show ms.length ≤ 2; omega⟩, fun j hj => ?_, fun e he => ?_, rfl, rfl, Iff.rfl,
        fun _ => ?_, fun _ => ?_, fun idx h => by rw [hp] at h; cases h⟩
      · simp [sentBy_cons, Ne.symm hj]
      · simp only [List.mem_cons] at he
        rcases he with rfl | he
        · exact .inr rfl
        · exact .inl he
      · simp [sentBy_cons, pend, hp]
      · simp only [hp, pend, List.cons_append]; exact List.suffix_cons _ _
  | twist k =>
    simp only [TOk, hp] at ht
    have hret : (t.role = .loop ↔ t.ret.role = .loop) ∧ TOk ns.length t.ret ∧ pend b t.ret.pc = [] := by
      unfold Thr.ret
      cases hr : t.role with
      | loop => simp [TOk, pend]
      | calls is => cases is <;> simp [Thr.calling, TOk, pend]
    cases htw : b.twist with
    | none =>
      have e : σ.stmt i t = { σ with threads := σ.threads.set i t.ret } := by simp only [Threads.stmt, hp, hs.twist, htw]
      rw [e]
      exact ⟨t.ret, rfl, hs, hi, hret.2.1, fun _ _ => rfl, fun e he => .inl he, rfl, rfl, hret.1, fun _ => by rw [hret.2.2]; simp [hp, pend, twPart, htw], fun _ => by rw [hret.2.2]; exact List.nil_suffix,
        fun idx h => by rw [hp] at h; cases h⟩
    | some p =>
      obtain ⟨lin, ang⟩ := p
      obtain ⟨_, _, _, _, hm⟩ := moving_ok hb ht
      obtain ⟨m, hm⟩ := hm lin ang htw
      have e : σ.stmt i t = { σ with threads := σ.threads.set i t.ret, log := (i, m) :: σ.log } := by
        simp only [Threads.stmt, hp, hs.twist, htw, hts, hs.twistMsg, hm]
      rw [e]
      refine ⟨t.ret, rfl, hs, hi, hret.2.1, fun j hj => ?_, fun e he => ?_, rfl, rfl, hret.1, fun _ => ?_, fun _ => by rw [hret.2.2]; exact List.nil_suffix, fun idx h => by rw [hp] at h; cases h⟩
      · simp [sentBy_cons, Ne.symm hj]
      · simp only [List.mem_cons] at he
        rcases he with rfl | he
        · exact .inr rfl
        · exact .inl he
      · rw [hret.2.2]; simp [sentBy_cons, hp, pend, twPart, htw, hm]
  | load =>
    simp only [TOk, hp] at ht
    refine plain (.store ((σ.b.idx + 1) % (ns.length : ℤ))) (by simp only [Threads.stmt, hp, hts, List.length_map]) ⟨ht, Int.emod_nonneg _ (by omega), Int.emod_lt_of_pos _ (by omega)⟩ (by simp [hp]) (by simp [hp, pend])
  | store v =>
    simp only [TOk, hp] at ht
    simp only [Threads.stmt, hp]
    exact ⟨⟨t.role, .test⟩, rfl, hs.upd _ _, ht.2, ht.1, fun _ _ => rfl, fun e he => .inl he, rfl, rfl, Iff.rfl, fun _ => by simp [Threads.goto, pend, hp], fun _ => by simp [pend],
      fun idx h => by rw [hp] at h; cases h⟩
  | test =>
    simp only [TOk, hp] at ht
    by_cases h0 : σ.b.idx > 0
    · exact plain .later (by simp only [Threads.stmt, hp, if_pos h0]) ht (by simp [hp]) (by simp [hp, pend])
    · simp only [Threads.stmt, hp, if_neg h0]
      exact ⟨⟨t.role, .shut⟩, rfl, hs, hi, ht, fun _ _ => rfl, fun e he => .inl he, rfl, rfl, Iff.rfl, fun _ => by simp [Threads.goto, pend, hp], fun _ => by simp [pend],
        fun idx h => by rw [hp] at h; cases h⟩
  | later =>
    simp only [TOk, hp] at ht
    obtain ⟨a, ha⟩ := get σ.b.idx (by omega) (by omega)
    exact plain (.earlier a) (by simp only [Threads.stmt, hp, hts, Option.getD_some, ha]) ht (by simp [hp]) (by simp [hp, pend])
  | earlier a =>
    simp only [TOk, hp] at ht
    obtain ⟨c, hc⟩ := get (σ.b.idx - 1) (by omega) (by omega)
    simp only [Threads.stmt, hp, hts, Option.getD_some, hc]
    exact ⟨⟨t.role, .shut⟩, rfl, hs, hi, ht, fun _ _ => rfl, fun e he => .inl he, rfl, rfl, Iff.rfl, fun _ => by simp [Threads.goto, pend, hp], fun _ => by simp [pend],
      fun idx h => by rw [hp] at h; cases h⟩
  | set =>
    simp only [Threads.stmt, hp]
    exact ⟨⟨t.role, .done⟩, rfl, hs.upd _ _, hi, trivial, fun _ _ => rfl, fun e he => .inl he, rfl, rfl, Iff.rfl, fun _ => by simp [Threads.goto, pend, hp], fun _ => by simp [pend],
      fun idx h => by rw [hp] at h; cases h⟩
  | waiting =>
    simp only [TOk, hp] at ht
    refine plain _ (by simp only [Threads.stmt, hp]; rfl) ?_ (by simp [hp]) ?_
    · split_ifs <;> simp [TOk, ht]
    · rw [hp]; split_ifs <;> rfl
  | done =>
    have e : σ.stmt i t = σ := by simp only [Threads.stmt, hp]
    rw [e]
    refine ⟨t, (set_same hget).symm, hs, hi, ht, fun _ _ => rfl, fun e he => .inl he, rfl, rfl, Iff.rfl, fun _ => rfl, fun _ => List.suffix_rfl, fun idx h => by rw [hp] at h; cases h⟩
  | dead e0 =>
    have e : σ.stmt i t = σ := by simp only [Threads.stmt, hp]
    rw [e]
    refine ⟨t, (set_same hget).symm, hs, hi, ht, fun _ _ => rfl, fun e he => .inl he, rfl, rfl, Iff.rfl, fun _ => rfl, fun _ => List.suffix_rfl, fun idx h => by rw [hp] at h; cases h⟩

/-- Only the sleeping thread adds a sleep. -/
theorem stmt_sleeps (σ : Threads) (i : ℕ) (t : Thr) :
    (σ.stmt i t).sleeps = σ.sleeps ∨ (∃ d, (σ.stmt i t).sleeps = (i, d) :: σ.sleeps) ∧ (t.pc = .test ∨ ∃ a, t.pc = .earlier a) := by
  cases hp : t.pc with
  | send k ms => cases ms <;> exact .inl (by simp only [Threads.stmt, hp, Threads.goto])
  | fetch idx =>
    refine .inl ?_
    simp only [Threads.stmt, hp]
    repeat' split
    all_goals rfl
  | twist k =>
    refine .inl ?_
    simp only [Threads.stmt, hp]
    repeat' split
    all_goals rfl
  | load =>
    refine .inl ?_
    simp only [Threads.stmt, hp]
    split <;> rfl
  | later =>
    refine .inl ?_
    simp only [Threads.stmt, hp]
    split <;> rfl
  | test =>
    simp only [Threads.stmt, hp]
    split
    · exact .inl rfl
    · exact .inr ⟨⟨_, rfl⟩, .inl trivial⟩
  | earlier a =>
    simp only [Threads.stmt, hp]
    split
    · exact .inl rfl
    · exact .inr ⟨⟨_, rfl⟩, .inr ⟨a, rfl⟩⟩
  | _ => exact .inl (by simp only [Threads.stmt, hp, Threads.goto])

/-- What holds of a broadcaster and its threads at any time. -/
structure TInv (b : Broadcaster) (ns : List ℕ) (σ : Threads) : Prop where
  same : Same b σ.b
  idx : 0 ≤ σ.b.idx ∧ σ.b.idx < ns.length
  ok : ∀ (i : ℕ) (t : Thr), σ.threads[i]? = some t → TOk ns.length t
  fresh : ∀ e ∈ σ.log, e.1 < σ.threads.length
  freshS : ∀ e ∈ σ.sleeps, e.1 < σ.threads.length

/-- Which threads an event starts. -/
inductive Started (near : NearestFn) (b : Broadcaster) : TEv → Thr → Prop
  | spin : Started near b .spin ⟨.loop, .clear⟩
  | publish (idx : Option ℤ) : Started near b (.publish idx) (Thr.calling [idx])
  | incoming (ms : List TransformStamped) (target : Option String) : b.subscribed = some target →
      Started near b (.incoming ms) (Thr.calling (b.answers near target ms))

/-- What an event means for thread `i`, which is `t'` afterwards. -/
inductive Evolves (near : NearestFn) (b : Broadcaster) (ns : List ℕ) (tl : List Vec) (rl : List Quat) (σ : Threads) (e : TEv) (i : ℕ) (t' : Thr) : Prop
  | rests : σ.threads[i]? = some t' → sentBy i (σ.step near e).log = sentBy i σ.log → sleptBy i (σ.step near e).sleeps = sleptBy i σ.sleeps → e ≠ .run i →
      Evolves near b ns tl rl σ e i t'
  | moves (t : Thr) : σ.threads[i]? = some t → e = .run i → σ.step near e = σ.stmt i t → StepFacts b ns tl rl σ i t (σ.step near e) t' →
      Evolves near b ns tl rl σ e i t'
  | starts : i = σ.threads.length → sentBy i (σ.step near e).log = [] → sleptBy i (σ.step near e).sleeps = [] → Started near b e t' → Evolves near b ns tl rl σ e i t'

theorem calling_ok (n : ℕ) (is : List (Option ℤ)) : TOk n (Thr.calling is) ∧ (Thr.calling is).role ≠ .loop := by
  cases is <;> simp [Thr.calling, TOk]

theorem step_cases (near : NearestFn) (hb : Playable b ns tl rl) {σ : Threads} (h : TInv b ns σ) (e : TEv) :
    TInv b ns (σ.step near e) ∧ ∀ (i : ℕ) (t' : Thr), (σ.step near e).threads[i]? = some t' → Evolves near b ns tl rl σ e i t' := by
  have hts : σ.b.timestamps = some (ns.map fun n : ℕ => (n : ℝ)) := by rw [h.same.timestamps]; exact hb.stamps
  -- a new thread
  have new : ∀ t0, σ.step near e = { σ with threads := σ.threads ++ [t0] } → Started near b e t0 → TOk ns.length t0 → (∀ i, e ≠ .run i) →
      TInv b ns (σ.step near e) ∧ ∀ (i : ℕ) (t' : Thr), (σ.step near e).threads[i]? = some t' → Evolves near b ns tl rl σ e i t' := by
    intro t0 hst hs hok hne
    have hfr : ∀ x ∈ (σ.step near e).log, x.1 < (σ.step near e).threads.length := by
      intro x hx
      rw [hst] at hx ⊢
      have := h.fresh x hx
      simp only [List.length_append, List.length_singleton]
      omega
    have hfr' : ∀ x ∈ (σ.step near e).sleeps, x.1 < (σ.step near e).threads.length := by
      intro x hx
      rw [hst] at hx ⊢
      have := h.freshS x hx
      simp only [List.length_append, List.length_singleton]
      omega
    refine ⟨⟨by rw [hst]; exact h.same, by rw [hst]; exact h.idx, ?_, hfr, hfr'⟩, ?_⟩
    · intro i t hi
      rw [hst] at hi
      simp only [List.getElem?_append] at hi
      split_ifs at hi with hlt
      · exact h.ok i t hi
      · have h0 := (List.getElem?_eq_some_iff.mp hi).1
        simp only [List.length_singleton] at h0
        rw [show i - σ.threads.length = 0 by omega] at hi
        simp only [List.getElem?_cons_zero, Option.some.injEq] at hi
        exact hi ▸ hok
    · intro i t' hi
      rw [hst] at hi
      simp only [List.getElem?_append] at hi
      split_ifs at hi with hlt
      · exact .rests hi (by rw [hst]) (by rw [hst]) (hne i)
      · have h0 := (List.getElem?_eq_some_iff.mp hi).1
        simp only [List.length_singleton] at h0
        rw [show i - σ.threads.length = 0 by omega] at hi
        simp only [List.getElem?_cons_zero, Option.some.injEq] at hi
        subst hi
        exact .starts (by omega) (by rw [hst]; exact sentBy_fresh h.fresh (by omega)) (by rw [hst]; exact sleptBy_fresh h.freshS (by omega)) hs
  -- an event that touches no thread
  have quiet : (σ.step near e).threads = σ.threads → (σ.step near e).log = σ.log → (σ.step near e).sleeps = σ.sleeps →
      Same b (σ.step near e).b → (σ.step near e).b.idx = σ.b.idx → (∀ i, e = .run i → σ.threads[i]? = none) →
      TInv b ns (σ.step near e) ∧ ∀ (i : ℕ) (t' : Thr), (σ.step near e).threads[i]? = some t' → Evolves near b ns tl rl σ e i t' := by
    intro h1 h2 h3 h4 h5 h6
    refine ⟨⟨h4, by rw [h5]; exact h.idx, fun i t hi => h.ok i t (by rwa [h1] at hi), fun x hx => by rw [h1]; rw [h2] at hx; exact h.fresh x hx,
      fun x hx => by rw [h1]; rw [h3] at hx; exact h.freshS x hx⟩, fun i t' hi => ?_⟩
    rw [h1] at hi
    exact .rests hi (by rw [h2]) (by rw [h3]) (fun he => by rw [h6 i he] at hi; cases hi)
  cases e with
  | spin => exact new ⟨.loop, .clear⟩ (by simp only [Threads.step, hts]) .spin rfl (by simp)
  | publish idx => exact new (Thr.calling [idx]) rfl (.publish idx) (calling_ok _ _).1 (by simp)
  | incoming ms =>
    cases hsub : σ.b.subscribed with
    | none =>
      have e : σ.step near (.incoming ms) = σ := by simp only [Threads.step, hsub]
      exact quiet (by rw [e]) (by rw [e]) (by rw [e]) (by rw [e]; exact h.same) (by rw [e]) (by simp)
    | some target =>
      refine new _ (by simp only [Threads.step, hsub]; rfl) ?_ (calling_ok _ _).1 (by simp)
      have : σ.b.answers near target ms = b.answers near target ms := by
        simp only [Broadcaster.answers, h.same.timestamps]
      rw [this]
      exact .incoming ms target (by rw [← h.same.subscribed]; exact hsub)
  | stop => exact quiet rfl rfl rfl (h.same.upd _ _) rfl (by simp)
  | shutdown => exact quiet rfl rfl rfl h.same rfl (by simp)
  | run i =>
    cases hi : σ.threads[i]? with
    | none =>
      have e : σ.step near (.run i) = σ := by simp only [Threads.step, hi]
      exact quiet (by rw [e]) (by rw [e]) (by rw [e]) (by rw [e]; exact h.same) (by rw [e]) (by simpa using hi)
    | some t =>
      have e : σ.step near (.run i) = σ.stmt i t := by simp only [Threads.step, hi]
      obtain ⟨t', f⟩ := stmt_facts hb h.same h.idx (h.ok i t hi) hi
      have hlt : i < σ.threads.length := (List.getElem?_eq_some_iff.mp hi).1
      rw [← e] at f
      have hsl := stmt_sleeps σ i t
      rw [← e] at hsl
      refine ⟨⟨f.same, f.idx, ?_, ?_, ?_⟩, ?_⟩
      · intro j t1 hj
        rw [f.threads, List.getElem?_set] at hj
        split_ifs at hj with h1 h2
        · simp only [Option.some.injEq] at hj
          exact hj ▸ f.ok
        · exact h.ok j t1 hj
      · intro x hx
        rw [f.threads, List.length_set]
        rcases f.mem x hx with hx | hx
        · exact h.fresh x hx
        · rw [hx]; exact hlt
      · intro x hx
        rw [f.threads, List.length_set]
        rcases hsl with hsl | ⟨⟨d, hsl⟩, _⟩
        · rw [hsl] at hx; exact h.freshS x hx
        · rw [hsl, List.mem_cons] at hx
          rcases hx with rfl | hx
          · exact hlt
          · exact h.freshS x hx
      · intro j t1 hj
        rw [f.threads, List.getElem?_set] at hj
        split_ifs at hj with h1 h2
        · simp only [Option.some.injEq] at hj
          subst hj; subst h1
          exact .moves t hi rfl e f
        · refine .rests hj (f.others j (Ne.symm h1)) ?_ (by simpa using h1)
          rcases hsl with hsl | ⟨⟨d, hsl⟩, _⟩
          · rw [hsl]
          · rw [hsl, sleptBy_cons, if_neg h1, List.append_nil]

theorem tinv_start (hb : Playable b ns tl rl) (h0 : b.idx = 0) (dt : Bool) : TInv b ns (Threads.start b dt) := by
  have hn : 0 < ns.length := List.length_pos_iff.mpr hb.nonempty
  refine ⟨.refl b, ?_, ?_, ?_, ?_⟩
  · simp only [Threads.start, h0]; omega
  · intro i t h; simp [Threads.start] at h
  · intro e h; simp [Threads.start] at h
  · intro e h; simp [Threads.start] at h

theorem texec_append (near : NearestFn) (σ : Threads) (e1 e2 : List TEv) : σ.exec near (e1 ++ e2) = (σ.exec near e1).exec near e2 := by
  simp [Threads.exec]

theorem tinv_exec (near : NearestFn) (hb : Playable b ns tl rl) {σ : Threads} (h : TInv b ns σ) (evs : List TEv) : TInv b ns (σ.exec near evs) := by
  induction evs generalizing σ with
  | nil => exact h
  | cons e evs ih => exact ih (step_cases near hb h e).1

/-- A property of threads that every event establishes, given that it held before, holds of every thread. -/
theorem thread_induction (near : NearestFn) (hb : Playable b ns tl rl) (P : List TEv → Threads → ℕ → Thr → Prop) {σ0 : Threads} (h0 : TInv b ns σ0)
    (hbase : ∀ (j : ℕ) (t : Thr), σ0.threads[j]? = some t → P [] σ0 j t)
    (hstep : ∀ (pre : List TEv) (σ : Threads), σ = σ0.exec near pre → TInv b ns σ → (∀ (j : ℕ) (t : Thr), σ.threads[j]? = some t → P pre σ j t) →
      ∀ (e : TEv) (i : ℕ) (t' : Thr), Evolves near b ns tl rl σ e i t' → P (pre ++ [e]) (σ.step near e) i t') (evs : List TEv) :
    ∀ (i : ℕ) (t : Thr), (σ0.exec near evs).threads[i]? = some t → P evs (σ0.exec near evs) i t := by
  induction evs using List.reverseRecOn with
  | nil => exact hbase
  | append_singleton pre e ih =>
    intro i t hi
    have hinv := tinv_exec near hb h0 pre
    rw [texec_append] at hi ⊢
    exact hstep pre _ rfl hinv ih e i t ((step_cases near hb hinv e).2 i t hi)

end

end RBM.Props
