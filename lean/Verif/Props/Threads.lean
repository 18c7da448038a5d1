import Verif.Lemmas.Threads

/-!
C92: a broadcaster that is used by several threads at once.
-/

namespace RBM.Props

open RBM RBM.Ros RBM.Spec

section

variable {b : Broadcaster} {ns : List ℕ} {tl : List Vec} {rl : List Quat}

/-- A thread that has sent `sent` and is about to send `pd` has begun with the samples `ks`. -/
def Sending (b : Broadcaster) (ns : List ℕ) (tl : List Vec) (rl : List Quat) (ks : List ℕ) (sent pd : List OutMsg) : Prop :=
  Publishes b ns tl rl ks (sent ++ pd) ∧ (pd = [] ∨ ∃ k g, ks.getLast? = some k ∧ ShowsSample b ns tl rl k g ∧ pd <:+ g)

theorem Sending.publishing {ks : List ℕ} {sent pd : List OutMsg} (h : Sending b ns tl rl ks sent pd) : Publishing b ns tl rl ks sent := ⟨pd, h⟩

theorem sending_nil : Sending b ns tl rl [] [] [] := ⟨⟨[], .nil, rfl⟩, .inl rfl⟩

theorem Sending.next {ks : List ℕ} {sent : List OutMsg} (h : Sending b ns tl rl ks sent []) {k : ℕ} {g : List OutMsg} (hg : ShowsSample b ns tl rl k g) :
    Sending b ns tl rl (ks ++ [k]) sent g := by
  obtain ⟨⟨gs, h1, h2⟩, _⟩ := h
  refine ⟨⟨gs ++ [g], List.rel_append h1 (.cons hg .nil), ?_⟩, .inr ⟨k, g, by simp, hg, List.suffix_rfl⟩⟩
  rw [List.append_nil] at h2
  simp [h2]

theorem Sending.moves {ks : List ℕ} {σ σ' : Threads} {i : ℕ} {t t' : Thr} (h : Sending b ns tl rl ks (sentBy i σ.log) (pend b t.pc))
    (f : StepFacts b ns tl rl σ i t σ' t') (hf : ∀ idx, t.pc ≠ .fetch idx) : Sending b ns tl rl ks (sentBy i σ'.log) (pend b t'.pc) := by
  obtain ⟨h1, h2⟩ := h
  refine ⟨by rw [f.out hf]; exact h1, ?_⟩
  have hs := f.suffix hf
  rcases h2 with h2 | ⟨k, g, h3, h4, h5⟩
  · left; rw [h2] at hs; exact List.suffix_nil.mp hs
  · exact .inr ⟨k, g, h3, h4, hs.trans h5⟩

theorem Sending.fetch {ks : List ℕ} {σ σ' : Threads} {i : ℕ} {t t' : Thr} (h : Sending b ns tl rl ks (sentBy i σ.log) (pend b t.pc))
    (f : StepFacts b ns tl rl σ i t σ' t') {idx : Option ℤ} (hf : t.pc = .fetch idx) :
    Sending b ns tl rl (ks ++ [((if idx.getD 0 = 0 then σ.b.idx else idx.getD 0) % ns.length).toNat]) (sentBy i σ'.log) (pend b t'.pc) ∨
    (∃ k, idx = some k ∧ ¬ ValidIdx ns.length k) ∧ (∃ e, t'.pc = .dead e) ∧ Sending b ns tl rl ks (sentBy i σ'.log) (pend b t'.pc) := by
  obtain ⟨h1, _, h2⟩ := f.fetch idx hf
  rw [hf] at h
  rcases h2 with ⟨ms, _, _, h3⟩ | ⟨hk, e, he⟩
  · left
    rw [h1]
    exact Sending.next h h3
  · right
    refine ⟨hk, ⟨e, he⟩, ?_⟩
    rw [h1, he]
    exact h

theorem Sending.steps {ks : List ℕ} {σ σ' : Threads} {i : ℕ} {t t' : Thr} (h : Sending b ns tl rl ks (sentBy i σ.log) (pend b t.pc))
    (f : StepFacts b ns tl rl σ i t σ' t') : ∃ more, Sending b ns tl rl (ks ++ more) (sentBy i σ'.log) (pend b t'.pc) := by
  by_cases hf : ∃ idx, t.pc = .fetch idx
  · obtain ⟨idx, hf⟩ := hf
    rcases h.fetch f hf with h | ⟨_, _, h⟩
    · exact ⟨_, h⟩
    · exact ⟨[], by simpa using h⟩
  · push Not at hf
    exact ⟨[], by simpa using h.moves f hf⟩

theorem started_quiet {near : NearestFn} {e : TEv} {t : Thr} (h : Started near b e t) : pend b t.pc = [] := by
  cases h with
  | spin => rfl
  | publish idx => rfl
  | incoming ms target => cases b.answers near target ms <;> rfl

theorem sending_exec (near : NearestFn) (hb : Playable b ns tl rl) (h0 : b.idx = 0) (dt : Bool) (evs : List TEv) :
    ∀ (i : ℕ) (t : Thr), ((Threads.start b dt).exec near evs).threads[i]? = some t →
      ∃ ks, Sending b ns tl rl ks (sentBy i ((Threads.start b dt).exec near evs).log) (pend b t.pc) := by
  refine thread_induction near hb (fun _ σ i t => ∃ ks, Sending b ns tl rl ks (sentBy i σ.log) (pend b t.pc)) (tinv_start hb h0 dt) ?_ ?_ evs
  · intro j t h; simp [Threads.start] at h
  · intro pre σ _ hinv ih e i t' hev
    cases hev with
    | rests h1 h2 _ _ => rw [h2]; exact ih i t' h1
    | moves t h1 _ _ f =>
      obtain ⟨ks, hk⟩ := ih i t h1
      obtain ⟨more, h⟩ := hk.steps f
      exact ⟨_, h⟩
    | starts _ h2 _ h3 => rw [h2, started_quiet h3]; exact ⟨[], sending_nil⟩

/-- Any number of threads spin, publish and answer incoming messages at the same time, in any interleaving: what each thread sends are complete
samples of the frame, all messages of one sample together and with the same timestamp, transform before pose before twist (only the last sample may
still be incomplete). -/
theorem C92_whole_samples (near : NearestFn) (hb : Playable b ns tl rl) (h0 : b.idx = 0) (dt : Bool) (evs : List TEv) (i : ℕ) :
    ∃ ks, Publishing b ns tl rl ks (sentBy i ((Threads.start b dt).exec near evs).log) := by
  have hinv := tinv_exec near hb (tinv_start hb h0 dt) evs
  cases hi : ((Threads.start b dt).exec near evs).threads[i]? with
  | none =>
    rw [sentBy_fresh hinv.fresh (List.getElem?_eq_none_iff.mp hi)]
    exact ⟨[], sending_nil.publishing⟩
  | some t =>
    obtain ⟨ks, h⟩ := sending_exec near hb h0 dt evs i t hi
    exact ⟨ks, h.publishing⟩

/-- No loop ends with an exception, however the threads interleave. -/
theorem C92_alive (near : NearestFn) (hb : Playable b ns tl rl) (h0 : b.idx = 0) (dt : Bool) (evs : List TEv) {i : ℕ} {t : Thr}
    (hi : ((Threads.start b dt).exec near evs).threads[i]? = some t) (hl : t.role = .loop) (e : PyErr) : t.pc ≠ .dead e := by
  have := (tinv_exec near hb (tinv_start hb h0 dt) evs).ok i t hi
  intro h
  simp only [TOk, h] at this
  exact this hl

/-! ### Ending -/

/-- How many samples a thread may still begin with after `stop` (or, if `down`, after shutdown of the node). -/
def begins (down : Bool) : TPC → ℕ
  | .fetch _ => 1
  | .halt => if down then 1 else 0
  | _ => 0

/-- How many steps a thread may still make. -/
def need (down : Bool) : TPC → ℕ
  | .set => 1
  | .waiting => 2
  | .shut => if down then 2 else 3
  | .clear => 3
  | .halt => if down then 14 else 2
  | .earlier _ => 4
  | .later => 5
  | .test => 6
  | .store _ => 7
  | .load => 8
  | .twist _ => 9
  | .send _ ms => 10 + ms.length
  | .fetch _ => 13
  | .done => 0
  | .dead _ => 0

/-- One step of a loop when the flag is set or the node is down. -/
theorem winding (hb : Playable b ns tl rl) {σ : Threads} (hinv : TInv b ns σ) {i : ℕ} {t t' : Thr} (hi : σ.threads[i]? = some t) (hl : t.role = .loop) (down : Bool)
    (hd : down = true → σ.shutdown = true) (hs : down = false → σ.b.stopped = true ∧ t.pc ≠ .clear ∧ t.pc ≠ .waiting)
    (f : StepFacts b ns tl rl σ i t (σ.stmt i t) t') :
    (t.pc = .done ∧ t'.pc = .done ∨ need down t'.pc + 1 ≤ need down t.pc) ∧
    ((∀ idx, t.pc ≠ .fetch idx) → begins down t'.pc ≤ begins down t.pc) ∧ (∀ idx, t.pc = .fetch idx → begins down t'.pc = 0) ∧ 
    (down = false → t'.pc ≠ .clear ∧ t'.pc ≠ .waiting) := by
  have hlt : i < σ.threads.length := (List.getElem?_eq_some_iff.mp hi).1
  have hn : (σ.stmt i t).threads[i]? = some t' := by rw [f.threads]; simp [hlt]
  have hl' : t'.role = .loop := f.loop.mp hl
  have hok := f.ok
  have hok0 := hinv.ok i t hi
  have hndead : ∀ e, t'.pc ≠ .dead e := fun e h => by simp only [TOk, h] at hok; exact hok hl'
  have go : ∀ pc, (σ.stmt i t).threads = (σ.goto i t pc).threads → t'.pc = pc := by
    intro pc e
    rw [e] at hn
    simp only [Threads.goto, List.getElem?_set, hlt, if_true, Option.some.injEq] at hn
    rw [← hn]
  cases hp : t.pc with
  | clear =>
    have h1 := go _ (by simp only [Threads.stmt, hp]; rfl)
    cases down with
    | false => exact absurd hp (hs rfl).2.1
    | true =>
      rw [h1]
      refine ⟨.inr ?_, fun _ => ?_, by simp, by simp⟩
      · split_ifs <;> simp [need]
      · split_ifs <;> simp [begins]
  | shut =>
    have h1 := go _ (by simp only [Threads.stmt, hp]; rfl)
    cases down with
    | false =>
      rw [h1]
      split_ifs <;> simp [need, begins]
    | true =>
      rw [hd rfl] at h1
      rw [h1]
      simp [need, begins]
  | halt =>
    have h1 := go _ (by simp only [Threads.stmt, hp]; rfl)
    cases down with
    | false =>
      rw [(hs rfl).1] at h1
      rw [h1]
      simp [need, begins]
    | true =>
      rw [h1]
      split_ifs <;> simp [need, begins]
  | fetch idx =>
    obtain ⟨_, _, h⟩ := f.fetch idx hp
    rcases h with ⟨ms, _, h, _⟩ | ⟨_, e, h⟩
    · simp only [TOk, h] at hok
      rw [h]
      refine ⟨.inr ?_, fun hx => absurd rfl (hx idx), fun _ _ => rfl, fun _ => by simp⟩
      have := hok.2
      simp only [need]
      omega
    · exact absurd h (hndead e)
  | send k ms =>
    cases ms with
    | nil =>
      rw [go (.twist k) (by simp only [Threads.stmt, hp])]
      simp [need, begins]
    | cons m ms =>
      rw [go (.send k ms) (by simp only [Threads.stmt, hp])]
      refine ⟨.inr ?_, fun _ => by simp [begins], by simp, by simp⟩
      simp only [need, List.length_cons]
      omega
  | twist k =>
    have : t'.pc = .load := by
      have hr : t.ret = ⟨.loop, .load⟩ := by simp only [Thr.ret, hl]
      simp only [Threads.stmt, hp] at hn
      revert hn
      repeat' split
      all_goals simp only [Threads.goto, List.getElem?_set, hlt, if_true, Option.some.injEq]
      all_goals intro hn
      all_goals first
        | (rw [← hn, hr]; done)
        | (rw [← hn] at hndead; exact absurd rfl (hndead _))
    rw [this]
    simp [need, begins]
  | load =>
    have hts : σ.b.timestamps = some (ns.map fun n : ℕ => (n : ℝ)) := by rw [hinv.same.timestamps]; exact hb.stamps
    rw [go (.store _) (by simp only [Threads.stmt, hp, hts]; rfl)]
    simp [need, begins]
  | store v =>
    rw [go .test (by simp only [Threads.stmt, hp, Threads.goto])]
    simp [need, begins]
  | test =>
    by_cases h0 : σ.b.idx > 0
    · rw [go .later (by simp only [Threads.stmt, hp, if_pos h0])]
      simp [need, begins]
    · rw [go .shut (by simp only [Threads.stmt, hp, if_neg h0, Threads.goto])]
      cases down <;> simp [need, begins]
  | later =>
    simp only [Threads.stmt, hp] at hn
    revert hn
    split
    all_goals simp only [Threads.goto, List.getElem?_set, hlt, if_true, Option.some.injEq]
    all_goals intro hn
    · rw [← hn] at hndead; exact absurd rfl (hndead _)
    · rw [← hn]; simp [need, begins]
  | earlier a =>
    simp only [Threads.stmt, hp] at hn
    revert hn
    split
    all_goals simp only [Threads.goto, List.getElem?_set, hlt, if_true, Option.some.injEq]
    all_goals intro hn
    · rw [← hn] at hndead; exact absurd rfl (hndead _)
    · rw [← hn]; cases down <;> simp [need, begins]
  | set =>
    rw [go .done (by simp only [Threads.stmt, hp, Threads.goto])]
    simp [need, begins]
  | waiting =>
    have h1 := go _ (by simp only [Threads.stmt, hp]; rfl)
    cases down with
    | false => exact absurd hp (hs rfl).2.2
    | true =>
      rw [hd rfl] at h1
      rw [h1]
      simp [need, begins]
  | done =>
    have h1 : t'.pc = .done := by
      simp only [Threads.stmt, hp] at hn
      rw [hi] at hn
      cases hn
      exact hp
    rw [h1]
    simp [begins]
  | dead e => simp only [TOk, hp] at hok0; exact absurd hl hok0

/-- No thread returns to its first statement, and only the first statement leads to waiting. -/
theorem stmt_next (σ : Threads) {i : ℕ} {t : Thr} (hi : σ.threads[i]? = some t) : ∃ t', (σ.stmt i t).threads = σ.threads.set i t' ∧ t'.pc ≠ .clear ∧
    (t'.pc = .waiting → t.pc = .waiting ∨ t.pc = .clear ∧ ¬ (σ.b.subscribed = none ∧ σ.b.timestamps.isSome)) ∧
    (t.pc ≠ .clear → σ.b.stopped = true → (σ.stmt i t).b.stopped = true) ∧
    (σ.b.stopped = false → t.pc ≠ .set → (σ.stmt i t).b.stopped = false) ∧
    (t'.pc = .set → σ.shutdown = true ∨ σ.b.stopped = true) ∧
    ((∀ v, t.pc ≠ .store v) → (σ.stmt i t).b.idx = σ.b.idx) ∧ (σ.stmt i t).datetime = σ.datetime ∧
    (t'.pc = .done → t.role = .loop → t.pc = .done ∨ t.pc = .set) := by
  have hret : t.ret.pc ≠ .clear ∧ t.ret.pc ≠ .waiting ∧ t.ret.pc ≠ .set ∧ (t.ret.pc = .done → t.role ≠ .loop) := by
    unfold Thr.ret
    cases t.role with
    | loop => simp
    | calls is => cases is <;> simp [Thr.calling]
  cases hp : t.pc with
  | clear =>
    simp only [Threads.stmt, hp]
    refine ⟨⟨t.role, _⟩, rfl, ?_, ?_, by simp, by simp, ?_, by simp [Threads.goto], rfl, ?_⟩
    · simp only; split_ifs <;> simp
    · simp only
      split_ifs with hc
      · simp
      · exact fun _ => .inr ⟨trivial, fun h => hc ⟨by simp [h.1], h.2⟩⟩
    · simp only; split_ifs <;> simp
    · simp only; split_ifs <;> simp
  | shut =>
    simp only [Threads.stmt, hp]
    refine ⟨⟨t.role, _⟩, rfl, ?_, ?_, by simp [Threads.goto], by simp [Threads.goto], ?_, by simp [Threads.goto], rfl, ?_⟩ <;> simp only <;> split_ifs with hc <;> simp [hc]
  | halt =>
    simp only [Threads.stmt, hp]
    refine ⟨⟨t.role, _⟩, rfl, ?_, ?_, by simp [Threads.goto], by simp [Threads.goto], ?_, by simp [Threads.goto], rfl, ?_⟩ <;> simp only <;> split_ifs with hc <;> simp [hc]
  | waiting =>
    simp only [Threads.stmt, hp]
    refine ⟨⟨t.role, _⟩, rfl, ?_, ?_, by simp [Threads.goto], by simp [Threads.goto], ?_, by simp [Threads.goto], rfl, ?_⟩ <;> simp only <;> split_ifs with hc <;> simp [hc]
  | fetch idx =>
    simp only [Threads.stmt, hp]
    repeat' split
    all_goals exact ⟨⟨t.role, _⟩, rfl, by simp, by simp, by simp [Threads.goto], by simp [Threads.goto], by simp, by simp [Threads.goto], rfl, by simp⟩
  | send k ms =>
    cases ms <;> simp only [Threads.stmt, hp] <;>
      exact ⟨⟨t.role, _⟩, rfl, by simp, by simp, by simp [Threads.goto], by simp [Threads.goto], by simp, by simp [Threads.goto], rfl, by simp⟩
  | twist k =>
    simp only [Threads.stmt, hp]
    repeat' split
    all_goals first
      | exact ⟨⟨t.role, _⟩, rfl, by simp, by simp, by simp [Threads.goto], by simp [Threads.goto], by simp, by simp [Threads.goto], rfl, by simp⟩
      | exact ⟨t.ret, rfl, hret.1, fun h => absurd h hret.2.1, by simp, by simp, fun h => absurd h hret.2.2.1, by simp, rfl, fun h1 h2 => absurd h2 (hret.2.2.2 h1)⟩
  | load =>
    simp only [Threads.stmt, hp]
    split <;> exact ⟨⟨t.role, _⟩, rfl, by simp, by simp, by simp [Threads.goto], by simp [Threads.goto], by simp, by simp [Threads.goto], rfl, by simp⟩
  | later =>
    simp only [Threads.stmt, hp]
    split <;> exact ⟨⟨t.role, _⟩, rfl, by simp, by simp, by simp [Threads.goto], by simp [Threads.goto], by simp, by simp [Threads.goto], rfl, by simp⟩
  | earlier a =>
    simp only [Threads.stmt, hp]
    split <;> exact ⟨⟨t.role, _⟩, rfl, by simp, by simp, by simp [Threads.goto], by simp [Threads.goto], by simp, by simp [Threads.goto], rfl, by simp⟩
  | test =>
    simp only [Threads.stmt, hp]
    split <;> exact ⟨⟨t.role, _⟩, rfl, by simp, by simp, by simp [Threads.goto], by simp [Threads.goto], by simp, by simp [Threads.goto], rfl, by simp⟩
  | store v =>
    simp only [Threads.stmt, hp]
    exact ⟨⟨t.role, _⟩, rfl, by simp, by simp, by simp [Threads.goto], by simp [Threads.goto], by simp, fun h => absurd rfl (h v), rfl, by simp⟩
  | set =>
    simp only [Threads.stmt, hp]
    exact ⟨⟨t.role, _⟩, rfl, by simp, by simp, by simp [Threads.goto], by simp [Threads.goto], by simp, by simp [Threads.goto], rfl, by simp⟩
  | done =>
    simp only [Threads.stmt, hp]
    exact ⟨t, (set_same hi).symm, by simp [hp], by simp [hp], by simp, by simp, by simp [hp], by simp, trivial, by simp [hp]⟩
  | dead e =>
    simp only [Threads.stmt, hp]
    exact ⟨t, (set_same hi).symm, by simp [hp], by simp [hp], by simp, by simp, by simp [hp], by simp, trivial, by simp [hp]⟩

/-- The number of steps of thread `i` after one more event. -/
theorem stepsOf_append (i : ℕ) (evs : List TEv) (e : TEv) : (e = .run i → stepsOf i (evs ++ [e]) = stepsOf i evs + 1) ∧
    (e ≠ .run i → stepsOf i (evs ++ [e]) = stepsOf i evs) := by
  refine ⟨?_, ?_⟩
  · rintro rfl
    simp [stepsOf]
  · intro h
    cases e with
    | run j => simp only [ne_eq, TEv.run.injEq] at h; simp [stepsOf, h]
    | _ => simp [stepsOf]

/-- After `stop` or shutdown. -/
theorem ending (near : NearestFn) (hb : Playable b ns tl rl) (h0 : b.idx = 0) (dt : Bool) (before after : List TEv) (down : Bool)
    {σ0 : Threads} (hσ0 : TInv b ns σ0) (hlog : σ0.log = ((Threads.start b dt).exec near before).log) (hthr : σ0.threads = ((Threads.start b dt).exec near before).threads)
    (flag : ∀ pre, pre <+: after → (down = true → (σ0.exec near pre).shutdown = true) ∧
      (down = false → (σ0.exec near pre).b.stopped = true ∧ ∀ (i : ℕ) (t : Thr), (σ0.exec near pre).threads[i]? = some t → t.pc ≠ .clear ∧ t.pc ≠ .waiting))
    {i : ℕ} {t0 : Thr} (hi : σ0.threads[i]? = some t0) (hl : t0.role = .loop) :
    ∃ ks more, Publishing b ns tl rl ks (sentBy i σ0.log) ∧ Publishing b ns tl rl (ks ++ more) (sentBy i (σ0.exec near after).log) ∧ more.length ≤ 1 ∧
      (14 ≤ stepsOf i after → ∃ t, (σ0.exec near after).threads[i]? = some t ∧ t.pc = .done) := by
  rw [hthr] at hi
  obtain ⟨ks, hks⟩ := sending_exec near hb h0 dt before i t0 hi
  rw [← hthr] at hi
  rw [← hlog] at hks
  have h14 : ∀ pc, TOk ns.length ⟨.loop, pc⟩ → need down pc ≤ 14 ∧ begins down pc ≤ 1 := by
    intro pc hok
    cases pc with
    | send k ms => simp only [TOk] at hok; have := hok.2; simp only [need, begins]; omega
    | _ => cases down <;> simp [need, begins]
  have key : ∀ pre, pre <+: after → ∃ t, (σ0.exec near pre).threads[i]? = some t ∧ t.role = .loop ∧ ∃ more,
      Sending b ns tl rl (ks ++ more) (sentBy i (σ0.exec near pre).log) (pend b t.pc) ∧ more.length + begins down t.pc ≤ 1 ∧
      (t.pc = .done ∨ stepsOf i pre + need down t.pc ≤ 14) := by
    intro pre
    induction pre using List.reverseRecOn with
    | nil =>
      intro _
      have hok := hσ0.ok i t0 hi
      have : t0 = ⟨.loop, t0.pc⟩ := by cases t0; simp_all
      rw [this] at hok
      obtain ⟨g1, g2⟩ := h14 _ hok
      exact ⟨t0, hi, hl, [], by rw [List.append_nil]; exact hks, by simpa using g2, .inr (by simpa [stepsOf] using g1)⟩
    | append_singleton pre e ih =>
      intro hpre
      have hpre' : pre <+: after := (List.prefix_append pre [e]).trans hpre
      obtain ⟨t, g1, g2, more, g3, g4, g5⟩ := ih hpre'
      have hinv := tinv_exec near hb hσ0 pre
      rw [texec_append]
      obtain ⟨f1, f2⟩ := flag pre hpre'
      generalize hσ : σ0.exec near pre = σ at *
      show ∃ t, (σ.step near e).threads[i]? = some t ∧ _
      have hlt : i < (σ.step near e).threads.length := by
        have hlt := (List.getElem?_eq_some_iff.mp g1).1
        cases e with
        | spin => simp only [Threads.step]; split <;> simp only [List.length_append] <;> omega
        | publish idx => simp only [Threads.step, List.length_append]; omega
        | incoming ms =>
          simp only [Threads.step]
          split
          · exact hlt
          · simp only [List.length_append]; omega
        | stop => exact hlt
        | shutdown => exact hlt
        | run j =>
          simp only [Threads.step]
          split
          · exact hlt
          · rename_i tj hj
            obtain ⟨t', h', _⟩ := stmt_next σ hj
            rw [h', List.length_set]
            exact hlt
      obtain ⟨t', ht'⟩ : ∃ t', (σ.step near e).threads[i]? = some t' := ⟨_, List.getElem?_eq_getElem hlt⟩
      cases (step_cases near hb hinv e).2 i t' ht' with
      | rests h1 h2 h3 h4 =>
        rw [g1] at h1
        cases h1
        refine ⟨t, ht', g2, more, by rw [show (σ.exec near [e]).log = (σ.step near e).log from rfl, h2]; exact g3, g4, ?_⟩
        rw [(stepsOf_append i pre e).2 h4]
        exact g5
      | starts h1 _ _ _ => have := (List.getElem?_eq_some_iff.mp g1).1; omega
      | moves t1 h1 h2 h3 f =>
        rw [g1] at h1
        cases h1
        rw [h3] at f
        obtain ⟨w1, w2, w3, _⟩ := winding hb hinv g1 g2 down f1 (fun hd => ⟨(f2 hd).1, (f2 hd).2 i t g1⟩) f
        rw [← h3] at f
        have hsteps : t'.pc = .done ∨ stepsOf i (pre ++ [e]) + need down t'.pc ≤ 14 := by
          rw [(stepsOf_append i pre e).1 h2]
          rcases w1 with ⟨_, w⟩ | w
          · exact .inl w
          · rcases g5 with g5 | g5
            · rw [g5] at w; simp [need] at w
            · right; omega
        by_cases hf : ∃ idx, t.pc = .fetch idx
        · obtain ⟨idx, hf⟩ := hf
          rcases g3.fetch f hf with g3 | ⟨_, ⟨x, hx⟩, _⟩
          · refine ⟨t', ht', f.loop.mp g2, more ++ [((if idx.getD 0 = 0 then σ.b.idx else idx.getD 0) % ns.length).toNat], ?_, ?_, hsteps⟩
            · rw [← List.append_assoc]; exact g3
            · rw [w3 idx hf]
              rw [hf] at g4
              simp only [begins] at g4
              simp only [List.length_append, List.length_singleton]
              omega
          · have := f.ok
            simp only [TOk, hx] at this
            exact absurd (f.loop.mp g2) this
        · push Not at hf
          refine ⟨t', ht', f.loop.mp g2, more, g3.moves f hf, ?_, hsteps⟩
          have := w2 hf
          omega
  obtain ⟨t, k1, _, more, k2, k3, k4⟩ := key after List.prefix_rfl
  refine ⟨ks, more, hks.publishing, k2.publishing, by omega, fun h => ⟨t, k1, ?_⟩⟩
  rcases k4 with k4 | k4
  · exact k4
  · have hok := (tinv_exec near hb hσ0 after).ok i t k1
    cases hp : t.pc with
    | done => rfl
    | dead e =>
      simp only [TOk, hp] at hok
      exact absurd (by assumption) hok
    | _ => rw [hp] at k4; cases down <;> simp only [need] at k4 <;> (try simp at k4) <;> omega

theorem stop_flag (near : NearestFn) (hb : Playable b ns tl rl) (hsub : b.subscribed = none) : ∀ (after : List TEv), (∀ e ∈ after, e ≠ .spin) → ∀ σ : Threads, TInv b ns σ →
    σ.b.stopped = true → (∀ (i : ℕ) (t : Thr), σ.threads[i]? = some t → t.pc ≠ .clear ∧ t.pc ≠ .waiting) →
    (σ.exec near after).b.stopped = true ∧ ∀ (i : ℕ) (t : Thr), (σ.exec near after).threads[i]? = some t → t.pc ≠ .clear ∧ t.pc ≠ .waiting := by
  intro after
  induction after with
  | nil => intro _ σ _ h1 h2; exact ⟨h1, h2⟩
  | cons e after ih =>
    intro ha σ hinv h1 h2
    have hsp := ha e (by simp)
    show ((σ.step near e).exec near after).b.stopped = true ∧ ∀ (i : ℕ) (t : Thr), ((σ.step near e).exec near after).threads[i]? = some t → _
    refine ih (fun e he => ha e (by simp [he])) _ (step_cases near hb hinv e).1 ?_ ?_
    · cases e with
      | spin => exact absurd rfl hsp
      | publish idx => exact h1
      | incoming ms => simp only [Threads.step]; split <;> exact h1
      | stop => rfl
      | shutdown => exact h1
      | run j =>
        simp only [Threads.step]
        split
        · exact h1
        · rename_i tj hj
          obtain ⟨t', _, _, _, g, _⟩ := stmt_next σ hj
          exact g (h2 j tj hj).1 h1
    · intro i t hi
      cases (step_cases near hb hinv e).2 i t hi with
      | rests g1 _ _ _ => exact h2 i t g1
      | starts _ _ _ g =>
        cases g with
        | spin => exact absurd rfl hsp
        | publish idx => simp [Thr.calling]
        | incoming ms target _ => cases b.answers near target ms <;> simp [Thr.calling]
      | moves t1 g1 _ g3 f =>
        obtain ⟨t', k1, k2, k3, _⟩ := stmt_next σ g1
        have hlt := (List.getElem?_eq_some_iff.mp g1).1
        rw [g3, k1, List.getElem?_set, if_pos rfl, if_pos hlt] at hi
        cases hi
        refine ⟨k2, fun h => ?_⟩
        rcases k3 h with h | ⟨h, _⟩
        · exact (h2 i t1 g1).2 h
        · exact (h2 i t1 g1).1 h

theorem not_waiting (near : NearestFn) (hb : Playable b ns tl rl) (hsub : b.subscribed = none) (h0 : b.idx = 0) (dt : Bool) (evs : List TEv) :
    ∀ (i : ℕ) (t : Thr), ((Threads.start b dt).exec near evs).threads[i]? = some t → t.pc ≠ .waiting := by
  refine thread_induction near hb (fun _ _ _ t => t.pc ≠ .waiting) (tinv_start hb h0 dt) ?_ ?_ evs
  · intro j t h; simp [Threads.start] at h
  · intro pre σ _ hinv ih e i t' hev
    cases hev with
    | rests h1 _ _ _ => exact ih i t' h1
    | starts _ _ _ g =>
      cases g with
      | spin => simp
      | publish idx => simp [Thr.calling]
      | incoming ms target _ => cases b.answers near target ms <;> simp [Thr.calling]
    | moves t g1 _ g3 f =>
      obtain ⟨t1, k1, k2, k3, _⟩ := stmt_next σ g1
      have hlt := (List.getElem?_eq_some_iff.mp g1).1
      have e1 : (σ.step near e).threads[i]? = some t' := by rw [f.threads]; simp [hlt]
      rw [g3, k1, List.getElem?_set, if_pos rfl, if_pos hlt] at e1
      cases e1
      intro h
      rcases k3 h with h | ⟨_, h⟩
      · exact ih i t g1 h
      · exact h ⟨by rw [hinv.same.subscribed]; exact hsub, by rw [hinv.same.timestamps, hb.stamps]; rfl⟩

/-- `stop` ends all loops that have executed their first statement: each begins with at most one more sample and ends after at most fourteen more of its own
steps, whatever else is called (except `spin`). -/
theorem C92_stop (near : NearestFn) (hb : Playable b ns tl rl) (hsub : b.subscribed = none) (h0 : b.idx = 0) (dt : Bool) (before after : List TEv)
    (hclear : ∀ t ∈ ((Threads.start b dt).exec near before).threads, t.pc ≠ .clear) (ha : ∀ e ∈ after, e ≠ .spin) {i : ℕ} {t : Thr}
    (hi : ((Threads.start b dt).exec near before).threads[i]? = some t) (hl : t.role = .loop) :
    ∃ ks more, Publishing b ns tl rl ks (sentBy i ((Threads.start b dt).exec near before).log) ∧
      Publishing b ns tl rl (ks ++ more) (sentBy i ((Threads.start b dt).exec near (before ++ .stop :: after)).log) ∧ more.length ≤ 1 ∧
      (14 ≤ stepsOf i after → ∃ t', ((Threads.start b dt).exec near (before ++ .stop :: after)).threads[i]? = some t' ∧ t'.pc = .done) := by
  have hinv := tinv_exec near hb (tinv_start hb h0 dt) before
  have hinv' := (step_cases near hb hinv .stop).1
  rw [texec_append]
  refine ending near hb h0 dt before after false hinv' rfl rfl (fun pre hpre => ⟨by simp, fun _ => ?_⟩) hi hl
  refine stop_flag near hb hsub pre (fun e he => ha e (hpre.subset he)) _ hinv' rfl fun j tj hj => ⟨?_, ?_⟩
  · exact hclear tj (List.mem_of_getElem? hj)
  · exact not_waiting near hb hsub h0 dt before j tj hj

/-- Shutting down the node ends all loops: each begins with at most one more sample and ends after at most fourteen more of its own steps, whatever else is
called. -/
theorem C92_shutdown (near : NearestFn) (hb : Playable b ns tl rl) (h0 : b.idx = 0) (dt : Bool) (before after : List TEv) {i : ℕ} {t : Thr}
    (hi : ((Threads.start b dt).exec near before).threads[i]? = some t) (hl : t.role = .loop) :
    ∃ ks more, Publishing b ns tl rl ks (sentBy i ((Threads.start b dt).exec near before).log) ∧
      Publishing b ns tl rl (ks ++ more) (sentBy i ((Threads.start b dt).exec near (before ++ .shutdown :: after)).log) ∧ more.length ≤ 1 ∧
      (14 ≤ stepsOf i after → ∃ t', ((Threads.start b dt).exec near (before ++ .shutdown :: after)).threads[i]? = some t' ∧ t'.pc = .done) := by
  have hinv := tinv_exec near hb (tinv_start hb h0 dt) before
  have hinv' := (step_cases near hb hinv .shutdown).1
  rw [texec_append]
  refine ending near hb h0 dt before after true hinv' rfl rfl (fun pre hpre => ⟨fun _ => ?_, by simp⟩) hi hl
  clear hpre
  induction pre using List.reverseRecOn with
  | nil => rfl
  | append_singleton pre e ih =>
    rw [texec_append]
    have hp := tinv_exec near hb hinv' pre
    generalize Threads.exec near _ pre = σ at ih hp
    show (σ.step near e).shutdown = true
    cases e with
    | spin => simp only [Threads.step]; split <;> exact ih
    | publish idx => exact ih
    | incoming ms => simp only [Threads.step]; split <;> exact ih
    | stop => exact ih
    | shutdown => rfl
    | run j =>
      simp only [Threads.step]
      split
      · exact ih
      · rename_i tj hj
        obtain ⟨_, f⟩ := stmt_facts hb hp.same hp.idx (hp.ok j tj hj) hj
        rw [f.shutdown]
        exact ih

/-! ### Progress -/

/-- Steps until a loop begins with the next sample. -/
def left : TPC → ℕ
  | .fetch _ => 1
  | .halt => 2
  | .shut => 3
  | .clear => 4
  | .earlier _ => 4
  | .later => 5
  | .test => 6
  | .store _ => 7
  | .load => 8
  | .twist _ => 9
  | .send _ ms => 10 + ms.length
  | _ => 0

/-- The thread is in the loop. -/
def Looping : TPC → Prop
  | .set | .waiting | .done | .dead _ => False
  | _ => True

/-- One step of a loop, in detail: where it leads, and what it does to the index and to the sleeping times. -/
theorem loop_step (hb : Playable b ns tl rl) (hsub : b.subscribed = none) {σ : Threads} (hinv : TInv b ns σ) {i : ℕ} {t t' : Thr} (hi : σ.threads[i]? = some t)
    (hl : t.role = .loop) (f : StepFacts b ns tl rl σ i t (σ.stmt i t) t') (hp' : Looping t'.pc) :
    match t.pc with
    | .clear => t'.pc = .shut ∧ (σ.stmt i t).b.idx = σ.b.idx ∧ (σ.stmt i t).sleeps = σ.sleeps
    | .shut => t'.pc = .halt ∧ (σ.stmt i t).b.idx = σ.b.idx ∧ (σ.stmt i t).sleeps = σ.sleeps
    | .halt => t'.pc = .fetch none ∧ (σ.stmt i t).b.idx = σ.b.idx ∧ (σ.stmt i t).sleeps = σ.sleeps
    | .fetch _ => (∃ ms, ms.length ≤ 2 ∧ t'.pc = .send σ.b.idx ms) ∧ (σ.stmt i t).b.idx = σ.b.idx ∧ (σ.stmt i t).sleeps = σ.sleeps
    | .send k [] => t'.pc = .twist k ∧ (σ.stmt i t).b.idx = σ.b.idx ∧ (σ.stmt i t).sleeps = σ.sleeps
    | .send k (_ :: ms) => t'.pc = .send k ms ∧ (σ.stmt i t).b.idx = σ.b.idx ∧ (σ.stmt i t).sleeps = σ.sleeps
    | .twist _ => t'.pc = .load ∧ (σ.stmt i t).b.idx = σ.b.idx ∧ (σ.stmt i t).sleeps = σ.sleeps
    | .load => t'.pc = .store ((σ.b.idx + 1) % ns.length) ∧ (σ.stmt i t).b.idx = σ.b.idx ∧ (σ.stmt i t).sleeps = σ.sleeps
    | .store v => t'.pc = .test ∧ (σ.stmt i t).b.idx = v ∧ (σ.stmt i t).sleeps = σ.sleeps
    | .test => (σ.stmt i t).b.idx = σ.b.idx ∧ (0 < σ.b.idx ∧ t'.pc = .later ∧ (σ.stmt i t).sleeps = σ.sleeps ∨
        σ.b.idx = 0 ∧ t'.pc = .shut ∧ (σ.stmt i t).sleeps = (i, 0) :: σ.sleeps)
    | .later => (σ.stmt i t).b.idx = σ.b.idx ∧ (σ.stmt i t).sleeps = σ.sleeps ∧
        ∃ x : ℕ, ns[σ.b.idx.toNat]? = some x ∧ t'.pc = .earlier x
    | .earlier a => (σ.stmt i t).b.idx = σ.b.idx ∧ t'.pc = .shut ∧ (0 < σ.b.idx →
        ∃ x : ℕ, ns[σ.b.idx.toNat - 1]? = some x ∧ (σ.stmt i t).sleeps = (i, if σ.datetime then (a - x) / 1000000000 else a - x) :: σ.sleeps)
    | _ => False := by
  have hlt : i < σ.threads.length := (List.getElem?_eq_some_iff.mp hi).1
  have hn : (σ.stmt i t).threads[i]? = some t' := by rw [f.threads]; simp [hlt]
  have hl' : t'.role = .loop := f.loop.mp hl
  have hok := f.ok
  have hok0 := hinv.ok i t hi
  have hts : σ.b.timestamps = some (ns.map fun n : ℕ => (n : ℝ)) := by rw [hinv.same.timestamps]; exact hb.stamps
  have hs : σ.b.subscribed = none := by rw [hinv.same.subscribed]; exact hsub
  have go : ∀ pc, (σ.stmt i t).threads = (σ.goto i t pc).threads → t'.pc = pc := by
    intro pc e
    rw [e] at hn
    simp only [Threads.goto, List.getElem?_set, hlt, if_true, Option.some.injEq] at hn
    rw [← hn]
  obtain ⟨i1, i2⟩ := hinv.idx
  have get : ∀ k : ℕ, k < ns.length → ∃ x : ℕ, ns[k]? = some x ∧ pyGet (ns.map fun n : ℕ => (n : ℝ)) (k : ℤ) = .ok (x : ℝ) := by
    intro k hk
    exact ⟨_, List.getElem?_eq_getElem hk, pyGet_nat _ (by simp [hk])⟩
  cases hp : t.pc with
  | clear =>
    have h1 := go .shut (by simp only [Threads.stmt, hp, hs, hts]; rfl)
    simp only [Threads.stmt, hp]
    exact ⟨h1, by trivial, by trivial⟩
  | shut =>
    have h1 := go _ (by simp only [Threads.stmt, hp]; rfl)
    simp only [Threads.stmt, hp]
    refine ⟨?_, rfl, rfl⟩
    rw [h1]
    split_ifs with hc
    · rw [h1, hc] at hp'; exact absurd hp' (by simp [Looping])
    · rfl
  | halt =>
    have h1 := go _ (by simp only [Threads.stmt, hp]; rfl)
    simp only [Threads.stmt, hp]
    refine ⟨?_, rfl, rfl⟩
    rw [h1]
    split_ifs with hc
    · rw [h1, hc] at hp'; exact absurd hp' (by simp [Looping])
    · rfl
  | fetch idx =>
    simp only [TOk, hp] at hok0
    have := hok0 hl
    subst this
    obtain ⟨ms, e, h2, _⟩ := moving_ok hb (k := σ.b.idx) ⟨by omega, by omega⟩
    have e1 : σ.stmt i t = σ.goto i t (.send σ.b.idx ms) := by
      simp only [Threads.stmt, hp, hts, hinv.same.movingMsgs, Option.getD_none, if_true, e]
    have h1 := go (.send σ.b.idx ms) (by rw [e1])
    rw [e1]
    exact ⟨⟨ms, h2, h1⟩, rfl, rfl⟩
  | send k ms =>
    cases ms with
    | nil =>
      have h1 := go (.twist k) (by simp only [Threads.stmt, hp])
      simp only [Threads.stmt, hp]
      exact ⟨h1, rfl, rfl⟩
    | cons m ms =>
      have h1 := go (.send k ms) (by simp only [Threads.stmt, hp])
      simp only [Threads.stmt, hp]
      exact ⟨h1, rfl, rfl⟩
  | twist k =>
    have hndead : ∀ e, t'.pc ≠ .dead e := fun e h => by simp only [TOk, h] at hok; exact hok hl'
    have hr : t.ret = ⟨.loop, .load⟩ := by simp only [Thr.ret, hl]
    simp only [Threads.stmt, hp] at hn ⊢
    revert hn
    repeat' split
    all_goals simp only [Threads.goto, List.getElem?_set, hlt, if_true, Option.some.injEq]
    all_goals intro hn
    all_goals first
      | (rw [← hn, hr]; exact ⟨by trivial, by trivial, by trivial⟩)
      | (rw [← hn] at hndead; exact absurd rfl (hndead _))
  | load =>
    have h1 := go (.store ((σ.b.idx + 1) % ns.length)) (by simp only [Threads.stmt, hp, hts, List.length_map])
    simp only [Threads.stmt, hp, hts]
    exact ⟨h1, rfl, rfl⟩
  | store v =>
    have h1 := go .test (by simp only [Threads.stmt, hp, Threads.goto])
    simp only [Threads.stmt, hp]
    exact ⟨h1, by trivial, by trivial⟩
  | test =>
    by_cases h0 : σ.b.idx > 0
    · have h1 := go .later (by simp only [Threads.stmt, hp, if_pos h0])
      simp only [Threads.stmt, hp, if_pos h0]
      exact ⟨rfl, .inl ⟨h0, h1, rfl⟩⟩
    · have h1 := go .shut (by simp only [Threads.stmt, hp, if_neg h0, Threads.goto])
      simp only [Threads.stmt, hp, if_neg h0]
      exact ⟨by trivial, .inr ⟨by omega, h1, by trivial⟩⟩
  | later =>
    obtain ⟨x, hx, gx⟩ := get σ.b.idx.toNat (by omega)
    rw [show ((σ.b.idx.toNat : ℕ) : ℤ) = σ.b.idx by omega] at gx
    have e1 : σ.stmt i t = σ.goto i t (.earlier x) := by simp only [Threads.stmt, hp, hts, Option.getD_some, gx]
    have h1 := go (.earlier x) (by rw [e1])
    rw [e1]
    exact ⟨rfl, rfl, x, hx, h1⟩
  | earlier a =>
    have hndead : ∀ e, t'.pc ≠ .dead e := fun e h => by simp only [TOk, h] at hok; exact hok hl'
    have h1 : t'.pc = .shut ∧ (σ.stmt i t).b.idx = σ.b.idx := by
      simp only [Threads.stmt, hp] at hn ⊢
      revert hn
      split
      all_goals simp only [Threads.goto, List.getElem?_set, hlt, if_true, Option.some.injEq]
      all_goals intro hn
      · rw [← hn] at hndead; exact absurd rfl (hndead _)
      · rw [← hn]; exact ⟨rfl, trivial⟩
    refine ⟨h1.2, h1.1, fun hpos => ?_⟩
    obtain ⟨x, hx, gx⟩ := get (σ.b.idx.toNat - 1) (by omega)
    rw [show ((σ.b.idx.toNat - 1 : ℕ) : ℤ) = σ.b.idx - 1 by omega] at gx
    refine ⟨x, hx, ?_⟩
    simp only [Threads.stmt, hp, hts, Option.getD_some, gx]
    simp only [sub_div]
  | set =>
    have h1 := go .done (by simp only [Threads.stmt, hp, Threads.goto])
    rw [h1] at hp'
    exact hp'
  | waiting =>
    have h1 := go _ (by simp only [Threads.stmt, hp]; rfl)
    rw [h1] at hp'
    revert hp'
    split_ifs <;> simp [Looping]
  | done =>
    simp only [Threads.stmt, hp] at hn
    rw [hi] at hn
    cases hn
    rw [hp] at hp'
    exact hp'
  | dead e =>
    simp only [Threads.stmt, hp] at hn
    rw [hi] at hn
    cases hn
    rw [hp] at hp'
    exact hp'

theorem idx_kept (near : NearestFn) {σ : Threads} (hinv : TInv b ns σ) {i : ℕ} (huniq : ∀ (j : ℕ) (tj : Thr), σ.threads[j]? = some tj → tj.role = .loop → j = i)
    {e : TEv} (he : e ≠ .run i) : (σ.step near e).b.idx = σ.b.idx := by
  cases e with
  | spin => simp only [Threads.step]; split <;> rfl
  | publish idx => rfl
  | incoming ms => simp only [Threads.step]; split <;> rfl
  | stop => rfl
  | shutdown => rfl
  | run j =>
    simp only [Threads.step]
    split
    · rfl
    · rename_i tj hj
      obtain ⟨_, _, _, _, _, _, _, g, _⟩ := stmt_next σ hj
      refine g fun v hv => ?_
      have hok := hinv.ok j tj hj
      simp only [TOk, hv] at hok
      exact he (by rw [huniq j tj hj hok.1])

theorem datetime_kept (near : NearestFn) (σ : Threads) (e : TEv) : (σ.step near e).datetime = σ.datetime := by
  cases e with
  | spin => simp only [Threads.step]; split <;> rfl
  | publish idx => rfl
  | incoming ms => simp only [Threads.step]; split <;> rfl
  | stop => rfl
  | shutdown => rfl
  | run j =>
    simp only [Threads.step]
    split
    · rfl
    · rename_i tj hj
      obtain ⟨_, _, _, _, _, _, _, _, g, _⟩ := stmt_next σ hj
      exact g

/-- Without `spin` the index stays, and there are no loops. -/
theorem no_loops (near : NearestFn) (hb : Playable b ns tl rl) (h0 : b.idx = 0) (dt : Bool) (evs : List TEv) (he : ∀ e ∈ evs, e ≠ .spin) :
    ((Threads.start b dt).exec near evs).b.idx = 0 ∧ ((Threads.start b dt).exec near evs).datetime = dt ∧
    ∀ (j : ℕ) (t : Thr), ((Threads.start b dt).exec near evs).threads[j]? = some t → t.role ≠ .loop := by
  induction evs using List.reverseRecOn with
  | nil => exact ⟨h0, rfl, fun j t h => by simp [Threads.start, Threads.exec] at h⟩
  | append_singleton pre e ih =>
    obtain ⟨g1, g2, g3⟩ := ih fun e he' => he e (by simp [he'])
    have hinv := tinv_exec near hb (tinv_start hb h0 dt) pre
    rw [texec_append]
    generalize (Threads.start b dt).exec near pre = σ at *
    show (σ.step near e).b.idx = 0 ∧ (σ.step near e).datetime = dt ∧ ∀ (j : ℕ) (t : Thr), (σ.step near e).threads[j]? = some t → t.role ≠ .loop
    refine ⟨?_, (datetime_kept near σ e).trans g2, ?_⟩
    · obtain ⟨i, hi⟩ : ∃ i, e ≠ .run i := by
        cases e with
        | run k => exact ⟨k + 1, by simp⟩
        | _ => exact ⟨0, by simp⟩
      exact (idx_kept near hinv (i := i) (fun j tj hj hl => absurd hl (g3 j tj hj)) hi).trans g1
    · intro j t hj hl
      cases (step_cases near hb hinv e).2 j t hj with
      | rests h1 _ _ _ => exact g3 j t h1 hl
      | moves t1 h1 _ _ f => exact g3 j t1 h1 (f.loop.mpr hl)
      | starts _ _ _ h =>
        cases h with
        | spin => exact he .spin (by simp) rfl
        | publish idx => exact (calling_ok 0 _).2 hl
        | incoming ms target _ => exact (calling_ok 0 _).2 hl

/-- How far a loop is that has begun with `m` samples and slept `s` times, when it is the only one. -/
def Phase (ns : List ℕ) (idx : ℤ) (m s : ℕ) : TPC → Prop
  | .clear => m = 0 ∧ s = 0 ∧ idx = 0
  | .shut | .halt | .fetch _ => m = s ∧ idx = ((m % ns.length : ℕ) : ℤ)
  | .send _ _ | .twist _ | .load => m = s + 1 ∧ idx = ((s % ns.length : ℕ) : ℤ)
  | .store v => m = s + 1 ∧ v = ((m % ns.length : ℕ) : ℤ)
  | .test => m = s + 1 ∧ idx = ((m % ns.length : ℕ) : ℤ)
  | .later => m = s + 1 ∧ idx = ((m % ns.length : ℕ) : ℤ) ∧ 0 < idx
  | .earlier a => m = s + 1 ∧ idx = ((m % ns.length : ℕ) : ℤ) ∧ 0 < idx ∧ ∃ y : ℕ, ns[m % ns.length]? = some y ∧ a = y
  | _ => True

/-- The loop sleeps for the time between the samples, and not at all after the last one. -/
def SleptOk (ns : List ℕ) (dt : Bool) (ds : List ℝ) : Prop :=
  ∀ (j : ℕ) d, ds[j]? = some d → ∀ x y : ℕ, ns[j % ns.length]? = some x → ns[(j + 1) % ns.length]? = some y →
    d = if (j + 1) % ns.length = 0 then 0 else if dt then ((y : ℝ) - x) / 1000000000 else (y : ℝ) - x

theorem SleptOk.snoc {dt : Bool} {ds : List ℝ} {d : ℝ} (h : SleptOk ns dt ds)
    (hd : ∀ x y : ℕ, ns[ds.length % ns.length]? = some x → ns[(ds.length + 1) % ns.length]? = some y →
      d = if (ds.length + 1) % ns.length = 0 then 0 else if dt then ((y : ℝ) - x) / 1000000000 else (y : ℝ) - x) : SleptOk ns dt (ds ++ [d]) := by
  intro j d' hj x y hx hy
  rw [List.getElem?_append] at hj
  split_ifs at hj with hlt
  · exact h j d' hj x y hx hy
  · have h0 := (List.getElem?_eq_some_iff.mp hj).1
    simp only [List.length_singleton] at h0
    have : j = ds.length := by omega
    subst this
    simp only [Nat.sub_self, List.getElem?_cons_zero, Option.some.injEq] at hj
    subst hj
    exact hd x y hx hy

/-- The only loop moves. -/
theorem phase_step (hb : Playable b ns tl rl) (hsub : b.subscribed = none) {σ : Threads} (hinv : TInv b ns σ) {i : ℕ} {t t' : Thr} (hi : σ.threads[i]? = some t)
    (hl : t.role = .loop) (f : StepFacts b ns tl rl σ i t (σ.stmt i t) t') {m : ℕ}
    (hph : Phase ns σ.b.idx m (sleptBy i σ.sleeps).length t.pc) (hsl : SleptOk ns σ.datetime (sleptBy i σ.sleeps)) :
    Phase ns (σ.stmt i t).b.idx (match t.pc with
      | .fetch _ => m + 1
      | _ => m) (sleptBy i (σ.stmt i t).sleeps).length t'.pc ∧ SleptOk ns σ.datetime (sleptBy i (σ.stmt i t).sleeps) := by
  have hn : 0 < ns.length := List.length_pos_iff.mpr hb.nonempty
  by_cases hlp : Looping t'.pc
  · have key := loop_step hb hsub hinv hi hl f hlp
    cases hp : t.pc with
    | clear =>
      simp only [hp, Phase] at key hph ⊢
      rw [key.1, key.2.1, key.2.2]
      obtain ⟨rfl, p2, p3⟩ := hph
      exact ⟨⟨p2.symm, by simpa using p3⟩, hsl⟩
    | shut => simp only [hp, Phase] at key hph ⊢; rw [key.1, key.2.1, key.2.2]; exact ⟨hph, hsl⟩
    | halt => simp only [hp, Phase] at key hph ⊢; rw [key.1, key.2.1, key.2.2]; exact ⟨hph, hsl⟩
    | fetch idx =>
      simp only [hp, Phase] at key hph ⊢
      obtain ⟨⟨ms, _, k1⟩, k2, k3⟩ := key
      rw [k1, k2, k3]
      obtain ⟨p1, p2⟩ := hph
      subst p1
      exact ⟨⟨rfl, p2⟩, hsl⟩
    | send k ms =>
      cases ms <;> (simp only [hp, Phase] at key hph ⊢; rw [key.1, key.2.1, key.2.2]; exact ⟨hph, hsl⟩)
    | twist k => simp only [hp, Phase] at key hph ⊢; rw [key.1, key.2.1, key.2.2]; exact ⟨hph, hsl⟩
    | load =>
      simp only [hp, Phase] at key hph ⊢
      rw [key.1, key.2.2]
      obtain ⟨p1, p2⟩ := hph
      refine ⟨⟨p1, ?_⟩, hsl⟩
      rw [p2, p1, Int.natCast_mod, Int.emod_add_emod]
      push_cast
      rfl
    | store v =>
      simp only [hp, Phase] at key hph ⊢
      rw [key.1, key.2.1, key.2.2]
      exact ⟨hph, hsl⟩
    | test =>
      simp only [hp, Phase] at key hph ⊢
      obtain ⟨k1, ⟨k2, k3, k4⟩ | ⟨k2, k3, k4⟩⟩ := key
      · rw [k3, k1, k4]
        exact ⟨⟨hph.1, hph.2, k2⟩, hsl⟩
      · rw [k3, k1, k4, sleptBy_cons, if_pos rfl]
        obtain ⟨p1, p2⟩ := hph
        refine ⟨⟨by simp [p1], p2⟩, hsl.snoc fun x y _ _ => ?_⟩
        rw [← p1, if_pos (by omega)]
    | later =>
      simp only [hp, Phase] at key hph ⊢
      obtain ⟨k1, k2, x, k3, k4⟩ := key
      rw [k4, k1, k2]
      obtain ⟨p1, p2, p3⟩ := hph
      refine ⟨⟨p1, p2, p3, x, ?_, rfl⟩, hsl⟩
      rw [← k3, p2, Int.toNat_natCast]
    | earlier a =>
      simp only [hp, Phase] at key hph ⊢
      obtain ⟨k1, k2, k3⟩ := key
      obtain ⟨p1, p2, p3, y, p4, p5⟩ := hph
      obtain ⟨x, k4, k5⟩ := k3 p3
      rw [k2, k1, k5, sleptBy_cons, if_pos rfl]
      refine ⟨⟨by simp [p1], p2⟩, hsl.snoc fun x' y' hx hy => ?_⟩
      rw [← p1] at hy ⊢
      rw [p4] at hy
      cases hy
      have hm : m % ns.length ≠ 0 := by omega
      rw [if_neg hm]
      have hprev : (sleptBy i σ.sleeps).length % ns.length = σ.b.idx.toNat - 1 := by
        rw [p2, Int.toNat_natCast, p1]
        generalize (sleptBy i σ.sleeps).length = s at p1
        have hs := Nat.mod_lt s hn
        rcases Nat.lt_or_ge (s % ns.length + 1) ns.length with hlt | hge
        · rw [Nat.add_mod, Nat.mod_eq_of_lt (show 1 < ns.length by omega), Nat.mod_eq_of_lt hlt]
          omega
        · exfalso
          apply hm
          rw [p1, ← Nat.mod_add_mod, show s % ns.length + 1 = ns.length by omega, Nat.mod_self]
      rw [hprev, k4] at hx
      cases hx
      rw [p5]
    | _ => simp only [hp] at key
  · have hph' : ∀ idx m s, Phase ns idx m s t'.pc := by
      intro idx m s
      revert hlp
      cases t'.pc <;> simp [Looping, Phase]
    refine ⟨hph' _ _ _, ?_⟩
    rcases stmt_sleeps σ i t with h | ⟨⟨d, h⟩, hpc⟩
    · rw [h]; exact hsl
    · exfalso
      have hlt : i < σ.threads.length := (List.getElem?_eq_some_iff.mp hi).1
      have hn' : (σ.stmt i t).threads[i]? = some t' := by rw [f.threads]; simp [hlt]
      have hok := f.ok
      have hl' : t'.role = .loop := f.loop.mp hl
      have hndead : ∀ e, t'.pc ≠ .dead e := fun e h => by simp only [TOk, h] at hok; exact hok hl'
      apply hlp
      rcases hpc with hp | ⟨a, hp⟩
      · simp only [Threads.stmt, hp] at hn'
        split at hn' <;> simp only [Threads.goto, List.getElem?_set, hlt, if_true, Option.some.injEq] at hn' <;> rw [← hn'] <;> simp [Looping]
      · simp only [Threads.stmt, hp] at hn'
        split at hn' <;> simp only [Threads.goto, List.getElem?_set, hlt, if_true, Option.some.injEq] at hn'
        · rw [← hn'] at hndead; exact absurd rfl (hndead _)
        · rw [← hn']; simp [Looping]

/-- With one call of `spin` the samples come in order, each exactly once per round, whatever other threads publish, answer, stop or shut down at the same time:
the loop sends the samples 0, 1, ..., n-1, 0, 1, ... and sleeps for the time between the samples. -/
theorem C92_one_loop (near : NearestFn) (hb : Playable b ns tl rl) (hsub : b.subscribed = none) (h0 : b.idx = 0) (dt : Bool) (before after : List TEv)
    (hbe : ∀ e ∈ before, e ≠ .spin) (haf : ∀ e ∈ after, e ≠ .spin) {i : ℕ} (hi : i = ((Threads.start b dt).exec near before).threads.length) :
    (∃ m, Publishing b ns tl rl ((List.range m).map fun j => j % ns.length) (sentBy i ((Threads.start b dt).exec near (before ++ .spin :: after)).log)) ∧
    (∀ (j : ℕ) d, (sleptBy i ((Threads.start b dt).exec near (before ++ .spin :: after)).sleeps)[j]? = some d →
      ∀ x y : ℕ, ns[j % ns.length]? = some x → ns[(j + 1) % ns.length]? = some y →
      d = if (j + 1) % ns.length = 0 then 0 else if dt then ((y : ℝ) - x) / 1000000000 else (y : ℝ) - x) := by
  have hn : 0 < ns.length := List.length_pos_iff.mpr hb.nonempty
  have hinv := tinv_exec near hb (tinv_start hb h0 dt) before
  obtain ⟨b1, b2, b3⟩ := no_loops near hb h0 dt before hbe
  rw [texec_append]
  show (∃ m, Publishing b ns tl rl _ (sentBy i ((((Threads.start b dt).exec near before).step near .spin).exec near after).log)) ∧
    (∀ (j : ℕ) d, (sleptBy i ((((Threads.start b dt).exec near before).step near .spin).exec near after).sleeps)[j]? = some d → _)
  have hts : ((Threads.start b dt).exec near before).b.timestamps = some (ns.map fun n : ℕ => (n : ℝ)) := by rw [hinv.same.timestamps]; exact hb.stamps
  have hst : ((Threads.start b dt).exec near before).step near .spin =
      { (Threads.start b dt).exec near before with threads := ((Threads.start b dt).exec near before).threads ++ [⟨.loop, .clear⟩] } := by
    simp only [Threads.step, hts]
  have hinv' := (step_cases near hb hinv .spin).1
  have key : ∃ t m, ((((Threads.start b dt).exec near before).step near .spin).exec near after).threads[i]? = some t ∧ t.role = .loop ∧
      (∀ (j : ℕ) (tj : Thr), ((((Threads.start b dt).exec near before).step near .spin).exec near after).threads[j]? = some tj → tj.role = .loop → j = i) ∧
      Sending b ns tl rl ((List.range m).map fun j => j % ns.length) (sentBy i ((((Threads.start b dt).exec near before).step near .spin).exec near after).log) (pend b t.pc) ∧
      Phase ns ((((Threads.start b dt).exec near before).step near .spin).exec near after).b.idx m
        (sleptBy i ((((Threads.start b dt).exec near before).step near .spin).exec near after).sleeps).length t.pc ∧
      SleptOk ns dt (sleptBy i ((((Threads.start b dt).exec near before).step near .spin).exec near after).sleeps) ∧
      ((((Threads.start b dt).exec near before).step near .spin).exec near after).datetime = dt := by
    generalize hσ0 : ((Threads.start b dt).exec near before).step near .spin = σ0 at *
    induction after using List.reverseRecOn with
    | nil =>
      show ∃ t m, σ0.threads[i]? = some t ∧ t.role = .loop ∧ (∀ (j : ℕ) (tj : Thr), σ0.threads[j]? = some tj → tj.role = .loop → j = i) ∧
        Sending b ns tl rl _ (sentBy i σ0.log) (pend b t.pc) ∧ Phase ns σ0.b.idx m (sleptBy i σ0.sleeps).length t.pc ∧ SleptOk ns dt (sleptBy i σ0.sleeps) ∧ σ0.datetime = dt
      have f1 : sentBy i σ0.log = [] := by rw [hst]; exact sentBy_fresh hinv.fresh (by omega)
      have f2 : sleptBy i σ0.sleeps = [] := by rw [hst]; exact sleptBy_fresh hinv.freshS (by omega)
      refine ⟨⟨.loop, .clear⟩, 0, ?_, rfl, ?_, ?_, ?_, ?_, ?_⟩
      · rw [hst]; simp [hi]
      · intro j tj hj hl
        rw [hst] at hj
        simp only [List.getElem?_append] at hj
        split_ifs at hj with hlt
        · exact absurd hl (b3 j tj hj)
        · have := (List.getElem?_eq_some_iff.mp hj).1
          simp only [List.length_singleton] at this
          omega
      · rw [f1]; exact sending_nil
      · rw [f2, hst]; exact ⟨rfl, rfl, b1⟩
      · rw [f2]; intro j d h; simp at h
      · rw [hst]; exact b2
    | append_singleton pre e ih =>
      obtain ⟨t, m, g1, g2, g3, g4, g5, g6, g7⟩ := ih fun e he => haf e (by simp [he])
      have hsp := haf e (by simp)
      have hv := tinv_exec near hb hinv' pre
      rw [texec_append]
      generalize σ0.exec near pre = σ at *
      show ∃ t m, (σ.step near e).threads[i]? = some t ∧ t.role = .loop ∧ (∀ (j : ℕ) (tj : Thr), (σ.step near e).threads[j]? = some tj → tj.role = .loop → j = i) ∧
        Sending b ns tl rl _ (sentBy i (σ.step near e).log) (pend b t.pc) ∧ Phase ns (σ.step near e).b.idx m (sleptBy i (σ.step near e).sleeps).length t.pc ∧
        SleptOk ns dt (sleptBy i (σ.step near e).sleeps) ∧ (σ.step near e).datetime = dt
      have huniq : ∀ (j : ℕ) (tj : Thr), (σ.step near e).threads[j]? = some tj → tj.role = .loop → j = i := by
        intro j tj hj hl
        cases (step_cases near hb hv e).2 j tj hj with
        | rests h1 _ _ _ => exact g3 j tj h1 hl
        | moves t1 h1 _ _ f => exact g3 j t1 h1 (f.loop.mpr hl)
        | starts _ _ _ h =>
          cases h with
          | spin => exact absurd rfl hsp
          | publish idx => exact absurd hl (calling_ok 0 _).2
          | incoming ms target _ => exact absurd hl (calling_ok 0 _).2
      have hlt : i < (σ.step near e).threads.length := by
        have hlt := (List.getElem?_eq_some_iff.mp g1).1
        cases e with
        | spin => exact absurd rfl hsp
        | publish idx => simp only [Threads.step, List.length_append]; omega
        | incoming ms =>
          simp only [Threads.step]
          split
          · exact hlt
          · simp only [List.length_append]; omega
        | stop => exact hlt
        | shutdown => exact hlt
        | run j =>
          simp only [Threads.step]
          split
          · exact hlt
          · rename_i tj hj
            obtain ⟨t', h', _⟩ := stmt_next σ hj
            rw [h', List.length_set]
            exact hlt
      obtain ⟨t', ht'⟩ : ∃ t', (σ.step near e).threads[i]? = some t' := ⟨_, List.getElem?_eq_getElem hlt⟩
      have hdt := (datetime_kept near σ e).trans g7
      cases (step_cases near hb hv e).2 i t' ht' with
      | starts h1 _ _ _ => have := (List.getElem?_eq_some_iff.mp g1).1; omega
      | rests h1 h2 h3 h4 =>
        rw [g1] at h1
        cases h1
        refine ⟨t, m, ht', g2, huniq, by rw [h2]; exact g4, ?_, by rw [h3]; exact g6, hdt⟩
        rw [h3, idx_kept near hv g3 h4]
        exact g5
      | moves t1 h1 h2 h3 f =>
        rw [g1] at h1
        cases h1
        have f' := f
        rw [h3] at f'
        rw [← g7] at g6
        obtain ⟨p1, p2⟩ := phase_step hb hsub hv g1 g2 f' g5 g6
        rw [← h3] at p1 p2
        rw [g7] at p2
        refine ⟨t', _, ht', f.loop.mp g2, huniq, ?_, p1, p2, hdt⟩
        by_cases hf : ∃ idx, t.pc = .fetch idx
        · obtain ⟨idx, hf⟩ := hf
          have hok := hv.ok i t g1
          simp only [TOk, hf] at hok
          have := hok g2
          subst this
          rcases g4.fetch f hf with g4 | ⟨⟨k, hk, _⟩, _⟩
          · simp only [hf]
            simp only [hf, Phase] at g5
            rw [List.range_succ, List.map_append]
            simp only [Option.getD_none, if_true, g5.2] at g4
            rw [show (((m % ns.length : ℕ) : ℤ) % (ns.length : ℤ)).toNat = m % ns.length by
              rw [← Int.natCast_mod, Int.toNat_natCast, Nat.mod_mod]] at g4
            exact g4
          · cases hk
        · push Not at hf
          have := g4.moves f hf
          revert this
          cases hp : t.pc with
          | fetch idx => exact absurd hp (hf idx)
          | _ => exact id
  obtain ⟨t, m, _, _, _, k1, _, k2, _⟩ := key
  exact ⟨⟨m, k1.publishing⟩, k2⟩

/-- Without `stop` and shutdown, all loops go on. -/
theorem calm (near : NearestFn) (hb : Playable b ns tl rl) (hsub : b.subscribed = none) (h0 : b.idx = 0) (hst : b.stopped = false) (dt : Bool) (evs : List TEv)
    (he : ∀ e ∈ evs, e ≠ .stop ∧ e ≠ .shutdown) :
    ((Threads.start b dt).exec near evs).shutdown = false ∧ ((Threads.start b dt).exec near evs).b.stopped = false ∧
    ∀ (j : ℕ) (t : Thr), ((Threads.start b dt).exec near evs).threads[j]? = some t → t.role = .loop → Looping t.pc := by
  induction evs using List.reverseRecOn with
  | nil => exact ⟨rfl, hst, fun j t h => by simp [Threads.start, Threads.exec] at h⟩
  | append_singleton pre e ih =>
    obtain ⟨g1, g2, g3⟩ := ih fun e he' => he e (by simp [he'])
    have hev := he e (by simp)
    have hinv := tinv_exec near hb (tinv_start hb h0 dt) pre
    have hnw := not_waiting near hb hsub h0 dt (pre ++ [e])
    rw [texec_append] at hnw ⊢
    generalize (Threads.start b dt).exec near pre = σ at *
    change ∀ (i : ℕ) (t : Thr), (σ.step near e).threads[i]? = some t → t.pc ≠ .waiting at hnw
    show (σ.step near e).shutdown = false ∧ (σ.step near e).b.stopped = false ∧ ∀ (j : ℕ) (t : Thr), (σ.step near e).threads[j]? = some t → t.role = .loop → Looping t.pc
    refine ⟨?_, ?_, ?_⟩
    · cases e with
      | spin => simp only [Threads.step]; split <;> exact g1
      | publish idx => exact g1
      | incoming ms => simp only [Threads.step]; split <;> exact g1
      | stop => exact absurd rfl hev.1
      | shutdown => exact absurd rfl hev.2
      | run j =>
        simp only [Threads.step]
        split
        · exact g1
        · rename_i tj hj
          obtain ⟨_, f⟩ := stmt_facts hb hinv.same hinv.idx (hinv.ok j tj hj) hj
          rw [f.shutdown]
          exact g1
    · cases e with
      | spin => simp only [Threads.step]; split <;> exact g2
      | publish idx => exact g2
      | incoming ms => simp only [Threads.step]; split <;> exact g2
      | stop => exact absurd rfl hev.1
      | shutdown => exact g2
      | run j =>
        simp only [Threads.step]
        split
        · exact g2
        · rename_i tj hj
          obtain ⟨_, _, _, _, _, g, _⟩ := stmt_next σ hj
          refine g g2 fun hp => ?_
          have hok := hinv.ok j tj hj
          simp only [TOk, hp] at hok
          have := g3 j tj hj hok
          rw [hp] at this
          exact this
    · intro j t hj hl
      have hw := hnw j t hj
      cases (step_cases near hb hinv e).2 j t hj with
      | rests h1 _ _ _ => exact g3 j t h1 hl
      | starts _ _ _ h =>
        cases h with
        | spin => simp [Looping]
        | publish idx => exact absurd hl (calling_ok 0 _).2
        | incoming ms target _ => exact absurd hl (calling_ok 0 _).2
      | moves t1 h1 _ h3 f =>
        obtain ⟨t', k1, _, _, _, _, k2, _, _, k3⟩ := stmt_next σ h1
        have hlt := (List.getElem?_eq_some_iff.mp h1).1
        rw [h3, k1, List.getElem?_set, if_pos rfl, if_pos hlt] at hj
        cases hj
        have hok := f.ok
        have hl1 := f.loop.mpr hl
        have hlp := g3 j t1 h1 hl1
        cases hp : t.pc with
        | set => rcases k2 hp with h | h <;> simp_all
        | waiting => exact absurd hp hw
        | done =>
          rcases k3 hp hl1 with h | h
          · rw [h] at hlp; exact hlp
          · rw [h] at hlp; exact hlp
        | dead e => simp only [TOk, hp] at hok; exact absurd hl hok
        | _ => trivial

/-- Without `stop` and shutdown every loop makes progress: in at most twelve of its own steps (and three at the start) it begins with one more sample, however
many other loops there are. -/
theorem C92_progress (near : NearestFn) (hb : Playable b ns tl rl) (hsub : b.subscribed = none) (h0 : b.idx = 0) (hst : b.stopped = false) (dt : Bool)
    (before after : List TEv) (hbe : ∀ e ∈ before, e ≠ .stop ∧ e ≠ .shutdown) (haf : ∀ e ∈ after, e ≠ .stop ∧ e ≠ .shutdown) {i : ℕ}
    (hi : i = ((Threads.start b dt).exec near before).threads.length) :
    ∃ ks, Publishing b ns tl rl ks (sentBy i ((Threads.start b dt).exec near (before ++ .spin :: after)).log) ∧ stepsOf i after ≤ 12 * ks.length + 3 := by
  have key : ∃ t ks, ((Threads.start b dt).exec near (before ++ .spin :: after)).threads[i]? = some t ∧ t.role = .loop ∧
      Sending b ns tl rl ks (sentBy i ((Threads.start b dt).exec near (before ++ .spin :: after)).log) (pend b t.pc) ∧
      stepsOf i after + left t.pc ≤ 12 * ks.length + 4 := by
    induction after using List.reverseRecOn with
    | nil =>
      have hinv := tinv_exec near hb (tinv_start hb h0 dt) before
      have hts : ((Threads.start b dt).exec near before).b.timestamps = some (ns.map fun n : ℕ => (n : ℝ)) := by rw [hinv.same.timestamps]; exact hb.stamps
      rw [texec_append]
      generalize (Threads.start b dt).exec near before = σ at *
      have e : σ.exec near [.spin] = { σ with threads := σ.threads ++ [⟨.loop, .clear⟩] } := by
        simp only [Threads.exec, List.foldl, Threads.step, hts]
      rw [e]
      refine ⟨⟨.loop, .clear⟩, [], by simp [hi], rfl, ?_, by simp [stepsOf, left]⟩
      rw [sentBy_fresh hinv.fresh (by omega)]
      exact sending_nil
    | append_singleton pre e ih =>
      obtain ⟨t, ks, g1, g2, g3, g4⟩ := ih fun e he => haf e (by simp [he])
      have hev := haf e (by simp)
      have hc : ∀ e' ∈ before ++ .spin :: pre, e' ≠ .stop ∧ e' ≠ .shutdown := by
        intro e' he'
        simp only [List.mem_append, List.mem_cons] at he'
        rcases he' with h | rfl | h
        · exact hbe e' h
        · simp
        · exact haf e' (by simp [h])
      have hc' : ∀ e' ∈ (before ++ .spin :: pre) ++ [e], e' ≠ .stop ∧ e' ≠ .shutdown := by
        intro e' he'
        simp only [List.mem_append, List.mem_singleton] at he'
        rcases he' with h | rfl
        · exact hc e' (by simpa using h)
        · exact hev
      obtain ⟨_, _, c3⟩ := calm near hb hsub h0 hst dt _ hc'
      have hv := tinv_exec near hb (tinv_start hb h0 dt) (before ++ .spin :: pre)
      rw [show before ++ .spin :: (pre ++ [e]) = (before ++ .spin :: pre) ++ [e] by simp]
      rw [texec_append] at c3 ⊢
      generalize (Threads.start b dt).exec near (before ++ .spin :: pre) = σ at *
      change ∀ (j : ℕ) (t : Thr), (σ.step near e).threads[j]? = some t → t.role = .loop → Looping t.pc at c3
      show ∃ t ks, (σ.step near e).threads[i]? = some t ∧ t.role = .loop ∧ Sending b ns tl rl ks (sentBy i (σ.step near e).log) (pend b t.pc) ∧ _
      have hlt : i < (σ.step near e).threads.length := by
        have hlt := (List.getElem?_eq_some_iff.mp g1).1
        cases e with
        | spin => simp only [Threads.step]; split <;> simp only [List.length_append] <;> omega
        | publish idx => simp only [Threads.step, List.length_append]; omega
        | incoming ms =>
          simp only [Threads.step]
          split
          · exact hlt
          · simp only [List.length_append]; omega
        | stop => exact hlt
        | shutdown => exact hlt
        | run j =>
          simp only [Threads.step]
          split
          · exact hlt
          · rename_i tj hj
            obtain ⟨t', h', _⟩ := stmt_next σ hj
            rw [h', List.length_set]
            exact hlt
      obtain ⟨t', ht'⟩ : ∃ t', (σ.step near e).threads[i]? = some t' := ⟨_, List.getElem?_eq_getElem hlt⟩
      cases (step_cases near hb hv e).2 i t' ht' with
      | starts h1 _ _ _ => have := (List.getElem?_eq_some_iff.mp g1).1; omega
      | rests h1 h2 h3 h4 =>
        rw [g1] at h1
        cases h1
        refine ⟨t, ks, ht', g2, by rw [h2]; exact g3, ?_⟩
        rw [(stepsOf_append i pre e).2 h4]
        exact g4
      | moves t1 h1 h2 h3 f =>
        rw [g1] at h1
        cases h1
        have hl' := f.loop.mp g2
        have hlp := c3 i t' ht' hl'
        have f' := f
        rw [h3] at f'
        have key := loop_step hb hsub hv g1 g2 f' hlp
        rw [(stepsOf_append i pre e).1 h2]
        by_cases hf : ∃ idx, t.pc = .fetch idx
        · obtain ⟨idx, hf⟩ := hf
          simp only [hf] at key
          obtain ⟨⟨ms, k1, k2⟩, _⟩ := key
          have hok := hv.ok i t g1
          simp only [TOk, hf] at hok
          have := hok g2
          subst this
          rcases g3.fetch f hf with g3 | ⟨⟨k, hk, _⟩, _⟩
          · refine ⟨t', _, ht', hl', g3, ?_⟩
            rw [k2]
            rw [hf] at g4
            simp only [left, List.length_append, List.length_singleton] at g4 ⊢
            omega
          · cases hk
        · push Not at hf
          refine ⟨t', ks, ht', hl', g3.moves f hf, ?_⟩
          have : left t'.pc + 1 ≤ left t.pc := by
            cases hp : t.pc with
            | fetch idx => exact absurd hp (hf idx)
            | send k ms =>
              cases ms with
              | nil => simp only [hp] at key; rw [key.1]; simp [left]
              | cons m ms => simp only [hp] at key; rw [key.1]; simp only [left, List.length_cons]; omega
            | test =>
              simp only [hp] at key
              rcases key.2 with ⟨_, k, _⟩ | ⟨_, k, _⟩ <;> rw [k] <;> simp [left]
            | later =>
              simp only [hp] at key
              obtain ⟨_, _, x, _, k⟩ := key
              rw [k]
              simp [left]
            | earlier a => simp only [hp] at key; rw [key.2.1]; simp [left]
            | set => simp only [hp] at key
            | waiting => simp only [hp] at key
            | done => simp only [hp] at key
            | dead x => simp only [hp] at key
            | _ => simp only [hp] at key; rw [key.1]; simp [left]
          omega
  obtain ⟨t, ks, k1, k2, k3, k4⟩ := key
  refine ⟨ks, k3.publishing, ?_⟩
  have hlp := (calm near hb hsub h0 hst dt (before ++ .spin :: after) (by
    intro e' he'
    simp only [List.mem_append, List.mem_cons] at he'
    rcases he' with h | rfl | h
    · exact hbe e' h
    · simp
    · exact haf e' h)).2.2 i t k1 k2
  have : 1 ≤ left t.pc := by
    cases hp : t.pc <;> simp [hp, Looping] at hlp <;> simp [left]
    omega
  omega

end

end RBM.Props
