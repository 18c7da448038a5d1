import Verif.Lemmas.MarkerThreads

/-!
C93: marker publishers with several threads.
-/

namespace RBM.Props

open RBM RBM.Ros RBM.Spec

section

variable {M B : Type} [DecidableEq B] {ser : M → B} {empty : B}

/-- Only threads publish, and what is published is the value that was set last, never an older one. -/
theorem C93_current (m : M) (evs : List (KEv M)) (e : KEv M) :
    ((MarkerThreads.start m empty).exec ser (evs ++ [e])).log = ((MarkerThreads.start m empty).exec ser evs).log ∨
    ∃ i v, e = .run i ∧ (values m evs).getLast? = some v ∧
      ((MarkerThreads.start m empty).exec ser (evs ++ [e])).log = (i, v) :: ((MarkerThreads.start m empty).exec ser evs).log := by
  rw [kexec_append]
  rcases klog_step (ser := ser) ((MarkerThreads.start m empty).exec ser evs) e with h | ⟨j, t, rfl, -, -, h⟩
  · exact .inl h.1
  · exact .inr ⟨j, _, rfl, kmarker_last ser m empty evs, h⟩

/-! ### Convergence -/

/-- Some thread has remembered its message but not sent it yet. -/
def Unsent (σ : MarkerThreads M B) : Prop := ∃ (j : ℕ) (t : KThr B), σ.threads[j]? = some t ∧ t.pc = .emit

/-- `m` is shown, or about to be. -/
def Near (m : M) (σ : MarkerThreads M B) : Prop := shown σ = some m ∨ Unsent σ

theorem shown_step {m : M} {σ : MarkerThreads M B} (hm : σ.marker = m) (hs : shown σ = some m) (e : KEv M) : shown (σ.step ser e) = some m := by
  rcases klog_step (ser := ser) σ e with h | ⟨j, t, rfl, -, -, h⟩
  · rw [shown, h.1]
    exact hs
  · rw [shown, h]
    simp [hm]

theorem near_step {m : M} {σ : MarkerThreads M B} (hm : σ.marker = m) (h : Near m σ) (e : KEv M) : Near m (σ.step ser e) := by
  rcases h with h | ⟨j, t, ht, hp⟩
  · exact .inl (shown_step hm h e)
  · by_cases he : e = .run j
    · subst he
      rcases klog_step (ser := ser) σ (.run j) with h' | ⟨j', t', h1, -, -, h'⟩
      · exact absurd hp (h'.2 j t rfl ht)
      · refine .inl ?_
        rw [shown, h']
        simp [hm]
    · exact .inr ⟨j, t, kthread_stay σ ht he, hp⟩

/-- After `m` was set: if the remembered message is `m`, it is shown or about to be. -/
theorem conv_step {m : M} {σ : MarkerThreads M B} (hm : σ.marker = m) (hc : σ.last = ser m → Near m σ) (e : KEv M) :
    (σ.step ser e).last = ser m → Near m (σ.step ser e) := by
  intro h
  rcases klast_step (ser := ser) σ e with h' | ⟨j, t, c, rfl, ht, hp, h'⟩
  · rw [h'.1] at h
    exact near_step hm (hc h) e
  · have := kthread_run (ser := ser) σ ht
    exact .inr ⟨j, _, this, by simp [kNext, hp]⟩

/-- How many steps a thread is away from sending, or from finding the message sent. -/
def far (s : B) : KPC B → ℕ
  | .clear => 6
  | .shut => 5
  | .halt => 4
  | .serial => 3
  | .compare c => if c = s then 2 else 6
  | .assign _ => 1
  | _ => 0

/-- A position of a thread that calls `publish` once, after the marker was set. -/
def InCall (s : B) (pc : KPC B) : Prop := pc = .serial ∨ pc = .compare s ∨ (∃ c, pc = .assign c) ∨ pc = .emit

theorem track_step {m : M} {σ : MarkerThreads M B} {i : ℕ} {t : KThr B} (hm : σ.marker = m) (hc : σ.last = ser m → Near m σ)
    (ht : σ.threads[i]? = some t) (hp : t.pc ≠ .set ∧ t.pc ≠ .done) (hl : t.loop = true → σ.stopped = false ∧ σ.shutdown = false)
    (hn : t.loop = false → InCall (ser m) t.pc) :
    Near m (σ.step ser (.run i)) ∨ ∃ pc, (σ.step ser (.run i)).threads[i]? = some ⟨t.loop, pc⟩ ∧ (pc ≠ .set ∧ pc ≠ .done) ∧
      (t.loop = false → InCall (ser m) pc) ∧ far (ser m) pc + 1 ≤ far (ser m) t.pc := by
  have hrun := kthread_run (ser := ser) σ ht
  obtain ⟨lp, pc⟩ := t
  by_cases he : pc = .emit
  · subst he
    exact .inl (near_step hm (.inr ⟨i, _, ht, rfl⟩) _)
  by_cases hcl : ∃ c, pc = .compare c ∧ c = σ.last ∧ c = ser m
  · obtain ⟨c, rfl, h1, h2⟩ := hcl
    exact .inl (near_step hm (hc (h1.symm.trans h2)) _)
  refine .inr ⟨_, hrun, ?_⟩
  cases lp with
  | true =>
    obtain ⟨h1, h2⟩ := hl rfl
    cases pc with
    | compare c =>
      by_cases h3 : c = σ.last
      · have h4 : c ≠ ser m := fun h4 => hcl ⟨c, rfl, h3, h4⟩
        rw [h3] at h4
        simp [kNext, far, h3, h4, KThr.after]
      · by_cases h4 : c = ser m
        · subst h4
          simp [kNext, far, h3]
        · simp [kNext, far, h3, h4]
    | emit => exact absurd rfl he
    | set => exact absurd rfl hp.1
    | done => exact absurd rfl hp.2
    | serial => simp [kNext, far, hm]
    | _ => simp [kNext, far, h1, h2]
  | false =>
    rcases hn rfl with h | h | ⟨c, h⟩ | h
    · have h' : pc = .serial := h
      subst h'
      simp [kNext, far, hm, InCall]
    · have h' : pc = .compare (ser m) := h
      subst h'
      have h3 : ser m ≠ σ.last := fun h3 => hcl ⟨_, rfl, h3, rfl⟩
      simp [kNext, far, h3, InCall]
    · have h' : pc = .assign c := h
      subst h'
      simp [kNext, far, InCall]
    · exact absurd h he

/-- No loop has been stopped. -/
structure Live (σ : MarkerThreads M B) : Prop where
  stopped : σ.stopped = false
  shutdown : σ.shutdown = false
  threads : ∀ (j : ℕ) (t : KThr B), σ.threads[j]? = some t → t.pc ≠ .set ∧ (t.loop = true → t.pc ≠ .done)

theorem live_start (m : M) : Live (MarkerThreads.start m empty) := ⟨rfl, rfl, by simp [MarkerThreads.start]⟩

theorem live_step {σ : MarkerThreads M B} (h : Live σ) {e : KEv M} (he : e ≠ .stop ∧ e ≠ .shutdown) : Live (σ.step ser e) where
  stopped := by
    rcases kstopped_step (ser := ser) σ e with ⟨h', _⟩ | ⟨j, t, _, _, _, h'⟩ | ⟨j, t, _, ht, hp, _⟩ | ⟨_, h'⟩
    · exact absurd h' he.1
    · exact h'
    · exact absurd hp (h.threads j t ht).1
    · rw [h', h.stopped]
  shutdown := by
    rw [kshutdown_step, h.shutdown]
    cases e with
    | shutdown => exact absurd rfl he.2
    | _ => rfl
  threads := by
    intro j t' ht'
    rcases kthread_cases σ e ht' with ⟨t, rfl, ht, rfl⟩ | ⟨_, ht⟩ | ⟨_, ⟨_, rfl⟩ | ⟨_, rfl⟩⟩
    · obtain ⟨h1, h2⟩ := h.threads j t ht
      obtain ⟨lp, pc⟩ := t
      cases pc with
      | set => exact absurd rfl h1
      | done => exact ⟨by simp [kNext], fun hl => absurd rfl (h2 hl)⟩
      | compare c =>
        refine ⟨?_, fun hl => ?_⟩
        · simp only [kNext, KThr.after]
          split_ifs <;> simp
        · simp only [kNext, KThr.after]
          split_ifs <;> simp_all
      | emit =>
        refine ⟨?_, fun hl => ?_⟩
        · simp only [kNext, KThr.after]
          split_ifs <;> simp
        · simp only [kNext, KThr.after]
          split_ifs <;> simp_all
      | _ => simp [kNext, h.stopped, h.shutdown]
    · exact h.threads j t' ht
    · simp
    · simp

theorem live_exec {σ : MarkerThreads M B} (h : Live σ) {evs : List (KEv M)} (he : ∀ e ∈ evs, e ≠ .stop ∧ e ≠ .shutdown) : Live (σ.exec ser evs) := by
  induction evs generalizing σ with
  | nil => exact h
  | cons e evs ih => exact ih (live_step h (he e (by simp))) fun e' he' => he e' (by simp [he'])

/-- What is remembered or on its way are serializations of values of the past. -/
theorem old_exec (m : M) (evs : List (KEv M)) :
    let σ := (MarkerThreads.start m empty).exec ser evs
    (σ.last = empty ∨ ∃ v ∈ values m evs, σ.last = ser v) ∧
    ∀ (j : ℕ) (t : KThr B) c, σ.threads[j]? = some t → t.pc = .compare c ∨ t.pc = .assign c → ∃ v ∈ values m evs, c = ser v := by
  induction evs using List.reverseRecOn with
  | nil => exact ⟨.inl rfl, by simp [MarkerThreads.exec, MarkerThreads.start]⟩
  | append_singleton evs e ih =>
    intro σ'
    obtain ⟨h1, h2⟩ := ih
    have hlast := kmarker_last ser m empty evs
    have hσ : σ' = ((MarkerThreads.start m empty).exec ser evs).step ser e := kexec_append _ _ _
    generalize (MarkerThreads.start m empty).exec ser evs = σ at h1 h2 hlast hσ
    have hmem : ∀ v, v ∈ values m evs → v ∈ values m (evs ++ [e]) := by
      intro v hv
      simp only [values, List.filterMap_append, ← List.cons_append, List.mem_append]
      exact .inl hv
    have hcur : σ.marker ∈ values m evs := List.mem_of_getLast? hlast
    clear_value σ'
    subst hσ
    constructor
    · rcases klast_step (ser := ser) σ e with ⟨h', _⟩ | ⟨j, t, c, rfl, ht, hp, h'⟩
      · rw [h']
        exact h1.imp id fun ⟨v, hv, hs⟩ => ⟨v, hmem v hv, hs⟩
      · obtain ⟨v, hv, hs⟩ := h2 j t c ht (.inr hp)
        exact .inr ⟨v, hmem v hv, h'.trans hs⟩
    · intro j t' c ht' hp
      rcases kthread_cases σ e ht' with ⟨t, rfl, ht, rfl⟩ | ⟨_, ht⟩ | ⟨_, ⟨_, rfl⟩ | ⟨_, rfl⟩⟩
      · obtain ⟨lp, pc⟩ := t
        cases pc with
        | serial =>
          simp only [kNext, KPC.compare.injEq, reduceCtorEq, or_false] at hp
          exact ⟨_, hmem _ hcur, hp.symm⟩
        | compare c' =>
          simp only [kNext, KThr.after] at hp
          split_ifs at hp with h3 h4
          · simp only [KPC.assign.injEq, reduceCtorEq, false_or] at hp
            subst hp
            obtain ⟨v, hv, hs⟩ := h2 j _ c' ht (.inl rfl)
            exact ⟨v, hmem v hv, hs⟩
          · simp at hp
          · simp at hp
        | emit =>
          simp only [kNext, KThr.after] at hp
          split_ifs at hp <;> simp at hp
        | shut =>
          simp only [kNext] at hp
          split_ifs at hp <;> simp at hp
        | halt =>
          simp only [kNext] at hp
          split_ifs at hp <;> simp at hp
        | _ => simp [kNext] at hp
      · obtain ⟨v, hv, hs⟩ := h2 j t' c ht hp
        exact ⟨v, hmem v hv, hs⟩
      · simp at hp
      · simp at hp

/-- Tracking one thread after the marker was set for the last time. -/
theorem track_exec {m : M} {i : ℕ} (evs : List (KEv M)) (hset : ∀ e ∈ evs, ∀ v, e ≠ .set v) :
    ∀ (σ : MarkerThreads M B) (lp : Bool) (pc : KPC B), σ.marker = m → (σ.last = ser m → Near m σ) → σ.threads[i]? = some ⟨lp, pc⟩ →
      (pc ≠ .set ∧ pc ≠ .done) → (lp = true → Live σ ∧ ∀ e ∈ evs, e ≠ .stop ∧ e ≠ .shutdown) → (lp = false → InCall (ser m) pc) →
      far (ser m) pc ≤ turns i evs → Near m (σ.exec ser evs) := by
  have hnear : ∀ (evs : List (KEv M)), (∀ e ∈ evs, ∀ v, e ≠ .set v) → ∀ σ : MarkerThreads M B, σ.marker = m → Near m σ → Near m (σ.exec ser evs) := by
    intro evs
    induction evs with
    | nil => exact fun _ σ _ h => h
    | cons e evs ih =>
      intro hs σ hm h
      exact ih (fun e' he' => hs e' (by simp [he'])) _ ((kmarker_step σ e (hs e (by simp))).trans hm) (near_step hm h e)
  induction evs with
  | nil =>
    intro σ lp pc hm hc ht hp _ hn hf
    simp only [turns, List.filter_nil, List.length_nil, nonpos_iff_eq_zero] at hf
    refine .inr ⟨i, _, ht, ?_⟩
    cases pc with
    | emit => rfl
    | set => exact absurd rfl hp.1
    | done => exact absurd rfl hp.2
    | compare c =>
      simp only [far] at hf
      split_ifs at hf <;> simp at hf
    | _ => simp [far] at hf
  | cons e evs ih =>
    intro σ lp pc hm hc ht hp hl hn hf
    have hs' : ∀ e' ∈ evs, ∀ v, e' ≠ .set v := fun e' he' => hset e' (by simp [he'])
    have hm' := (kmarker_step (ser := ser) σ e (hset e (by simp))).trans hm
    have hl' : lp = true → Live (σ.step ser e) ∧ ∀ e' ∈ evs, e' ≠ .stop ∧ e' ≠ .shutdown := fun h =>
      ⟨live_step (hl h).1 ((hl h).2 e (by simp)), fun e' he' => (hl h).2 e' (by simp [he'])⟩
    rw [kexec_cons]
    by_cases he : e = .run i
    · subst he
      have hturn : turns i (.run i :: evs) = turns i evs + 1 := by simp [turns]
      rw [hturn] at hf
      rcases track_step (ser := ser) hm hc ht hp (fun h => ⟨(hl h).1.stopped, (hl h).1.shutdown⟩) hn with h | ⟨pc', h1, h2, h3, h4⟩
      · exact hnear evs hs' _ hm' h
      · exact ih hs' _ lp pc' hm' (conv_step hm hc _) h1 h2 hl' h3 (by simp only at h4; omega)
    · have hturn : turns i (e :: evs) = turns i evs := by
        simp only [turns, List.filter_cons]
        split_ifs with h
        · cases e with
          | run j => simp only [decide_eq_true_eq] at h; subst h; exact absurd rfl he
          | _ => simp at h
        · rfl
      rw [hturn] at hf
      exact ih hs' _ lp pc hm' (conv_step hm hc _) (kthread_stay σ ht he) hp hl' hn hf

/-- A message that is about to be sent is sent as soon as its thread has its turn. -/
theorem near_finish {m : M} (finish : List (KEv M)) (hset : ∀ e ∈ finish, ∀ v, e ≠ .set v) :
    ∀ σ : MarkerThreads M B, σ.marker = m → Near m σ → (∀ j < σ.threads.length, 1 ≤ turns j finish) → shown (σ.exec ser finish) = some m := by
  have hkeep : ∀ (evs : List (KEv M)), (∀ e ∈ evs, ∀ v, e ≠ .set v) → ∀ σ : MarkerThreads M B, σ.marker = m → shown σ = some m →
      shown (σ.exec ser evs) = some m := by
    intro evs
    induction evs with
    | nil => exact fun _ σ _ h => h
    | cons e evs ih =>
      intro hs σ hm h
      exact ih (fun e' he' => hs e' (by simp [he'])) _ ((kmarker_step σ e (hs e (by simp))).trans hm) (shown_step hm h e)
  have key : ∀ (evs : List (KEv M)), (∀ e ∈ evs, ∀ v, e ≠ .set v) → ∀ (σ : MarkerThreads M B) (j : ℕ) (t : KThr B), σ.marker = m →
      σ.threads[j]? = some t → t.pc = .emit → 1 ≤ turns j evs → shown (σ.exec ser evs) = some m := by
    intro evs
    induction evs with
    | nil => intro _ σ j t _ _ _ h; simp [turns] at h
    | cons e evs ih =>
      intro hs σ j t hm ht hp h1
      have hs' : ∀ e' ∈ evs, ∀ v, e' ≠ .set v := fun e' he' => hs e' (by simp [he'])
      have hm' := (kmarker_step (ser := ser) σ e (hs e (by simp))).trans hm
      rw [kexec_cons]
      by_cases he : e = .run j
      · subst he
        refine hkeep evs hs' _ hm' ?_
        rcases klog_step (ser := ser) σ (.run j) with h' | ⟨j', t', _, -, -, h'⟩
        · exact absurd hp (h'.2 j t rfl ht)
        · rw [shown, h']
          simp [hm]
      · refine ih hs' _ j t hm' (kthread_stay σ ht he) hp ?_
        have hturn : turns j (e :: evs) = turns j evs := by
          simp only [turns, List.filter_cons]
          split_ifs with h
          · cases e with
            | run k => simp only [decide_eq_true_eq] at h; subst h; exact absurd rfl he
            | _ => simp at h
          · rfl
        rwa [hturn] at h1
  rintro σ hm (h | ⟨j, t, ht, hp⟩) hall
  · exact hkeep finish hset σ hm h
  · exact key finish hset σ j t hm ht hp (hall j (List.getElem?_eq_some_iff.mp ht).1)

theorem marker_exec {σ : MarkerThreads M B} {evs : List (KEv M)} (hset : ∀ e ∈ evs, ∀ v, e ≠ .set v) : (σ.exec ser evs).marker = σ.marker := by
  induction evs generalizing σ with
  | nil => rfl
  | cons e evs ih => exact (ih fun e' he' => hset e' (by simp [he'])).trans (kmarker_step σ e (hset e (by simp)))

theorem conv_exec {m : M} {σ : MarkerThreads M B} {evs : List (KEv M)} (hset : ∀ e ∈ evs, ∀ v, e ≠ .set v) (hm : σ.marker = m)
    (hc : σ.last = ser m → Near m σ) : (σ.exec ser evs).last = ser m → Near m (σ.exec ser evs) := by
  induction evs generalizing σ with
  | nil => exact hc
  | cons e evs ih =>
    exact ih (fun e' he' => hset e' (by simp [he'])) ((kmarker_step σ e (hset e (by simp))).trans hm) (conv_step hm hc e)

/-- When a new value is set, no thread remembers or carries it. -/
theorem fresh_last (m₀ m : M) (hempty : ser m ≠ empty) (before : List (KEv M)) (hfresh : ∀ v ∈ values m₀ before, ser v ≠ ser m) :
    ((MarkerThreads.start m₀ empty).exec ser (before ++ [.set m])).last ≠ ser m := by
  rw [kexec_append]
  intro h
  have h' : ((MarkerThreads.start m₀ empty).exec ser before).last = ser m := h
  rcases (old_exec (ser := ser) (empty := empty) m₀ before).1 with h1 | ⟨v, hv, h1⟩
  · exact hempty (h'.symm.trans h1)
  · exact hfresh v hv (h1.symm.trans h')

/-- A running loop shows the last value: the marker is set to a value that it did not have before and is not changed any more; once a loop that is not
stopped has made 6 steps and then every thread one, that value was published last. Any other threads may run loops, call `publish` or start at any time. -/
theorem C93_converges (m₀ m : M) (hempty : ser m ≠ empty) (before mid settle finish : List (KEv M)) (hfresh : ∀ v ∈ values m₀ before, ser v ≠ ser m)
    (hset : ∀ e ∈ mid ++ settle ++ finish, ∀ v, e ≠ .set v) (hrun : ∀ e ∈ before ++ mid ++ settle, e ≠ .stop ∧ e ≠ .shutdown) {i : ℕ} {t : KThr B}
    (hi : ((MarkerThreads.start m₀ empty).exec ser (before ++ .set m :: mid)).threads[i]? = some t) (hl : t.loop = true) (h6 : 6 ≤ turns i settle)
    (hall : ∀ j < ((MarkerThreads.start m₀ empty).exec ser (before ++ .set m :: mid ++ settle)).threads.length, 1 ≤ turns j finish) :
    shown ((MarkerThreads.start m₀ empty).exec ser (before ++ .set m :: mid ++ settle ++ finish)) = some m := by
  have hs1 : ∀ e ∈ mid, ∀ v, e ≠ .set v := fun e he => hset e (by simp [he])
  have hs2 : ∀ e ∈ settle, ∀ v, e ≠ .set v := fun e he => hset e (by simp [he])
  have hs3 : ∀ e ∈ finish, ∀ v, e ≠ .set v := fun e he => hset e (by simp [he])
  have e1 : (MarkerThreads.start m₀ empty).exec ser (before ++ .set m :: mid) = ((MarkerThreads.start m₀ empty).exec ser (before ++ [.set m])).exec ser mid := by
    rw [← kexec_append]
    simp
  have hlast := fresh_last (ser := ser) m₀ m hempty before hfresh
  have hm : ((MarkerThreads.start m₀ empty).exec ser (before ++ [.set m])).marker = m := by
    rw [kexec_append]
    rfl
  have hm1 := (marker_exec (ser := ser) (σ := (MarkerThreads.start m₀ empty).exec ser (before ++ [.set m])) hs1).trans hm
  have hc1 := conv_exec (ser := ser) hs1 hm (fun h => absurd h hlast)
  have hlive : Live ((MarkerThreads.start m₀ empty).exec ser (before ++ .set m :: mid)) := by
    refine live_exec (live_start m₀) fun e he => ?_
    simp only [List.mem_append, List.mem_cons] at he
    rcases he with he | rfl | he
    · exact hrun e (by simp [he])
    · simp
    · exact hrun e (by simp [he])
  rw [← e1] at hm1 hc1
  obtain ⟨lp, pc⟩ := t
  have hl' : lp = true := hl
  subst hl'
  have hpc := hlive.threads i _ hi
  have hnear : Near m (((MarkerThreads.start m₀ empty).exec ser (before ++ .set m :: mid)).exec ser settle) := by
    refine track_exec settle hs2 _ true pc hm1 hc1 hi ⟨hpc.1, hpc.2 rfl⟩ (fun _ => ⟨hlive, fun e he => hrun e (by simp [he])⟩) (by simp) (le_trans ?_ h6)
    cases pc <;> simp [far]
    split_ifs <;> omega
  rw [kexec_append, kexec_append]
  rw [kexec_append] at hall
  exact near_finish finish hs3 _ ((marker_exec hs2).trans hm1) hnear hall

/-- The same for a single call of `publish` after the value was set: three steps of the call and then one of every thread. The calls need no loop, and
they work after `stop` and shutdown, too. -/
theorem C93_call_converges (m₀ m : M) (hempty : ser m ≠ empty) (before mid settle finish : List (KEv M)) (hfresh : ∀ v ∈ values m₀ before, ser v ≠ ser m)
    (hset : ∀ e ∈ mid ++ settle ++ finish, ∀ v, e ≠ .set v) {i : ℕ}
    (hi : i = ((MarkerThreads.start m₀ empty).exec ser (before ++ .set m :: mid)).threads.length) (h3 : 3 ≤ turns i settle)
    (hall : ∀ j < ((MarkerThreads.start m₀ empty).exec ser (before ++ .set m :: mid ++ .publish :: settle)).threads.length, 1 ≤ turns j finish) :
    shown ((MarkerThreads.start m₀ empty).exec ser (before ++ .set m :: mid ++ .publish :: settle ++ finish)) = some m := by
  have hs1 : ∀ e ∈ mid ++ [.publish], ∀ v, e ≠ .set v := by
    intro e he v
    simp only [List.mem_append, List.mem_singleton] at he
    rcases he with he | rfl
    · exact hset e (by simp [he]) v
    · simp
  have hs2 : ∀ e ∈ settle, ∀ v, e ≠ .set v := fun e he => hset e (by simp [he])
  have hs3 : ∀ e ∈ finish, ∀ v, e ≠ .set v := fun e he => hset e (by simp [he])
  have e1 : ((MarkerThreads.start m₀ empty).exec ser (before ++ .set m :: mid)).step ser .publish =
      ((MarkerThreads.start m₀ empty).exec ser (before ++ [.set m])).exec ser (mid ++ [.publish]) := by
    show (MarkerThreads.exec ser _ (before ++ .set m :: mid)).exec ser [.publish] = _
    rw [← kexec_append, ← kexec_append]
    simp
  have hlast := fresh_last (ser := ser) m₀ m hempty before hfresh
  have hm : ((MarkerThreads.start m₀ empty).exec ser (before ++ [.set m])).marker = m := by
    rw [kexec_append]
    rfl
  have hm1 := (marker_exec (ser := ser) (σ := (MarkerThreads.start m₀ empty).exec ser (before ++ [.set m])) hs1).trans hm
  have hc1 := conv_exec (ser := ser) hs1 hm (fun h => absurd h hlast)
  rw [← e1] at hm1 hc1
  have hth : (((MarkerThreads.start m₀ empty).exec ser (before ++ .set m :: mid)).step ser .publish).threads[i]? = some ⟨false, .serial⟩ := by
    subst hi
    simp [MarkerThreads.step]
  rw [kexec_append, kexec_append, kexec_cons]
  rw [kexec_append, kexec_cons] at hall
  refine near_finish finish hs3 _ ((marker_exec hs2).trans hm1) ?_ hall
  exact track_exec settle hs2 _ false .serial hm1 hc1 hth (by simp) (by simp) (fun _ => .inl rfl) h3

/-- A value that returns may stay unseen: the loop serializes `a`, then the marker is set to `b`, which is sent, and back to `a`, which is taken for
sent. However long the loop goes on and whatever else is started afterwards, `b` remains the last message, until the marker changes again. -/
theorem C93_returning_value (a b : M) (ha : ser a ≠ empty) :
    ∃ evs, values a evs = [a, b, a] ∧ (∀ e ∈ evs, e = .spin ∨ e = .run 0 ∨ ∃ v, e = .set v) ∧
      ∀ after, (∀ e ∈ after, ∀ v, e ≠ .set v) → ((MarkerThreads.start a empty).exec ser (evs ++ after)).marker = a ∧
        shown ((MarkerThreads.start a empty).exec ser (evs ++ after)) = some b := by
  refine ⟨[.spin, .run 0, .run 0, .run 0, .run 0, .run 0, .run 0, .set b, .run 0, .set a], rfl, by simp, ?_⟩
  intro after hset
  rw [kexec_append]
  have e0 : (MarkerThreads.start a empty).exec ser [.spin, .run 0, .run 0, .run 0, .run 0, .run 0, .run 0, .set b, .run 0, .set a] =
      ⟨a, ser a, false, false, [⟨true, .shut⟩], [(0, b)]⟩ := by
    simp [MarkerThreads.exec, MarkerThreads.step, MarkerThreads.start, MarkerThreads.stmt, MarkerThreads.goto, KThr.after, ha]
  rw [e0]
  refine ⟨marker_exec hset, ?_⟩
  have key : ∀ σ : MarkerThreads M B, σ.marker = a → σ.last = ser a → σ.log = [(0, b)] →
      (∀ (j : ℕ) (t : KThr B), σ.threads[j]? = some t → t.pc ≠ .emit ∧ ∀ c, t.pc ≠ .assign c ∧ (t.pc = .compare c → c = ser a)) →
      (σ.exec ser after).log = [(0, b)] := by
    induction after with
    | nil => exact fun σ _ _ h _ => h
    | cons e after ih =>
      intro σ h1 h2 h3 h4
      refine ih (fun e' he' => hset e' (by simp [he'])) (σ.step ser e) ((kmarker_step σ e (hset e (by simp))).trans h1) ?_ ?_ ?_
      · rcases klast_step (ser := ser) σ e with h | ⟨j, t, c, rfl, ht, hp, h⟩
        · rw [h.1, h2]
        · exact absurd hp ((h4 j t ht).2 c).1
      · rcases klog_step (ser := ser) σ e with h | ⟨j, t, rfl, ht, hp, h⟩
        · rw [h.1, h3]
        · exact absurd hp (h4 j t ht).1
      · intro j t' ht'
        rcases kthread_cases σ e ht' with ⟨t, rfl, ht, rfl⟩ | ⟨_, ht⟩ | ⟨_, ⟨_, rfl⟩ | ⟨_, rfl⟩⟩
        · obtain ⟨g1, g2⟩ := h4 j t ht
          obtain ⟨lp, pc⟩ := t
          cases pc with
          | emit => exact absurd rfl g1
          | assign c => exact absurd rfl (g2 c).1
          | compare c =>
            have hc : c = σ.last := ((g2 c).2 rfl).trans h2.symm
            cases lp <;> simp [kNext, hc, KThr.after]
          | serial => simp [kNext, h1]
          | shut =>
            simp only [kNext]
            split_ifs <;> simp
          | halt =>
            simp only [kNext]
            split_ifs <;> simp
          | _ => simp [kNext]
        · exact h4 j t' ht
        · simp
        · simp
  rw [shown, key _ rfl rfl rfl]
  · rfl
  · intro j t ht
    rcases j with _ | j
    · simp only [List.getElem?_cons_zero, Option.some.injEq] at ht
      subst ht
      simp
    · simp at ht

end

end RBM.Props
