import Verif.Props.MarkerThreads

/-!
C93: marker publishers with several threads: ending loops, the number of messages, histories without overlapping calls.
-/

namespace RBM.Props

open RBM RBM.Ros RBM.Spec

section

variable {M B : Type} [DecidableEq B] {ser : M → B} {empty : B}

/-! ### Ending -/

/-- How many steps a loop has left after shutdown (`sd`) or `stop`. -/
def kleft (sd : Bool) : KPC B → ℕ
  | .clear => 3
  | .shut => if sd then 2 else 3
  | .halt => if sd then 7 else 2
  | .serial => if sd then 6 else 7
  | .compare _ => if sd then 5 else 6
  | .assign _ => if sd then 4 else 5
  | .emit => if sd then 3 else 4
  | .set => 1
  | .done => 0

/-- How many messages a loop may still send. -/
def kowes (sd : Bool) : KPC B → ℕ
  | .halt => if sd then 1 else 0
  | .serial => 1
  | .compare _ => 1
  | .assign _ => 1
  | .emit => 1
  | _ => 0

/-- The loops are about to end. -/
def KEnding (sd : Bool) (σ : MarkerThreads M B) : Prop :=
  if sd then σ.shutdown = true else σ.stopped = true ∧ ∀ (j : ℕ) (t : KThr B), σ.threads[j]? = some t → t.pc ≠ .clear

theorem kending_step {sd : Bool} {σ : MarkerThreads M B} (h : KEnding sd σ) {e : KEv M} (he : sd = false → e ≠ .spin) : KEnding sd (σ.step ser e) := by
  cases sd with
  | true =>
    have h' : σ.shutdown = true := h
    show (σ.step ser e).shutdown = true
    rw [kshutdown_step, h']
    rfl
  | false =>
    obtain ⟨h1, h2⟩ : σ.stopped = true ∧ ∀ (j : ℕ) (t : KThr B), σ.threads[j]? = some t → t.pc ≠ .clear := h
    refine ⟨?_, ?_⟩
    · rcases kstopped_step (ser := ser) σ e with ⟨_, h'⟩ | ⟨j, t, _, ht, hp, _⟩ | ⟨_, _, _, _, _, h'⟩ | ⟨_, h'⟩
      · exact h'
      · exact absurd hp (h2 j t ht)
      · exact h'
      · rw [h', h1]
    · intro j t' ht'
      rcases kthread_cases σ e ht' with ⟨t, rfl, ht, rfl⟩ | ⟨_, ht⟩ | ⟨_, ⟨_, rfl⟩ | ⟨rfl, _⟩⟩
      · obtain ⟨lp, pc⟩ := t
        cases pc <;> simp only [kNext, KThr.after] <;> (try split_ifs) <;> simp
      · exact h2 j t' ht
      · simp
      · exact absurd rfl (he rfl)

theorem kending_exec {sd : Bool} {i : ℕ} (evs : List (KEv M)) : ∀ (σ : MarkerThreads M B) (pc : KPC B), KEnding sd σ → (sd = false → ∀ e ∈ evs, e ≠ .spin) →
    σ.threads[i]? = some ⟨true, pc⟩ → ∃ pc', (σ.exec ser evs).threads[i]? = some ⟨true, pc'⟩ ∧ kleft sd pc' ≤ kleft sd pc - turns i evs ∧
      sentCount i (σ.exec ser evs) + kowes sd pc' ≤ sentCount i σ + kowes sd pc := by
  induction evs with
  | nil => exact fun σ pc _ _ h => ⟨pc, h, by simp [turns], le_rfl⟩
  | cons e evs ih =>
    intro σ pc hE hs hi
    have hE' : KEnding sd (σ.step ser e) := kending_step hE fun h => hs h e (by simp)
    have hs' : sd = false → ∀ e' ∈ evs, e' ≠ .spin := fun h e' he' => hs h e' (by simp [he'])
    rw [kexec_cons]
    by_cases he : e = .run i
    · subst he
      have hturn : turns i (.run i :: evs) = turns i evs + 1 := by simp [turns]
      obtain ⟨pc', h1, h2, h3⟩ := ih _ _ hE' hs' (kthread_run (ser := ser) σ hi)
      refine ⟨pc', h1, ?_, ?_⟩
      · rw [hturn]
        have : kleft sd (kNext ser σ ⟨true, pc⟩) ≤ kleft sd pc - 1 := by
          cases sd with
          | true =>
            have h' : σ.shutdown = true := hE
            cases pc <;> simp only [kNext, KThr.after, h'] <;> (try split_ifs) <;> simp [kleft]
          | false =>
            obtain ⟨h', h''⟩ : σ.stopped = true ∧ ∀ (j : ℕ) (t : KThr B), σ.threads[j]? = some t → t.pc ≠ .clear := hE
            cases pc with
            | clear => exact absurd rfl (h'' i _ hi)
            | _ => simp only [kNext, KThr.after, h'] <;> (try split_ifs) <;> simp [kleft]
        omega
      · refine h3.trans ?_
        rcases klog_step (ser := ser) σ (.run i) with h | ⟨j, t, h0, ht, hp, h⟩
        · have hne : pc ≠ .emit := h.2 i _ rfl hi
          have hc : sentCount i (σ.step ser (.run i)) = sentCount i σ := by rw [sentCount, h.1, sentCount]
          rw [hc]
          have : kowes sd (kNext ser σ ⟨true, pc⟩) ≤ kowes sd pc := by
            cases sd with
            | true =>
              have h' : σ.shutdown = true := hE
              cases pc with
              | emit => exact absurd rfl hne
              | _ => simp only [kNext, KThr.after, h'] <;> (try split_ifs) <;> simp [kowes]
            | false =>
              obtain ⟨h', h''⟩ : σ.stopped = true ∧ ∀ (j : ℕ) (t : KThr B), σ.threads[j]? = some t → t.pc ≠ .clear := hE
              cases pc with
              | emit => exact absurd rfl hne
              | _ => simp only [kNext, KThr.after, h'] <;> (try split_ifs) <;> simp [kowes]
          omega
        · cases h0
          rw [hi] at ht
          cases ht
          have hp' : pc = .emit := hp
          subst hp'
          have hc : sentCount i (σ.step ser (.run i)) = sentCount i σ + 1 := by
            rw [sentCount, h, sentCount]
            simp
          rw [hc]
          simp [kNext, KThr.after, kowes]
    · have hturn : turns i (e :: evs) = turns i evs := by
        simp only [turns, List.filter_cons]
        split_ifs with h
        · cases e with
          | run j => simp only [decide_eq_true_eq] at h; subst h; exact absurd rfl he
          | _ => simp at h
        · rfl
      obtain ⟨pc', h1, h2, h3⟩ := ih _ _ hE' hs' (kthread_stay (ser := ser) σ hi he)
      refine ⟨pc', h1, by rw [hturn]; exact h2, h3.trans (le_of_eq ?_)⟩
      rcases klog_step (ser := ser) σ e with h | ⟨j, t, h0, ht, hp, h⟩
      · rw [sentCount, h.1, sentCount]
      · subst h0
        have hj : j ≠ i := by rintro rfl; exact he rfl
        rw [sentCount, h, sentCount]
        simp [hj]

theorem kleft_le (sd : Bool) (pc : KPC B) : kleft sd pc ≤ 7 := by cases sd <;> cases pc <;> simp [kleft]
theorem kowes_le (sd : Bool) (pc : KPC B) : kowes sd pc ≤ 1 := by cases sd <;> cases pc <;> simp [kowes]
theorem kleft_zero {sd : Bool} {pc : KPC B} (h : kleft sd pc = 0) : pc = .done := by cases sd <;> cases pc <;> simp_all [kleft]

/-- `stop` ends all loops that have begun: each of them sends at most one more message and ends within seven of its own steps. -/
theorem C93_stop (m : M) (before after : List (KEv M))
    (hclear : ∀ (j : ℕ) (t : KThr B), ((MarkerThreads.start m empty).exec ser before).threads[j]? = some t → t.pc ≠ .clear)
    (hspin : ∀ e ∈ after, e ≠ .spin) {i : ℕ} {t : KThr B} (hi : ((MarkerThreads.start m empty).exec ser before).threads[i]? = some t) (hl : t.loop = true) :
    sentCount i ((MarkerThreads.start m empty).exec ser (before ++ .stop :: after)) ≤ sentCount i ((MarkerThreads.start m empty).exec ser before) + 1 ∧
    (7 ≤ turns i after → ((MarkerThreads.start m empty).exec ser (before ++ .stop :: after)).threads[i]? = some ⟨true, .done⟩) := by
  obtain ⟨lp, pc⟩ := t
  have hl' : lp = true := hl
  subst hl'
  obtain ⟨pc', h1, h2, h3⟩ := kending_exec (ser := ser) (sd := false) after (((MarkerThreads.start m empty).exec ser before).step ser .stop) pc ⟨rfl, hclear⟩
    (fun _ => hspin) hi
  rw [kexec_append, kexec_cons]
  have h4 := kowes_le false pc
  have h5 := kleft_le false pc
  refine ⟨?_, fun h7 => ?_⟩
  · have : sentCount i (((MarkerThreads.start m empty).exec ser before).step ser .stop) = sentCount i ((MarkerThreads.start m empty).exec ser before) := rfl
    omega
  · have : pc' = .done := kleft_zero (sd := false) (by omega)
    rw [h1, this]

/-- Shutdown of the node ends all loops, also those that start later: each of them sends at most one more message and ends within seven of its own
steps. -/
theorem C93_shutdown (m : M) (before after : List (KEv M)) {i : ℕ} {t : KThr B}
    (hi : ((MarkerThreads.start m empty).exec ser before).threads[i]? = some t) (hl : t.loop = true) :
    sentCount i ((MarkerThreads.start m empty).exec ser (before ++ .shutdown :: after)) ≤ sentCount i ((MarkerThreads.start m empty).exec ser before) + 1 ∧
    (7 ≤ turns i after → ((MarkerThreads.start m empty).exec ser (before ++ .shutdown :: after)).threads[i]? = some ⟨true, .done⟩) := by
  obtain ⟨lp, pc⟩ := t
  have hl' : lp = true := hl
  subst hl'
  obtain ⟨pc', h1, h2, h3⟩ := kending_exec (ser := ser) (sd := true) after (((MarkerThreads.start m empty).exec ser before).step ser .shutdown) pc rfl
    (by simp) hi
  rw [kexec_append, kexec_cons]
  have h4 := kowes_le true pc
  have h5 := kleft_le true pc
  refine ⟨?_, fun h7 => ?_⟩
  · have : sentCount i (((MarkerThreads.start m empty).exec ser before).step ser .shutdown) = sentCount i ((MarkerThreads.start m empty).exec ser before) := rfl
    omega
  · have : pc' = .done := kleft_zero (sd := true) (by omega)
    rw [h1, this]

/-! ### The number of messages -/

/-- What a thread takes for the last message. -/
def keff (last : B) : KPC B → B
  | .compare c => c
  | .assign c => c
  | _ => last

/-- 0 if equal, otherwise 1. -/
def kdiff (a b : B) : ℕ := if a = b then 0 else 1

theorem kdiff_le (a b : B) : kdiff a b ≤ 1 := by
  unfold kdiff
  split_ifs <;> omega

theorem kdiff_tri (a b c : B) : kdiff a c ≤ kdiff b c + kdiff a b := by
  unfold kdiff
  split_ifs <;> simp_all

theorem kdiff_self (a : B) : kdiff a a = 0 := by simp [kdiff]

/-- Whether a thread is going to send a message. -/
def kpend (last : B) : KPC B → ℕ
  | .compare c => kdiff c last
  | .assign _ => 1
  | .emit => 1
  | _ => 0

/-- Messages sent, about to be sent, and due for the next call. -/
def kcount (ser : M → B) (σ : MarkerThreads M B) (pc : KPC B) : ℕ :=
  σ.log.length + kpend σ.last pc + kdiff (ser σ.marker) (keff σ.last pc)

theorem kcount_done (σ : MarkerThreads M B) (pc : KPC B) : kcount ser σ .done ≤ kcount ser σ pc := by
  have h1 := kdiff_le (ser σ.marker) σ.last
  cases pc <;> simp only [kcount, kpend, keff] <;> (try omega)
  rename_i c
  have := kdiff_tri (ser σ.marker) c σ.last
  omega

theorem kcount_run (σ : MarkerThreads M B) {i : ℕ} {t : KThr B} (ht : σ.threads[i]? = some t) :
    kcount ser (σ.step ser (.run i)) (kNext ser σ t) ≤ kcount ser σ t.pc := by
  rw [step_run σ ht]
  obtain ⟨lp, pc⟩ := t
  have h1 := kdiff_le (ser σ.marker) σ.last
  cases pc with
  | compare c =>
    by_cases hc : c = σ.last
    · cases lp <;> simp [MarkerThreads.stmt, MarkerThreads.goto, kNext, kcount, KThr.after, hc, kpend, keff, kdiff_self]
    · have hd : kdiff c σ.last = 1 := by simp [kdiff, hc]
      simp [MarkerThreads.stmt, MarkerThreads.goto, kNext, kcount, hc, kpend, keff, hd]
  | serial =>
    simp only [MarkerThreads.stmt, MarkerThreads.goto, kNext, kcount, kpend, keff, kdiff_self]
    omega
  | shut =>
    simp only [MarkerThreads.stmt, MarkerThreads.goto, kNext, kcount]
    split_ifs <;> exact le_rfl
  | halt =>
    simp only [MarkerThreads.stmt, MarkerThreads.goto, kNext, kcount]
    split_ifs <;> exact le_rfl
  | emit => cases lp <;> simp [MarkerThreads.stmt, MarkerThreads.goto, kNext, kcount, KThr.after, kpend, keff]
  | _ => simp [MarkerThreads.stmt, MarkerThreads.goto, kNext, kcount, kpend, keff]

theorem kcount_exec (m : M) (evs : List (KEv M)) (hseq : ∀ pre, pre <+: evs → AtMostOne ((MarkerThreads.start m empty).exec ser pre)) :
    let σ := (MarkerThreads.start m empty).exec ser evs
    kcount ser σ .done ≤ (values m evs).length ∧ ∀ (j : ℕ) (t : KThr B), σ.threads[j]? = some t → kcount ser σ t.pc ≤ (values m evs).length := by
  induction evs using List.reverseRecOn with
  | nil =>
    refine ⟨?_, by simp [MarkerThreads.exec, MarkerThreads.start]⟩
    simp only [MarkerThreads.exec, List.foldl_nil, MarkerThreads.start, kcount, kpend, keff, values, List.filterMap_nil, List.length_cons, List.length_nil]
    have := kdiff_le (ser m) empty
    omega
  | append_singleton evs e ih =>
    obtain ⟨h1, h2⟩ := ih fun pre hpre => hseq pre (hpre.trans (List.prefix_append _ _))
    have hone := hseq evs (List.prefix_append _ _)
    intro σ'
    have hσ : σ' = ((MarkerThreads.start m empty).exec ser evs).step ser e := kexec_append _ _ _
    clear_value σ'
    generalize (MarkerThreads.start m empty).exec ser evs = σ at h1 h2 hσ hone
    subst hσ
    by_cases hset : ∃ v, e = .set v
    · obtain ⟨v, rfl⟩ := hset
      have hlen : (values m (evs ++ [.set v])).length = (values m evs).length + 1 := by simp [values, List.filterMap_append]
      have hle : ∀ pc, kcount ser (σ.step ser (.set v)) pc ≤ kcount ser σ pc + 1 := by
        intro pc
        simp only [kcount, MarkerThreads.step]
        have := kdiff_le (ser v) (keff σ.last pc)
        omega
      rw [hlen]
      exact ⟨(hle _).trans (by omega), fun j t ht => (hle _).trans (Nat.add_le_add_right (h2 j t ht) 1)⟩
    · have hlen : values m (evs ++ [e]) = values m evs := by
        cases e with
        | set v => exact absurd ⟨v, rfl⟩ hset
        | _ => simp [values, List.filterMap_append]
      rw [hlen]
      by_cases hrun : ∃ (i : ℕ) (t : KThr B), e = .run i ∧ σ.threads[i]? = some t ∧ t.pc ≠ .done
      · obtain ⟨i, t, rfl, ht, hp⟩ := hrun
        have hbase : kcount ser (σ.step ser (.run i)) .done ≤ (values m evs).length :=
          (kcount_done _ (kNext ser σ t)).trans ((kcount_run σ ht).trans (h2 i t ht))
        refine ⟨hbase, ?_⟩
        intro j t' ht'
        rcases kthread_cases σ _ ht' with ⟨u, h0, hu, rfl⟩ | ⟨hne, hu⟩ | ⟨_, ⟨h0, _⟩ | ⟨h0, _⟩⟩
        · cases h0
          rw [ht] at hu
          cases hu
          exact (kcount_run σ ht).trans (h2 i _ ht)
        · have hdone : t'.pc = .done := by
            by_contra hnd
            have : i = j := hone i j t t' ht hu hp hnd
            subst this
            exact hne rfl
          rw [hdone]
          exact hbase
        · cases h0
        · cases h0
      · have hsame : ∀ pc, kcount ser (σ.step ser e) pc = kcount ser σ pc := by
          intro pc
          cases e with
          | set v => exact absurd ⟨v, rfl⟩ hset
          | run i =>
            rcases hi : σ.threads[i]? with _ | t
            · rw [step_run_none σ hi]
            · have hd : t.pc = .done := by
                by_contra hnd
                exact hrun ⟨i, t, rfl, hi, hnd⟩
              rw [step_run σ hi]
              simp only [MarkerThreads.stmt, hd]
          | _ => rfl
        refine ⟨by rw [hsame]; exact h1, ?_⟩
        intro j t' ht'
        rw [hsame]
        rcases kthread_cases σ _ ht' with ⟨u, h0, hu, rfl⟩ | ⟨_, hu⟩ | ⟨_, ⟨_, rfl⟩ | ⟨_, rfl⟩⟩
        · have hd : u.pc = .done := by
            by_contra hnd
            exact hrun ⟨j, u, h0, hu, hnd⟩
          simp only [kNext, hd]
          exact h1
        · exact h2 j t' hu
        · exact h1
        · exact h1

/-- As long as calls do not overlap (one loop, or one call of `publish` after the other), there are at most as many messages as the marker had values,
however often `publish` is called and wherever the marker is changed in between. -/
theorem C93_bandwidth (m : M) (evs : List (KEv M)) (hseq : ∀ pre, pre <+: evs → AtMostOne ((MarkerThreads.start m empty).exec ser pre)) :
    ((MarkerThreads.start m empty).exec ser evs).log.length ≤ (values m evs).length := by
  refine le_trans ?_ (kcount_exec m evs hseq).1
  simp only [kcount]
  omega

/-! ### Histories without overlap -/

/-- Where the only thread that has not finished is. -/
def KAt (threads : List (KThr B)) : MPC → Prop
  | .idle => ∀ t ∈ threads, t.pc = .done
  | .starting => ∃ i < threads.length, ∃ l : List (KThr B), (∀ t ∈ l, t.pc = .done) ∧ threads = l.set i ⟨true, .clear⟩
  | .check => ∃ i < threads.length, ∃ l : List (KThr B), (∀ t ∈ l, t.pc = .done) ∧ threads = l.set i ⟨true, .shut⟩

theorem run_at {l : List (KThr B)} {i : ℕ} (hi : i < l.length) (mk : M) (la : B) (st sd : Bool) (t : KThr B) (log : List (ℕ × M)) :
    (⟨mk, la, st, sd, l.set i t, log⟩ : MarkerThreads M B).step ser (.run i) = (⟨mk, la, st, sd, l.set i t, log⟩ : MarkerThreads M B).stmt ser i t := by
  apply step_run
  show (l.set i t)[i]? = some t
  rw [List.getElem?_set_self hi]

/-- The simpler model, in which calls are not interrupted (C51, C59), is contained in this one: every history of it is a schedule of threads with the same
messages and the same effects. -/
theorem C93_coarse (m : M) (evs : List (MEv M)) : ∃ fine : List (KEv M),
    ((MarkerThreads.start m empty).exec ser fine).log.map (fun e => e.2) = ((MarkerPub.start m empty).exec ser evs).log ∧
    ((MarkerThreads.start m empty).exec ser fine).marker = ((MarkerPub.start m empty).exec ser evs).marker ∧
    ((MarkerThreads.start m empty).exec ser fine).last = ((MarkerPub.start m empty).exec ser evs).last ∧
    ((MarkerThreads.start m empty).exec ser fine).stopped = ((MarkerPub.start m empty).exec ser evs).stopped ∧
    ((MarkerThreads.start m empty).exec ser fine).shutdown = ((MarkerPub.start m empty).exec ser evs).shutdown ∧
    KAt ((MarkerThreads.start m empty).exec ser fine).threads ((MarkerPub.start m empty).exec ser evs).pc := by
  induction evs using List.reverseRecOn with
  | nil => exact ⟨[], rfl, rfl, rfl, rfl, rfl, by simp [MarkerThreads.exec, MarkerThreads.start, MarkerPub.exec, MarkerPub.start, KAt]⟩
  | append_singleton evs e ih =>
    obtain ⟨fine, g1, g2, g3, g4, g5, g6⟩ := ih
    have hσ : (MarkerPub.start m empty).exec ser (evs ++ [e]) = ((MarkerPub.start m empty).exec ser evs).step ser e := List.foldl_append
    rw [hσ]
    generalize (MarkerPub.start m empty).exec ser evs = σ at g1 g2 g3 g4 g5 g6
    suffices h : ∃ more : List (KEv M), let τ := ((MarkerThreads.start m empty).exec ser fine).exec ser more
        τ.log.map (fun e => e.2) = (σ.step ser e).log ∧ τ.marker = (σ.step ser e).marker ∧ τ.last = (σ.step ser e).last ∧
        τ.stopped = (σ.step ser e).stopped ∧ τ.shutdown = (σ.step ser e).shutdown ∧ KAt τ.threads (σ.step ser e).pc by
      obtain ⟨more, h⟩ := h
      exact ⟨fine ++ more, by rw [kexec_append]; exact h⟩
    generalize (MarkerThreads.start m empty).exec ser fine = τ at g1 g2 g3 g4 g5 g6
    obtain ⟨mk, la, st, sd, th, log⟩ := τ
    obtain ⟨mk', la', st', pc, sd', log'⟩ := σ
    simp only at g1 g2 g3 g4 g5 g6
    subst g1 g2 g3 g4 g5
    cases e with
    | set v => exact ⟨[.set v], rfl, rfl, rfl, rfl, rfl, g6⟩
    | stop => exact ⟨[.stop], rfl, rfl, rfl, rfl, rfl, g6⟩
    | shutdown => exact ⟨[.shutdown], rfl, rfl, rfl, rfl, rfl, g6⟩
    | publish =>
      refine ⟨[.publish, .run th.length, .run th.length, .run th.length, .run th.length], ?_⟩
      have hth : th ++ [(⟨false, .serial⟩ : KThr B)] = (th ++ [(⟨false, .done⟩ : KThr B)]).set th.length ⟨false, .serial⟩ := by simp
      have hlen : th.length < (th ++ [(⟨false, .done⟩ : KThr B)]).length := by simp
      simp only [MarkerThreads.exec, List.foldl_cons, List.foldl_nil]
      have hp : (⟨mk, la, st, sd, th, log⟩ : MarkerThreads M B).step ser .publish =
          ⟨mk, la, st, sd, (th ++ [(⟨false, .done⟩ : KThr B)]).set th.length ⟨false, .serial⟩, log⟩ := by
        rw [← hth]
        rfl
      rw [hp]
      have hat : ∀ pc, KAt th pc → KAt (th ++ [⟨false, .done⟩]) pc := by
        intro pc h
        cases pc with
        | idle =>
          intro t ht
          simp only [List.mem_append, List.mem_singleton] at ht
          rcases ht with ht | rfl
          · exact h t ht
          · rfl
        | starting =>
          obtain ⟨i, hi, l, hl, rfl⟩ := h
          refine ⟨i, by simp only [List.length_append]; omega, l ++ [⟨false, .done⟩], ?_, ?_⟩
          · intro t ht
            simp only [List.mem_append, List.mem_singleton] at ht
            rcases ht with ht | rfl
            · exact hl t ht
            · rfl
          · rw [List.set_append_left _ _ (by simpa using hi)]
        | check =>
          obtain ⟨i, hi, l, hl, rfl⟩ := h
          refine ⟨i, by simp only [List.length_append]; omega, l ++ [⟨false, .done⟩], ?_, ?_⟩
          · intro t ht
            simp only [List.mem_append, List.mem_singleton] at ht
            rcases ht with ht | rfl
            · exact hl t ht
            · rfl
          · rw [List.set_append_left _ _ (by simpa using hi)]
      have hset : (th ++ [(⟨false, .done⟩ : KThr B)]).set th.length ⟨false, .done⟩ = th ++ [⟨false, .done⟩] := by simp
      by_cases hc : ser mk = la
      · simp only [run_at hlen, MarkerThreads.stmt, MarkerThreads.goto, List.set_set, hc, ne_eq, not_true_eq_false, if_false, KThr.after, Bool.false_eq_true,
          MarkerPub.step, MarkerPub.publish, true_and, and_true]
        rw [hset]
        exact hat _ g6
      · simp only [run_at hlen, MarkerThreads.stmt, MarkerThreads.goto, List.set_set, hc, ne_eq, not_false_eq_true, if_true, if_false, KThr.after, Bool.false_eq_true,
          MarkerPub.step, MarkerPub.publish, true_and, and_true, List.map_cons]
        rw [hset]
        exact hat _ g6
    | spin =>
      cases pc with
      | idle =>
        refine ⟨[.spin], rfl, rfl, rfl, rfl, rfl, ?_⟩
        refine ⟨th.length, by simp [MarkerThreads.exec, MarkerThreads.step], th ++ [⟨true, .done⟩], ?_, ?_⟩
        · intro t ht
          simp only [List.mem_append, List.mem_singleton] at ht
          rcases ht with ht | rfl
          · exact g6 t ht
          · rfl
        · simp [MarkerThreads.exec, MarkerThreads.step]
      | starting => exact ⟨[], rfl, rfl, rfl, rfl, rfl, g6⟩
      | check => exact ⟨[], rfl, rfl, rfl, rfl, rfl, g6⟩
    | run =>
      cases pc with
      | idle => exact ⟨[], rfl, rfl, rfl, rfl, rfl, g6⟩
      | starting =>
        obtain ⟨i, hi, l, hl, rfl⟩ := g6
        rw [List.length_set] at hi
        refine ⟨[.run i], ?_⟩
        simp only [MarkerThreads.exec, List.foldl_cons, List.foldl_nil, run_at hi, MarkerThreads.stmt, MarkerThreads.goto, List.set_set, MarkerPub.step,
          true_and, and_true]
        exact ⟨i, by simpa using hi, l, hl, rfl⟩
      | check =>
        obtain ⟨i, hi, l, hl, rfl⟩ := g6
        rw [List.length_set] at hi
        have hdone : KAt (l.set i ⟨true, .done⟩) .idle := by
          intro t ht
          rcases List.mem_or_eq_of_mem_set ht with ht | rfl
          · exact hl t ht
          · rfl
        have hshut : KAt (l.set i ⟨true, .shut⟩) .check := ⟨i, by simpa using hi, l, hl, rfl⟩
        cases sd with
        | true =>
          refine ⟨[.run i, .run i], ?_⟩
          simp only [MarkerThreads.exec, List.foldl_cons, List.foldl_nil, run_at hi, MarkerThreads.stmt, MarkerThreads.goto, List.set_set, MarkerPub.step,
            if_true, true_or, true_and, and_true]
          exact hdone
        | false =>
          cases st with
          | true =>
            refine ⟨[.run i, .run i, .run i], ?_⟩
            simp only [MarkerThreads.exec, List.foldl_cons, List.foldl_nil, run_at hi, MarkerThreads.stmt, MarkerThreads.goto, List.set_set, MarkerPub.step,
              if_true, Bool.false_eq_true, if_false, or_true, true_and, and_true]
            exact hdone
          | false =>
            by_cases hc : ser mk = la
            · refine ⟨[.run i, .run i, .run i, .run i], ?_⟩
              simp only [MarkerThreads.exec, List.foldl_cons, List.foldl_nil, run_at hi, MarkerThreads.stmt, MarkerThreads.goto, List.set_set, MarkerPub.step,
                MarkerPub.publish, hc, KThr.after, ne_eq, not_true_eq_false, if_true, Bool.false_eq_true, if_false, or_self, true_and, and_true]
              exact hshut
            · refine ⟨[.run i, .run i, .run i, .run i, .run i, .run i], ?_⟩
              simp only [MarkerThreads.exec, List.foldl_cons, List.foldl_nil, run_at hi, MarkerThreads.stmt, MarkerThreads.goto, List.set_set, MarkerPub.step,
                MarkerPub.publish, hc, KThr.after, ne_eq, not_false_eq_true, if_true, Bool.false_eq_true, if_false, or_self, true_and, and_true, List.map_cons]
              exact hshut

end

/-! ### Examples: markers are numbers, serialized as `some` -/

/-- The marker is set to 1 while a loop and two calls of `publish` are under way (`C93_converges`). -/
example : shown ((MarkerThreads.start 0 none).exec (fun n : ℕ => some n)
    ([.spin, .publish, .run 0, .run 1, .run 1] ++ .set 1 :: [.publish, .run 1] ++ [.run 0, .run 0, .run 0, .run 0, .run 2, .run 0, .run 0] ++
      [.run 2, .run 1, .run 0])) = some 1 := by
  refine C93_converges (B := Option ℕ) (empty := none) (ser := fun n : ℕ => some n) 0 1 (by simp) [.spin, .publish, .run 0, .run 1, .run 1] [.publish, .run 1]
    [.run 0, .run 0, .run 0, .run 0, .run 2, .run 0, .run 0] [.run 2, .run 1, .run 0] (by simp [values]) (by simp) (by simp) (i := 0) (t := ⟨true, .shut⟩) ?_ rfl
    (by simp [turns]) ?_
  · simp [MarkerThreads.exec, MarkerThreads.step, MarkerThreads.start, MarkerThreads.stmt, MarkerThreads.goto]
  · intro j hj
    simp [MarkerThreads.exec, MarkerThreads.step, MarkerThreads.start, MarkerThreads.stmt, MarkerThreads.goto, KThr.after] at hj
    interval_cases j <;> simp [turns]

/-- A call of `publish` after shutdown (`C93_call_converges`). -/
example : shown ((MarkerThreads.start 0 none).exec (fun n : ℕ => some n)
    ([.shutdown] ++ .set 1 :: [] ++ .publish :: [.run 0, .run 0, .run 0] ++ [.run 0])) = some 1 := by
  refine C93_call_converges (B := Option ℕ) (empty := none) (ser := fun n : ℕ => some n) 0 1 (by simp) [.shutdown] [] [.run 0, .run 0, .run 0] [.run 0]
    (by simp [values]) (by simp) (i := 0) rfl (by simp [turns]) ?_
  intro j hj
  simp [MarkerThreads.exec, MarkerThreads.step, MarkerThreads.start, MarkerThreads.stmt, MarkerThreads.goto] at hj
  subst hj
  simp [turns]

/-- 0, then 1, then 0 again: 1 stays (`C93_returning_value`). -/
example : ∃ evs : List (KEv ℕ), values 0 evs = [0, 1, 0] ∧ ∀ n : ℕ,
    shown ((MarkerThreads.start 0 none).exec (fun n : ℕ => some n) (evs ++ List.replicate n (.run 0))) = some 1 := by
  obtain ⟨evs, h1, -, h2⟩ := C93_returning_value (B := Option ℕ) (empty := none) (ser := fun n : ℕ => some n) 0 1 (by simp)
  refine ⟨evs, h1, fun n => (h2 (List.replicate n (.run 0)) ?_).2⟩
  intro e he v
  rw [List.eq_of_mem_replicate he]
  simp

/-- `stop` and shutdown while the loop is about to publish (`C93_stop`, `C93_shutdown`). -/
example (after : List (KEv ℕ)) (h : ∀ e ∈ after, e ≠ .spin) (h7 : 7 ≤ turns 0 after) :
    ((MarkerThreads.start 0 none).exec (fun n : ℕ => some n) ([.spin, .run 0, .run 0, .run 0] ++ .stop :: after)).threads[0]? = some ⟨true, .done⟩ ∧
    ((MarkerThreads.start 0 none).exec (fun n : ℕ => some n) ([.spin] ++ .shutdown :: after)).threads[0]? = some ⟨true, .done⟩ := by
  refine ⟨(C93_stop 0 [.spin, .run 0, .run 0, .run 0] after ?_ h (i := 0) (t := ⟨true, .serial⟩) ?_ rfl).2 h7,
    (C93_shutdown 0 [.spin] after (i := 0) (t := ⟨true, .clear⟩) rfl rfl).2 h7⟩
  · intro j t ht
    simp [MarkerThreads.exec, MarkerThreads.step, MarkerThreads.start, MarkerThreads.stmt, MarkerThreads.goto] at ht
    rcases j with _ | j
    · simp at ht
      subst ht
      simp
    · simp at ht
  · simp [MarkerThreads.exec, MarkerThreads.step, MarkerThreads.start, MarkerThreads.stmt, MarkerThreads.goto]

/-- One loop, the marker may change at any point (`C93_bandwidth`). -/
example (after : List (KEv ℕ)) (h : ∀ e ∈ after, (∃ v, e = .set v) ∨ e = .run 0) :
    ((MarkerThreads.start 0 none).exec (fun n : ℕ => some n) (.spin :: after)).log.length ≤ (values 0 (.spin :: after)).length := by
  refine C93_bandwidth (B := Option ℕ) 0 (.spin :: after) ?_
  have hlen : ∀ (l : List (KEv ℕ)), (∀ e ∈ l, (∃ v, e = .set v) ∨ e = .run 0) → ∀ σ : MarkerThreads ℕ (Option ℕ), σ.threads.length ≤ 1 →
      (σ.exec (fun n : ℕ => some n) l).threads.length ≤ 1 := by
    intro l
    induction l with
    | nil => exact fun _ σ h => h
    | cons e l ih =>
      intro hl σ hσ
      refine ih (fun e' he' => hl e' (by simp [he'])) _ ?_
      rcases hl e (by simp) with ⟨v, rfl⟩ | rfl
      · exact hσ
      · rcases hi : σ.threads[0]? with _ | t
        · rw [step_run_none σ hi]
          exact hσ
        · rw [step_run σ hi, stmt_threads σ hi, List.length_set]
          exact hσ
  rintro pre ⟨rest, hpre⟩ j k t u hj hk - -
  have h1 : ((MarkerThreads.start 0 none).exec (fun n : ℕ => some n) pre).threads.length ≤ 1 := by
    rcases pre with _ | ⟨e, pre⟩
    · simp [MarkerThreads.exec, MarkerThreads.start]
    · rw [List.cons_append, List.cons.injEq] at hpre
      obtain ⟨rfl, rfl⟩ := hpre
      exact hlen pre (fun e he => h e (by simp [he])) _ (by simp [MarkerThreads.step, MarkerThreads.start])
  have hj' := (List.getElem?_eq_some_iff.mp hj).1
  have hk' := (List.getElem?_eq_some_iff.mp hk).1
  omega

end RBM.Props
