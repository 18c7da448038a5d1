import Verif.Spec.MarkerThreads
import Verif.Lemmas.Threads

/-!
What one event does to a marker publisher with several threads.
-/

namespace RBM.Ros

open RBM RBM.Spec

section

variable {M B : Type} [DecidableEq B] {ser : M → B}

/-- The next position of a thread. -/
def kNext (ser : M → B) (σ : MarkerThreads M B) (t : KThr B) : KPC B :=
  match t.pc with
  | .clear => .shut
  | .shut => if σ.shutdown then .set else .halt
  | .halt => if σ.stopped then .set else .serial
  | .serial => .compare (ser σ.marker)
  | .compare c => if c ≠ σ.last then .assign c else t.after
  | .assign _ => .emit
  | .emit => t.after
  | .set => .done
  | .done => .done

theorem stmt_threads (σ : MarkerThreads M B) {i : ℕ} {t : KThr B} (h : σ.threads[i]? = some t) :
    (σ.stmt ser i t).threads = σ.threads.set i ⟨t.loop, kNext ser σ t⟩ := by
  obtain ⟨lp, pc⟩ := t
  cases pc <;> simp only [MarkerThreads.stmt, MarkerThreads.goto, kNext]
  rw [RBM.Props.set_same h]

theorem stmt_marker (σ : MarkerThreads M B) (i : ℕ) (t : KThr B) : (σ.stmt ser i t).marker = σ.marker := by
  obtain ⟨lp, pc⟩ := t
  cases pc <;> rfl

theorem stmt_shutdown (σ : MarkerThreads M B) (i : ℕ) (t : KThr B) : (σ.stmt ser i t).shutdown = σ.shutdown := by
  obtain ⟨lp, pc⟩ := t
  cases pc <;> rfl

theorem kexec_append (σ : MarkerThreads M B) (a b : List (KEv M)) : σ.exec ser (a ++ b) = (σ.exec ser a).exec ser b := List.foldl_append

theorem kexec_cons (σ : MarkerThreads M B) (e : KEv M) (b : List (KEv M)) : σ.exec ser (e :: b) = (σ.step ser e).exec ser b := rfl

theorem step_run (σ : MarkerThreads M B) {i : ℕ} {t : KThr B} (h : σ.threads[i]? = some t) : σ.step ser (.run i) = σ.stmt ser i t := by
  simp only [MarkerThreads.step, h]

theorem step_run_none (σ : MarkerThreads M B) {i : ℕ} (h : σ.threads[i]? = none) : σ.step ser (.run i) = σ := by
  simp only [MarkerThreads.step, h]

/-- Thread `j` after an event: it made a step, or it is new, or nothing happened to it. -/
theorem kthread_cases (σ : MarkerThreads M B) (e : KEv M) {j : ℕ} {t' : KThr B} (h : (σ.step ser e).threads[j]? = some t') :
    (∃ t, e = .run j ∧ σ.threads[j]? = some t ∧ t' = ⟨t.loop, kNext ser σ t⟩) ∨
    (e ≠ .run j ∧ σ.threads[j]? = some t') ∨
    (j = σ.threads.length ∧ ((e = .publish ∧ t' = ⟨false, .serial⟩) ∨ (e = .spin ∧ t' = ⟨true, .clear⟩))) := by
  cases e with
  | set m => exact .inr (.inl ⟨by simp, h⟩)
  | stop => exact .inr (.inl ⟨by simp, h⟩)
  | shutdown => exact .inr (.inl ⟨by simp, h⟩)
  | publish =>
    simp only [MarkerThreads.step] at h
    rcases lt_trichotomy j σ.threads.length with hj | hj | hj
    · rw [List.getElem?_append_left hj] at h
      exact .inr (.inl ⟨by simp, h⟩)
    · subst hj
      simp only [List.getElem?_concat_length, Option.some.injEq] at h
      exact .inr (.inr ⟨rfl, .inl ⟨rfl, h.symm⟩⟩)
    · rw [List.getElem?_eq_none (by simp only [List.length_append, List.length_singleton]; omega)] at h
      cases h
  | spin =>
    simp only [MarkerThreads.step] at h
    rcases lt_trichotomy j σ.threads.length with hj | hj | hj
    · rw [List.getElem?_append_left hj] at h
      exact .inr (.inl ⟨by simp, h⟩)
    · subst hj
      simp only [List.getElem?_concat_length, Option.some.injEq] at h
      exact .inr (.inr ⟨rfl, .inr ⟨rfl, h.symm⟩⟩)
    · rw [List.getElem?_eq_none (by simp only [List.length_append, List.length_singleton]; omega)] at h
      cases h
  | run i =>
    rcases hi : σ.threads[i]? with _ | t
    · rw [step_run_none σ hi] at h
      refine .inr (.inl ⟨?_, h⟩)
      rintro ⟨⟩
      rw [hi] at h
      cases h
    · rw [step_run σ hi, stmt_threads σ hi] at h
      by_cases hij : i = j
      · subst hij
        rw [List.getElem?_set_self (List.getElem?_eq_some_iff.mp hi).1] at h
        simp only [Option.some.injEq] at h
        exact .inl ⟨t, rfl, hi, h.symm⟩
      · rw [List.getElem?_set_ne hij] at h
        exact .inr (.inl ⟨by simpa using hij, h⟩)

/-- A thread makes a step. -/
theorem kthread_run (σ : MarkerThreads M B) {j : ℕ} {t : KThr B} (h : σ.threads[j]? = some t) :
    (σ.step ser (.run j)).threads[j]? = some ⟨t.loop, kNext ser σ t⟩ := by
  rw [step_run σ h, stmt_threads σ h, List.getElem?_set_self (List.getElem?_eq_some_iff.mp h).1]

/-- A thread whose turn it is not stays where it is. -/
theorem kthread_stay (σ : MarkerThreads M B) {e : KEv M} {j : ℕ} {t : KThr B} (h : σ.threads[j]? = some t) (he : e ≠ .run j) :
    (σ.step ser e).threads[j]? = some t := by
  have hj := (List.getElem?_eq_some_iff.mp h).1
  cases e with
  | set m => exact h
  | stop => exact h
  | shutdown => exact h
  | publish => simpa [MarkerThreads.step, List.getElem?_append_left hj] using h
  | spin => simpa [MarkerThreads.step, List.getElem?_append_left hj] using h
  | run i =>
    rcases hi : σ.threads[i]? with _ | t₀
    · rw [step_run_none σ hi]
      exact h
    · rw [step_run σ hi, stmt_threads σ hi, List.getElem?_set_ne (by rintro rfl; exact he rfl)]
      exact h

/-- What was published after an event. -/
theorem klog_step (σ : MarkerThreads M B) (e : KEv M) :
    ((σ.step ser e).log = σ.log ∧ ∀ j t, e = .run j → σ.threads[j]? = some t → t.pc ≠ .emit) ∨
    ∃ j t, e = .run j ∧ σ.threads[j]? = some t ∧ t.pc = .emit ∧ (σ.step ser e).log = (j, σ.marker) :: σ.log := by
  cases e with
  | set m => exact .inl ⟨rfl, by simp⟩
  | stop => exact .inl ⟨rfl, by simp⟩
  | shutdown => exact .inl ⟨rfl, by simp⟩
  | publish => exact .inl ⟨rfl, by simp⟩
  | spin => exact .inl ⟨rfl, by simp⟩
  | run i =>
    rcases hi : σ.threads[i]? with _ | t
    · rw [step_run_none σ hi]
      refine .inl ⟨rfl, ?_⟩
      rintro j t ⟨⟩ h
      rw [hi] at h
      cases h
    · rw [step_run σ hi]
      obtain ⟨lp, pc⟩ := t
      by_cases hp : pc = .emit
      · subst hp
        exact .inr ⟨i, _, rfl, hi, rfl, rfl⟩
      · refine .inl ⟨?_, ?_⟩
        · cases pc <;> first | rfl | exact absurd rfl hp
        · rintro j t ⟨⟩ h
          rw [hi] at h
          cases h
          exact hp

/-- The remembered message after an event. -/
theorem klast_step (σ : MarkerThreads M B) (e : KEv M) :
    ((σ.step ser e).last = σ.last ∧ ∀ j t c, e = .run j → σ.threads[j]? = some t → t.pc ≠ .assign c) ∨
    ∃ j t c, e = .run j ∧ σ.threads[j]? = some t ∧ t.pc = .assign c ∧ (σ.step ser e).last = c := by
  cases e with
  | set m => exact .inl ⟨rfl, by simp⟩
  | stop => exact .inl ⟨rfl, by simp⟩
  | shutdown => exact .inl ⟨rfl, by simp⟩
  | publish => exact .inl ⟨rfl, by simp⟩
  | spin => exact .inl ⟨rfl, by simp⟩
  | run i =>
    rcases hi : σ.threads[i]? with _ | t
    · rw [step_run_none σ hi]
      refine .inl ⟨rfl, ?_⟩
      rintro j t c ⟨⟩ h
      rw [hi] at h
      cases h
    · rw [step_run σ hi]
      obtain ⟨lp, pc⟩ := t
      by_cases hp : ∃ c, pc = .assign c
      · obtain ⟨c, rfl⟩ := hp
        exact .inr ⟨i, _, c, rfl, hi, rfl, rfl⟩
      · refine .inl ⟨?_, ?_⟩
        · cases pc <;> first | rfl | exact absurd ⟨_, rfl⟩ hp
        · rintro j t c ⟨⟩ h hc
          rw [hi] at h
          cases h
          exact hp ⟨c, hc⟩

theorem kmarker_step (σ : MarkerThreads M B) (e : KEv M) (he : ∀ m, e ≠ .set m) : (σ.step ser e).marker = σ.marker := by
  cases e with
  | set m => exact absurd rfl (he m)
  | run i =>
    rcases hi : σ.threads[i]? with _ | t
    · rw [step_run_none σ hi]
    · rw [step_run σ hi, stmt_marker]
  | _ => rfl

theorem kshutdown_step (σ : MarkerThreads M B) (e : KEv M) : (σ.step ser e).shutdown = (σ.shutdown || e matches .shutdown) := by
  cases e with
  | run i =>
    rcases hi : σ.threads[i]? with _ | t
    · rw [step_run_none σ hi]; simp
    · rw [step_run σ hi, stmt_shutdown]; simp
  | _ => simp [MarkerThreads.step]

/-- The flag `stopped` after an event. -/
theorem kstopped_step (σ : MarkerThreads M B) (e : KEv M) :
    (e = .stop ∧ (σ.step ser e).stopped = true) ∨
    (∃ j t, e = .run j ∧ σ.threads[j]? = some t ∧ t.pc = .clear ∧ (σ.step ser e).stopped = false) ∨
    (∃ j t, e = .run j ∧ σ.threads[j]? = some t ∧ t.pc = .set ∧ (σ.step ser e).stopped = true) ∨
    (e ≠ .stop ∧ (σ.step ser e).stopped = σ.stopped) := by
  cases e with
  | set m => exact .inr (.inr (.inr ⟨by simp, rfl⟩))
  | stop => exact .inl ⟨rfl, rfl⟩
  | shutdown => exact .inr (.inr (.inr ⟨by simp, rfl⟩))
  | publish => exact .inr (.inr (.inr ⟨by simp, rfl⟩))
  | spin => exact .inr (.inr (.inr ⟨by simp, rfl⟩))
  | run i =>
    rcases hi : σ.threads[i]? with _ | t
    · rw [step_run_none σ hi]
      exact .inr (.inr (.inr ⟨by simp, rfl⟩))
    · rw [step_run σ hi]
      obtain ⟨lp, pc⟩ := t
      cases pc
      case clear => exact .inr (.inl ⟨i, _, rfl, hi, rfl, rfl⟩)
      case set => exact .inr (.inr (.inl ⟨i, _, rfl, hi, rfl, rfl⟩))
      all_goals exact .inr (.inr (.inr ⟨by simp, rfl⟩))

/-- The marker is the value set last. -/
theorem kmarker_last (ser : M → B) (m : M) (empty : B) (evs : List (KEv M)) :
    (values m evs).getLast? = some ((MarkerThreads.start m empty).exec ser evs).marker := by
  induction evs using List.reverseRecOn with
  | nil => rfl
  | append_singleton evs e ih =>
    rw [kexec_append]
    show _ = some ((MarkerThreads.exec ser _ evs).step ser e).marker
    by_cases he : ∃ m', e = .set m'
    · obtain ⟨m', rfl⟩ := he
      simp [values, MarkerThreads.step, List.filterMap_append, List.getLast?_cons, List.getLast?_append]
    · rw [kmarker_step _ _ (fun m' h => he ⟨m', h⟩), ← ih]
      have : values m (evs ++ [e]) = values m evs := by
        cases e with
        | set m' => exact absurd ⟨m', rfl⟩ he
        | _ => simp [values, List.filterMap_append]
      rw [this]

end

end RBM.Ros
