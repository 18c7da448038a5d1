import Verif.Props.BroadcasterEvents
import Verif.Props.Markers

/-!
C73: shutting down the ROS node ends the publishing threads.
-/

namespace RBM.Props

open RBM RBM.Ros RBM.Spec

/-- Steps a thread needs to end once the node is shut down. -/
private def left : PC → ℕ
  | .idle => 0
  | .check => 1
  | .waiting => 1
  | .starting => 2
  | .advance => 2

private theorem shut_step (near : NearestFn) (σ : Sys) (h : σ.shutdown = true) (e : Ev) :
    (σ.step near e).shutdown = true ∧ published .loop (σ.step near e).log = published .loop σ.log ∧
    (e ≠ .spin → left (σ.step near e).pc + runs [e] ≤ max (left σ.pc) (runs [e])) := by
  have other : ∀ o r, o ≠ Origin.loop → published .loop (σ.record o r).log = published .loop σ.log := by
    intro o r ho
    simp [Sys.record, published_cons, ho]
  cases e with
  | spin =>
    simp only [Sys.step]
    split
    · exact ⟨h, other _ _ (by decide), by simp⟩
    · split_ifs
      · exact ⟨h, rfl, by simp⟩
      · exact ⟨h, rfl, by simp⟩
  | stop => exact ⟨h, rfl, by simp [Sys.step, runs]⟩
  | shutdown => exact ⟨rfl, rfl, by simp [Sys.step, runs]⟩
  | publish i => exact ⟨h, other _ _ (by decide), by simp [Sys.step, Sys.record, runs]⟩
  | incoming ms =>
    simp only [Sys.step]
    split
    · exact ⟨h, rfl, by simp [runs]⟩
    · exact ⟨h, other _ _ (by decide), by simp [Sys.record, runs]⟩
  | run =>
    cases hp : σ.pc with
    | idle => simp only [Sys.step, Sys.runStep, hp]; exact ⟨h, trivial, by simp [hp, left, runs]⟩
    | starting =>
      simp only [Sys.step, Sys.runStep, hp]
      refine ⟨h, trivial, ?_⟩
      split_ifs <;> simp [left, runs]
    | check =>
      simp only [Sys.step, Sys.runStep, hp, h, true_or, if_true]
      exact ⟨trivial, trivial, by simp [left, runs]⟩
    | waiting =>
      simp only [Sys.step, Sys.runStep, hp, h, if_true]
      exact ⟨trivial, trivial, by simp [left, runs]⟩
    | advance =>
      simp only [Sys.step, Sys.runStep, hp]
      split
      · exact ⟨h, rfl, by simp [left, runs]⟩
      · split
        · exact ⟨h, rfl, by simp [left, runs]⟩
        · exact ⟨h, rfl, by simp [left, runs]⟩

private theorem shut_exec (near : NearestFn) (after : List Ev) (σ : Sys) (h : σ.shutdown = true) :
    published .loop (σ.exec near after).log = published .loop σ.log ∧
    ((∀ e ∈ after, e ≠ .spin) → left σ.pc ≤ runs after → (σ.exec near after).pc = .idle) := by
  induction after generalizing σ with
  | nil =>
    refine ⟨rfl, fun _ hl => ?_⟩
    show σ.pc = _
    cases hp : σ.pc <;> simp [hp, left, runs] at hl ⊢
  | cons e after ih =>
    obtain ⟨s1, s2, s3⟩ := shut_step near σ h e
    obtain ⟨i1, i2⟩ := ih _ s1
    refine ⟨i1.trans s2, fun ha hl => i2 (fun e he => ha e (by simp [he])) ?_⟩
    have := s3 (ha e (by simp))
    have hr : runs (e :: after) = runs [e] + runs after := by
      cases e <;> simp [runs]
      omega
    omega

/-- After the node is shut down the loop publishes nothing more, whatever happens before and after (also if `spin` is called again, and if `stop`
was called too early or the broadcaster follows another frame), and the thread ends after at most two steps. -/
theorem C73_shutdown (near : NearestFn) (b : Broadcaster) (dt : Bool) (before after : List Ev) :
    published .loop ((Sys.start b dt).exec near (before ++ .shutdown :: after)).log = published .loop ((Sys.start b dt).exec near before).log ∧
    ((∀ e ∈ after, e ≠ .spin) → 2 ≤ runs after → ((Sys.start b dt).exec near (before ++ .shutdown :: after)).pc = .idle) := by
  rw [exec_append]
  obtain ⟨h1, h2⟩ := shut_exec near after (((Sys.start b dt).exec near before).step near .shutdown) rfl
  refine ⟨h1, fun ha hr => h2 ha (le_trans ?_ hr)⟩
  cases (((Sys.start b dt).exec near before).step near .shutdown).pc <;> simp [left]

/-- The same for marker publishers; only direct calls of `publish` still send something. -/
theorem C73_marker_shutdown {M B : Type} [DecidableEq B] (ser : M → B) (empty : B) (m : M) (before after : List (MEv M))
    (ha : ∀ e ∈ after, e ≠ .publish) :
    ((MarkerPub.start m empty).exec ser (before ++ .shutdown :: after)).log = ((MarkerPub.start m empty).exec ser before).log ∧
    ((∀ e ∈ after, e ≠ .spin) → 2 ≤ after.countP (fun e => match e with | .run => true | _ => false) →
      ((MarkerPub.start m empty).exec ser (before ++ .shutdown :: after)).pc = .idle) := by
  have key : ∀ (after : List (MEv M)), (∀ e ∈ after, e ≠ .publish) → ∀ σ : MarkerPub M B, σ.shutdown = true →
      (σ.exec ser after).log = σ.log ∧ ((∀ e ∈ after, e ≠ .spin) →
        (match σ.pc with | .idle => 0 | .check => 1 | .starting => 2) ≤ after.countP (fun e => match e with | .run => true | _ => false) →
          (σ.exec ser after).pc = .idle) := by
    intro after
    induction after with
    | nil =>
      intro _ σ h
      refine ⟨rfl, fun _ hl => ?_⟩
      show σ.pc = _
      cases hp : σ.pc <;> simp [hp] at hl ⊢
    | cons e after ih =>
      intro ha σ h
      have hpub := ha e (by simp)
      have ih := ih (fun e h => ha e (by simp [h]))
      show ((σ.step ser e).exec ser after).log = _ ∧ (_ → _ → ((σ.step ser e).exec ser after).pc = _)
      cases e with
      | set m =>
        obtain ⟨i1, i2⟩ := ih (σ.step ser (.set m)) h
        exact ⟨i1, fun hs hl => i2 (fun e he => hs e (by simp [he])) (by simpa [MarkerPub.step] using hl)⟩
      | publish => exact absurd rfl hpub
      | spin =>
        refine ⟨?_, fun hs => absurd rfl (hs .spin (by simp))⟩
        simp only [MarkerPub.step]
        split_ifs
        · exact (ih { σ with pc := .starting } h).1
        · exact (ih σ h).1
      | stop =>
        obtain ⟨i1, i2⟩ := ih (σ.step ser .stop) h
        exact ⟨i1, fun hs hl => i2 (fun e he => hs e (by simp [he])) (by simpa [MarkerPub.step] using hl)⟩
      | shutdown =>
        obtain ⟨i1, i2⟩ := ih (σ.step ser .shutdown) rfl
        exact ⟨i1, fun hs hl => i2 (fun e he => hs e (by simp [he])) (by simpa [MarkerPub.step] using hl)⟩
      | run =>
        cases hp : σ.pc with
        | idle =>
          simp only [MarkerPub.step, hp]
          obtain ⟨i1, i2⟩ := ih σ h
          exact ⟨i1, fun hs hl => i2 (fun e he => hs e (by simp [he])) (by simp [hp])⟩
        | starting =>
          simp only [MarkerPub.step, hp]
          obtain ⟨i1, i2⟩ := ih { σ with stopped := false, pc := .check } h
          exact ⟨i1, fun hs hl => i2 (fun e he => hs e (by simp [he])) (by simpa using hl)⟩
        | check =>
          simp only [MarkerPub.step, hp, h, true_or, if_true]
          obtain ⟨i1, i2⟩ := ih { σ with stopped := true, pc := .idle } h
          rw [h] at i1 i2
          exact ⟨i1, fun hs hl => i2 (fun e he => hs e (by simp [he])) (by simp)⟩
  have e : (MarkerPub.start m empty).exec ser (before ++ .shutdown :: after) =
      (((MarkerPub.start m empty).exec ser before).step ser .shutdown).exec ser after := by simp [MarkerPub.exec]
  rw [e]
  obtain ⟨h1, h2⟩ := key after ha (((MarkerPub.start m empty).exec ser before).step ser .shutdown) rfl
  refine ⟨h1, fun hs hr => h2 hs (le_trans ?_ hr)⟩
  cases (((MarkerPub.start m empty).exec ser before).step ser .shutdown).pc <;> simp

/-- The markers the loop would have sent without the shutdown: the thread of this history is running, and ends. -/
example {M B : Type} [DecidableEq B] (ser : M → B) (empty : B) (m : M) (h : ser m ≠ empty) :
    ((MarkerPub.start m empty).exec ser [.spin, .run, .run, .shutdown, .set m, .run, .run]).log = [m] ∧
    ((MarkerPub.start m empty).exec ser [.spin, .run, .run, .shutdown, .set m, .run, .run]).pc = .idle := by
  obtain ⟨h1, h2⟩ := C73_marker_shutdown ser empty m [.spin, .run, .run] [.set m, .run, .run] (by simp)
  refine ⟨?_, h2 (by simp) (by simp)⟩
  rw [show ([.spin, .run, .run, .shutdown, .set m, .run, .run] : List (MEv M)) = [.spin, .run, .run] ++ .shutdown :: [.set m, .run, .run] from rfl, h1]
  simp [MarkerPub.exec, MarkerPub.step, MarkerPub.start, MarkerPub.publish, h]

/-- A `stop` that is lost is made up for by the shutdown. -/
example (near : NearestFn) (b : Broadcaster) (dt : Bool) :
    published .loop ((Sys.start b dt).exec near ([.spin, .stop, .run] ++ .shutdown :: [.run, .run])).log = [] ∧
    ((Sys.start b dt).exec near ([.spin, .stop, .run] ++ .shutdown :: [.run, .run])).pc = .idle := by
  obtain ⟨h1, h2⟩ := C73_shutdown near b dt [.spin, .stop, .run] [.run, .run]
  refine ⟨?_, h2 (by simp) (by simp [runs])⟩
  rw [h1]
  cases ht : b.timestamps <;>
    simp [Sys.exec, Sys.step, Sys.start, ht, Sys.runStep, Sys.record, published]

end RBM.Props
