import Verif.Props.ThreadsCalls

/-!
C92: the simpler model of the broadcaster, in which calls are not interrupted, is contained in the model with threads.
-/

namespace RBM.Props

open RBM RBM.Ros RBM.Spec

/-- A thread that does nothing any more. -/
def Ended (t : Thr) : Prop := t.pc = .done ∨ ∃ e, t.pc = .dead e

/-- All threads have ended except thread `i`, which is `t`. -/
def OnlyThread (threads : List Thr) (t : Thr) : Prop :=
  ∃ (i : ℕ) (l : List Thr), i < l.length ∧ (∀ u ∈ l, Ended u) ∧ threads = l.set i t

/-- Where the loop is. -/
def LoopAt (threads : List Thr) : PC → Prop
  | .idle => ∀ t ∈ threads, Ended t
  | .starting => OnlyThread threads ⟨.loop, .clear⟩
  | .check => OnlyThread threads ⟨.loop, .shut⟩
  | .advance => OnlyThread threads ⟨.loop, .load⟩
  | .waiting => OnlyThread threads ⟨.loop, .waiting⟩

theorem run_only {near : NearestFn} {l : List Thr} {i : ℕ} (hi : i < l.length) (b : Broadcaster) (dt sd : Bool) (t : Thr) (log : List (ℕ × OutMsg)) (sl : List (ℕ × ℝ)) :
    (⟨b, dt, sd, l.set i t, log, sl⟩ : Threads).step near (.run i) = (⟨b, dt, sd, l.set i t, log, sl⟩ : Threads).stmt i t := by
  simp only [Threads.step, List.getElem?_set_self hi]

theorem exec_one (near : NearestFn) (σ : Threads) (e : TEv) : σ.exec near (List.replicate 1 e) = σ.step near e := rfl

/-- The messages of a thread, latest first. -/
def tagged (i : ℕ) (ms : List OutMsg) : List (ℕ × OutMsg) := ms.reverse.map fun m => (i, m)

theorem send_run {near : NearestFn} {l : List Thr} {i : ℕ} (hi : i < l.length) (b : Broadcaster) (dt sd : Bool) (ρ : Role) (k : ℤ) (ms : List OutMsg)
    (sl : List (ℕ × ℝ)) : ∀ log : List (ℕ × OutMsg),
    (⟨b, dt, sd, l.set i ⟨ρ, .send k ms⟩, log, sl⟩ : Threads).exec near (List.replicate (ms.length + 1) (.run i)) =
      ⟨b, dt, sd, l.set i ⟨ρ, .twist k⟩, tagged i ms ++ log, sl⟩ := by
  induction ms with
  | nil =>
    intro log
    simp [Threads.exec, List.replicate, run_only hi, Threads.stmt, Threads.goto, List.set_set, tagged]
  | cons m ms ih =>
    intro log
    rw [List.length_cons, List.replicate_succ]
    show Threads.exec near (Threads.step near _ _) _ = _
    rw [run_only hi]
    simp only [Threads.stmt, Threads.goto, List.set_set]
    rw [ih]
    simp [tagged]

/-- A thread that is not interrupted in `publish` does what `publish` does. -/
theorem call_run {near : NearestFn} {l : List Thr} {i : ℕ} (hi : i < l.length) (b : Broadcaster) (dt sd : Bool) (ρ : Role) (idx : Option ℤ)
    (log : List (ℕ × OutMsg)) (sl : List (ℕ × ℝ)) : ∃ n,
    (⟨b, dt, sd, l.set i ⟨ρ, .fetch idx⟩, log, sl⟩ : Threads).exec near (List.replicate n (.run i)) =
      ⟨b, dt, sd, l.set i (match (b.publish idx).2 with
        | .ok _ => (Thr.ret ⟨ρ, .done⟩)
        | .error e => ⟨ρ, .dead e⟩), tagged i (b.publish idx).1 ++ log, sl⟩ := by
  have hret : ∀ pc, Thr.ret ⟨ρ, pc⟩ = Thr.ret ⟨ρ, .done⟩ := fun _ => rfl
  -- a thread that fails at once
  have hdie : ∀ e, (⟨b, dt, sd, l.set i ⟨ρ, .fetch idx⟩, log, sl⟩ : Threads).stmt i ⟨ρ, .fetch idx⟩ = ⟨b, dt, sd, l.set i ⟨ρ, .dead e⟩, log, sl⟩ →
      b.publish idx = ([], .error e) → ∃ n,
      (⟨b, dt, sd, l.set i ⟨ρ, .fetch idx⟩, log, sl⟩ : Threads).exec near (List.replicate n (.run i)) =
      ⟨b, dt, sd, l.set i (match (b.publish idx).2 with
        | .ok _ => (Thr.ret ⟨ρ, .done⟩)
        | .error e => ⟨ρ, .dead e⟩), tagged i (b.publish idx).1 ++ log, sl⟩ := by
    intro e h1 h2
    refine ⟨1, ?_⟩
    rw [h2]
    rw [exec_one, run_only hi, h1]
    simp [tagged]
  -- a thread that sends messages
  have hsend : ∀ k ms tail r, (⟨b, dt, sd, l.set i ⟨ρ, .fetch idx⟩, log, sl⟩ : Threads).stmt i ⟨ρ, .fetch idx⟩ = ⟨b, dt, sd, l.set i ⟨ρ, .send k ms⟩, log, sl⟩ →
      b.publish idx = (ms ++ tail, r) →
      (⟨b, dt, sd, l.set i ⟨ρ, .twist k⟩, tagged i ms ++ log, sl⟩ : Threads).stmt i ⟨ρ, .twist k⟩ =
        ⟨b, dt, sd, l.set i (match r with
          | .ok _ => (Thr.ret ⟨ρ, .done⟩)
          | .error e => ⟨ρ, .dead e⟩), tagged i (ms ++ tail) ++ log, sl⟩ → ∃ n,
      (⟨b, dt, sd, l.set i ⟨ρ, .fetch idx⟩, log, sl⟩ : Threads).exec near (List.replicate n (.run i)) =
      ⟨b, dt, sd, l.set i (match (b.publish idx).2 with
        | .ok _ => (Thr.ret ⟨ρ, .done⟩)
        | .error e => ⟨ρ, .dead e⟩), tagged i (b.publish idx).1 ++ log, sl⟩ := by
    intro k ms tail r h1 h2 h3
    refine ⟨1 + (ms.length + 1) + 1, ?_⟩
    rw [h2, List.replicate_add, List.replicate_add, texec_append, texec_append]
    have e1 : (⟨b, dt, sd, l.set i ⟨ρ, .fetch idx⟩, log, sl⟩ : Threads).exec near (List.replicate 1 (.run i)) = ⟨b, dt, sd, l.set i ⟨ρ, .send k ms⟩, log, sl⟩ := by
      rw [exec_one, run_only hi, h1]
    rw [e1, send_run hi, exec_one, run_only hi, h3]
  rcases hts : b.timestamps with _ | ts
  · rcases ht : b.translation with v | tl <;> rcases hr : b.rotation with r | rl
    · rcases hm : sampleMsgs b v r 0 with e | ms
      · exact hdie e (by simp [Threads.stmt, Threads.goto, hts, ht, hr, hm, List.set_set]) (by simp [Broadcaster.publish, hts, ht, hr, hm])
      · rcases htw : b.twist with _ | ⟨lin, ang⟩
        · exact hsend 0 ms [] (.ok ()) (by simp [Threads.stmt, Threads.goto, hts, ht, hr, hm, List.set_set]) (by simp [Broadcaster.publish, hts, ht, hr, hm, htw])
            (by simp [Threads.stmt, htw, hret, List.set_set])
        · exact hsend 0 ms [] (.error .typeError) (by simp [Threads.stmt, Threads.goto, hts, ht, hr, hm, List.set_set])
            (by simp [Broadcaster.publish, hts, ht, hr, hm, htw]) (by simp [Threads.stmt, Threads.goto, htw, hts, List.set_set])
    · exact hdie .typeError (by simp [Threads.stmt, Threads.goto, hts, ht, hr, List.set_set]) (by simp [Broadcaster.publish, hts, ht, hr])
    · exact hdie .typeError (by simp [Threads.stmt, Threads.goto, hts, ht, hr, List.set_set]) (by simp [Broadcaster.publish, hts, ht, hr])
    · exact hdie .typeError (by simp [Threads.stmt, Threads.goto, hts, ht, hr, List.set_set]) (by simp [Broadcaster.publish, hts, ht, hr])
  · rcases hm : movingMsgs b ts (if idx.getD 0 = 0 then b.idx else idx.getD 0) with e | ms
    · exact hdie e (by simp [Threads.stmt, Threads.goto, hts, hm, List.set_set]) (by simp [Broadcaster.publish, hts, hm])
    · rcases htw : b.twist with _ | ⟨lin, ang⟩
      · exact hsend _ ms [] (.ok ()) (by simp [Threads.stmt, Threads.goto, hts, hm, List.set_set]; rfl) (by simp [Broadcaster.publish, hts, hm, htw])
          (by simp [Threads.stmt, htw, hret, List.set_set])
      · rcases hw : twistMsg b (if idx.getD 0 = 0 then b.idx else idx.getD 0) lin ang with e | m
        · exact hsend (if idx.getD 0 = 0 then b.idx else idx.getD 0) ms [] (.error e) (by simp [Threads.stmt, Threads.goto, hts, hm, List.set_set])
            (by simp [Broadcaster.publish, hts, hm, htw, hw]) (by simp [Threads.stmt, Threads.goto, htw, hts, hw, List.set_set])
        · exact hsend (if idx.getD 0 = 0 then b.idx else idx.getD 0) ms [m] (.ok ()) (by simp [Threads.stmt, Threads.goto, hts, hm, List.set_set])
            (by simp [Broadcaster.publish, hts, hm, htw, hw]) (by simp [Threads.stmt, htw, hts, hw, hret, List.set_set, tagged])

/-- The messages of `publish` for a list of indices, until one fails. -/
noncomputable def publishAll (b : Broadcaster) : List (Option ℤ) → List OutMsg
  | [] => []
  | i :: is => (b.publish i).1 ++ match (b.publish i).2 with
    | .ok _ => publishAll b is
    | .error _ => []

/-- A thread that is not interrupted while it calls `publish` several times. -/
theorem calls_finish {near : NearestFn} {l : List Thr} {i : ℕ} (hi : i < l.length) (b : Broadcaster) (dt sd : Bool) (sl : List (ℕ × ℝ)) (is : List (Option ℤ)) :
    ∀ log : List (ℕ × OutMsg), ∃ n t,
      (⟨b, dt, sd, l.set i (Thr.calling is), log, sl⟩ : Threads).exec near (List.replicate n (.run i)) = ⟨b, dt, sd, l.set i t, tagged i (publishAll b is) ++ log, sl⟩ ∧
      Ended t := by
  induction is with
  | nil => exact fun log => ⟨0, Thr.calling [], rfl, .inl rfl⟩
  | cons x is ih =>
    intro log
    obtain ⟨n, hn⟩ := call_run (near := near) hi b dt sd (.calls is) x log sl
    have hcall : Thr.calling (x :: is) = ⟨.calls is, .fetch x⟩ := rfl
    rw [hcall]
    rcases hr : (b.publish x).2 with e | u
    · rw [hr] at hn
      refine ⟨n, ⟨.calls is, .dead e⟩, ?_, .inr ⟨e, rfl⟩⟩
      rw [hn]
      simp only [publishAll, hr, List.append_nil]
    · rw [hr] at hn
      have hret : Thr.ret ⟨.calls is, .done⟩ = Thr.calling is := rfl
      simp only [hret] at hn
      obtain ⟨n', t, h1, h2⟩ := ih (tagged i (b.publish x).1 ++ log)
      refine ⟨n + n', t, ?_, h2⟩
      rw [List.replicate_add, texec_append, hn, h1]
      simp only [publishAll, hr, tagged, List.reverse_append, List.map_append, List.append_assoc]

theorem handle_all (near : NearestFn) (b : Broadcaster) (target : Option String) (ms : List TransformStamped) :
    (b.handle near target ms).1 = publishAll b (b.answers near target ms) := by
  induction ms with
  | nil => rfl
  | cons m ms ih =>
    by_cases h : m.childFrameId = target
    · rcases hts : b.timestamps with _ | ts
      · have hb : b.answers near target (m :: ms) = none :: b.answers near target ms := by simp [Broadcaster.answers, h, hts]
        rw [hb]
        simp only [Broadcaster.handle, if_pos h, hts, publishAll]
        rcases hr : (b.publish none).2 with e | u
        · simp
        · simp only [ih]
      · have hb : b.answers near target (m :: ms) = some (near ts (toSec m.header.stamp * 1000000000) : ℤ) :: b.answers near target ms := by
          simp [Broadcaster.answers, h, hts]
        rw [hb]
        simp only [Broadcaster.handle, if_pos h, hts, publishAll]
        rcases hr : (b.publish (some (near ts (toSec m.header.stamp * 1000000000) : ℤ))).2 with e | u
        · simp
        · simp only [ih]
    · have hb : b.answers near target (m :: ms) = b.answers near target ms := by simp [Broadcaster.answers, h]
      rw [hb, ← ih]
      simp only [Broadcaster.handle, if_neg h]

theorem only_append {threads : List Thr} {t u : Thr} (h : OnlyThread threads t) (hu : Ended u) : OnlyThread (threads ++ [u]) t := by
  obtain ⟨i, l, hi, hl, rfl⟩ := h
  refine ⟨i, l ++ [u], by simp only [List.length_append]; omega, ?_, by rw [List.set_append_left _ _ hi]⟩
  intro v hv
  simp only [List.mem_append, List.mem_singleton] at hv
  rcases hv with hv | rfl
  · exact hl v hv
  · exact hu

theorem loopAt_append {threads : List Thr} {pc : PC} {u : Thr} (h : LoopAt threads pc) (hu : Ended u) : LoopAt (threads ++ [u]) pc := by
  cases pc with
  | idle =>
    intro t ht
    simp only [List.mem_append, List.mem_singleton] at ht
    rcases ht with ht | rfl
    · exact h t ht
    · exact hu
  | _ => exact only_append h hu

/-- A new thread calls `publish` for a list of indices and is not interrupted. -/
theorem new_calls (near : NearestFn) (b : Broadcaster) (dt sd : Bool) (th : List Thr) (is : List (Option ℤ)) (log : List (ℕ × OutMsg)) (sl : List (ℕ × ℝ)) :
    ∃ n t, (⟨b, dt, sd, th ++ [Thr.calling is], log, sl⟩ : Threads).exec near (List.replicate n (.run th.length)) =
      ⟨b, dt, sd, th ++ [t], tagged th.length (publishAll b is) ++ log, sl⟩ ∧ Ended t := by
  obtain ⟨n, t, h1, h2⟩ := calls_finish (near := near) (l := th ++ [Thr.calling is]) (i := th.length) (by simp) b dt sd sl is log
  refine ⟨n, t, ?_, h2⟩
  simpa using h1

theorem ended_of_only {l : List Thr} {i : ℕ} {t : Thr} (hl : ∀ u ∈ l, Ended u) (ht : Ended t) : ∀ u ∈ l.set i t, Ended u := by
  intro u hu
  rcases List.mem_or_eq_of_mem_set hu with hu | rfl
  · exact hl u hu
  · exact ht

/-- The simpler model of the broadcaster, in which calls are not interrupted (C50, C59, C63, C73), is contained in this one: for every broadcaster, every
history of the simpler model is a schedule of threads with the same messages in the same order, the same sleeping times and the same final state. -/
theorem C92_coarse (near : NearestFn) (b : Broadcaster) (dt : Bool) (evs : List Ev) : ∃ fine : List TEv,
    ((Threads.start b dt).exec near fine).log.reverse.map (fun e => e.2) = (((Sys.start b dt).exec near evs).log.reverse.map fun e => e.2).flatten ∧
    ((Threads.start b dt).exec near fine).sleeps.map (fun e => e.2) = ((Sys.start b dt).exec near evs).sleeps ∧
    ((Threads.start b dt).exec near fine).b = ((Sys.start b dt).exec near evs).b ∧
    ((Threads.start b dt).exec near fine).shutdown = ((Sys.start b dt).exec near evs).shutdown ∧
    LoopAt ((Threads.start b dt).exec near fine).threads ((Sys.start b dt).exec near evs).pc := by
  suffices h : ∃ fine : List TEv, let τ := (Threads.start b dt).exec near fine
      let σ := (Sys.start b dt).exec near evs
      (τ.log.reverse.map (fun e => e.2) = (σ.log.reverse.map fun e => e.2).flatten ∧ τ.sleeps.map (fun e => e.2) = σ.sleeps ∧ τ.b = σ.b ∧
      τ.shutdown = σ.shutdown ∧ LoopAt τ.threads σ.pc) ∧ τ.datetime = σ.datetime by
    obtain ⟨fine, h, -⟩ := h
    exact ⟨fine, h⟩
  induction evs using List.reverseRecOn with
  | nil => exact ⟨[], ⟨rfl, rfl, rfl, rfl, by simp [Threads.exec, Threads.start, Sys.exec, Sys.start, LoopAt]⟩, rfl⟩
  | append_singleton evs e ih =>
    obtain ⟨fine, ⟨g1, g2, g3, g4, g5⟩, g6⟩ := ih
    have hσ : (Sys.start b dt).exec near (evs ++ [e]) = ((Sys.start b dt).exec near evs).step near e := List.foldl_append
    rw [hσ]
    generalize (Sys.start b dt).exec near evs = σ at g1 g2 g3 g4 g5 g6
    suffices h : ∃ more : List TEv, let τ := ((Threads.start b dt).exec near fine).exec near more
        let σ' := σ.step near e
        (τ.log.reverse.map (fun e => e.2) = (σ'.log.reverse.map fun e => e.2).flatten ∧ τ.sleeps.map (fun e => e.2) = σ'.sleeps ∧ τ.b = σ'.b ∧
        τ.shutdown = σ'.shutdown ∧ LoopAt τ.threads σ'.pc) ∧ τ.datetime = σ'.datetime by
      obtain ⟨more, h⟩ := h
      exact ⟨fine ++ more, by rw [texec_append]; exact h⟩
    generalize (Threads.start b dt).exec near fine = τ at g1 g2 g3 g4 g5 g6
    obtain ⟨b', dt', sd, th, log, sl⟩ := τ
    obtain ⟨b₀, dt₀, pc, sd₀, log₀, sl₀⟩ := σ
    simp only at g1 g2 g3 g4 g5 g6
    subst g2 g3 g4 g6
    -- calls of `publish` in a new thread
    have hcalls : ∀ (o : Origin) (r : Sent) (is : List (Option ℤ)), r.1 = publishAll b' is → ∃ n t,
        let τ := (⟨b', dt', sd, th ++ [Thr.calling is], log, sl⟩ : Threads).exec near (List.replicate n (.run th.length))
        let σ' := (⟨b', dt', pc, sd, log₀, sl.map fun e => e.2⟩ : Sys).record o r
        ((τ.log.reverse.map (fun e => e.2) = (σ'.log.reverse.map fun e => e.2).flatten ∧ τ.sleeps.map (fun e => e.2) = σ'.sleeps ∧ τ.b = σ'.b ∧
        τ.shutdown = σ'.shutdown ∧ LoopAt τ.threads σ'.pc) ∧ τ.datetime = σ'.datetime) ∧ Ended t := by
      intro o r is hr
      obtain ⟨n, t, h1, h2⟩ := new_calls near b' dt' sd th is log sl
      refine ⟨n, t, ?_, h2⟩
      rw [h1]
      refine ⟨⟨?_, rfl, rfl, rfl, loopAt_append g5 h2⟩, rfl⟩
      simp only [Sys.record, List.reverse_append, List.map_append, List.reverse_cons, List.map_cons, List.map_nil, List.flatten_append, List.flatten_cons,
        List.flatten_nil, List.append_nil, g1, hr]
      simp [tagged, Function.comp_def]
    have hpub : ∀ idx, (b'.publish idx).1 = publishAll b' [idx] := by
      intro idx
      simp only [publishAll]
      rcases (b'.publish idx).2 with e | u <;> simp
    cases e with
    | stop => exact ⟨[.stop], ⟨g1, rfl, rfl, rfl, g5⟩, rfl⟩
    | shutdown => exact ⟨[.shutdown], ⟨g1, rfl, rfl, rfl, g5⟩, rfl⟩
    | publish idx =>
      obtain ⟨n, t, h, -⟩ := hcalls .user (b'.publish idx) [idx] (hpub idx)
      exact ⟨.publish idx :: List.replicate n (.run th.length), h⟩
    | incoming ms =>
      rcases hs : b'.subscribed with _ | target
      · refine ⟨[], ?_⟩
        simp only [Sys.step, hs]
        exact ⟨⟨g1, rfl, rfl, rfl, g5⟩, rfl⟩
      · obtain ⟨n, t, h, -⟩ := hcalls .incoming (b'.handle near target ms) (b'.answers near target ms) (handle_all near b' target ms)
        refine ⟨.incoming ms :: List.replicate n (.run th.length), ?_⟩
        have e1 : (⟨b', dt', sd, th, log, sl⟩ : Threads).exec near (.incoming ms :: List.replicate n (.run th.length)) =
            (⟨b', dt', sd, th ++ [Thr.calling (b'.answers near target ms)], log, sl⟩ : Threads).exec near (List.replicate n (.run th.length)) := by
          show Threads.exec near (Threads.step near _ _) _ = _
          simp only [Threads.step, hs]
        rw [e1]
        simp only [Sys.step, hs]
        exact h
    | spin =>
      rcases hts : b'.timestamps with _ | ts
      · obtain ⟨n, t, h, -⟩ := hcalls .user (b'.publish none) [none] (hpub none)
        refine ⟨.spin :: List.replicate n (.run th.length), ?_⟩
        have e1 : (⟨b', dt', sd, th, log, sl⟩ : Threads).exec near (.spin :: List.replicate n (.run th.length)) =
            (⟨b', dt', sd, th ++ [Thr.calling [none]], log, sl⟩ : Threads).exec near (List.replicate n (.run th.length)) := by
          show Threads.exec near (Threads.step near _ _) _ = _
          simp only [Threads.step, hts]
        rw [e1]
        simp only [Sys.step, hts]
        exact h
      · by_cases hp : pc = .idle
        · subst hp
          refine ⟨[.spin], ?_⟩
          simp only [Threads.exec, List.foldl_cons, List.foldl_nil, Threads.step, Sys.step, hts, if_true]
          refine ⟨⟨g1, trivial, trivial, trivial, ?_⟩, trivial⟩
          refine ⟨th.length, th ++ [⟨.loop, .done⟩], by simp, ?_, by simp⟩
          intro u hu
          simp only [List.mem_append, List.mem_singleton] at hu
          rcases hu with hu | rfl
          · exact g5 u hu
          · exact .inl rfl
        · refine ⟨[], ?_⟩
          simp only [Sys.step, hts, if_neg hp]
          exact ⟨⟨g1, rfl, rfl, rfl, g5⟩, rfl⟩
    | run =>
      cases pc with
      | idle => exact ⟨[], ⟨g1, rfl, rfl, rfl, g5⟩, rfl⟩
      | starting =>
        obtain ⟨i, l, hi, hl, rfl⟩ := g5
        refine ⟨[.run i], ?_⟩
        simp only [Threads.exec, List.foldl_cons, List.foldl_nil, run_only hi, Threads.stmt, Threads.goto, List.set_set, Sys.step, Sys.runStep]
        refine ⟨⟨g1, trivial, trivial, trivial, ?_⟩, trivial⟩
        split_ifs
        · exact ⟨i, l, hi, hl, rfl⟩
        · exact ⟨i, l, hi, hl, rfl⟩
      | check =>
        obtain ⟨i, l, hi, hl, rfl⟩ := g5
        cases hsd : sd with
        | true =>
          refine ⟨[.run i, .run i], ?_⟩
          simp only [Threads.exec, List.foldl_cons, List.foldl_nil, run_only hi, Threads.stmt, Threads.goto, List.set_set, Sys.step, Sys.runStep, if_true, true_or]
          exact ⟨⟨g1, trivial, trivial, trivial, ended_of_only hl (.inl rfl)⟩, trivial⟩
        | false =>
          cases hst : b'.stopped with
          | true =>
            refine ⟨[.run i, .run i, .run i], ?_⟩
            simp only [Threads.exec, List.foldl_cons, List.foldl_nil, run_only hi, Threads.stmt, Threads.goto, List.set_set, Sys.step, Sys.runStep, hst, if_true,
              Bool.false_eq_true, if_false, or_true]
            exact ⟨⟨g1, trivial, trivial, trivial, ended_of_only hl (.inl rfl)⟩, trivial⟩
          | false =>
            obtain ⟨n, hn⟩ := call_run (near := near) hi b' dt' false .loop none log sl
            refine ⟨.run i :: .run i :: List.replicate n (.run i), ?_⟩
            have e1 : (⟨b', dt', false, l.set i ⟨.loop, .shut⟩, log, sl⟩ : Threads).exec near (.run i :: .run i :: List.replicate n (.run i)) =
                (⟨b', dt', false, l.set i ⟨.loop, .fetch none⟩, log, sl⟩ : Threads).exec near (List.replicate n (.run i)) := by
              show Threads.exec near (Threads.step near (Threads.step near _ _) _) _ = _
              simp only [run_only hi, Threads.stmt, Threads.goto, List.set_set, hst, Bool.false_eq_true, if_false]
            rw [e1, hn]
            simp only [Sys.step, Sys.runStep, hst, Bool.false_eq_true, or_self, if_false]
            have hlog : ((tagged i (b'.publish none).1 ++ log).reverse.map fun e => e.2) =
                ((((Origin.loop, (b'.publish none).1) :: log₀).reverse).map fun e => e.2).flatten := by
              simp only [List.reverse_append, List.map_append, List.reverse_cons, List.map_cons, List.map_nil, List.flatten_append, List.flatten_cons,
                List.flatten_nil, List.append_nil, g1]
              simp [tagged, Function.comp_def]
            rcases hr : (b'.publish none).2 with e | u
            · simp only [Sys.record]
              exact ⟨⟨hlog, trivial, trivial, trivial, ended_of_only hl (.inr ⟨e, rfl⟩)⟩, trivial⟩
            · simp only [Sys.record]
              exact ⟨⟨hlog, trivial, trivial, trivial, ⟨i, l, hi, hl, rfl⟩⟩, trivial⟩
      | advance =>
        obtain ⟨i, l, hi, hl, rfl⟩ := g5
        rcases hts : b'.timestamps with _ | ts
        · refine ⟨[.run i], ?_⟩
          simp only [Threads.exec, List.foldl_cons, List.foldl_nil, run_only hi, Threads.stmt, Threads.goto, List.set_set, Sys.step, Sys.runStep, hts]
          exact ⟨⟨g1, trivial, trivial, trivial, ended_of_only hl (.inr ⟨_, rfl⟩)⟩, trivial⟩
        · by_cases hk : (b'.idx + 1) % (ts.length : ℤ) > 0
          · rcases ha : pyGet ts ((b'.idx + 1) % (ts.length : ℤ)) with e | a
            · refine ⟨[.run i, .run i, .run i, .run i], ?_⟩
              simp only [Threads.exec, List.foldl_cons, List.foldl_nil, run_only hi, Threads.stmt, Threads.goto, List.set_set, Sys.step, Sys.runStep, hts, sleepTime,
                if_pos hk, Option.getD_some, ha, bind, Except.bind]
              exact ⟨⟨g1, trivial, trivial, trivial, ended_of_only hl (.inr ⟨_, rfl⟩)⟩, trivial⟩
            · rcases hc : pyGet ts ((b'.idx + 1) % (ts.length : ℤ) - 1) with e | c
              · refine ⟨[.run i, .run i, .run i, .run i, .run i], ?_⟩
                simp only [Threads.exec, List.foldl_cons, List.foldl_nil, run_only hi, Threads.stmt, Threads.goto, List.set_set, Sys.step, Sys.runStep, hts, sleepTime,
                  if_pos hk, Option.getD_some, ha, hc, bind, Except.bind]
                exact ⟨⟨g1, trivial, trivial, trivial, ended_of_only hl (.inr ⟨_, rfl⟩)⟩, trivial⟩
              · refine ⟨[.run i, .run i, .run i, .run i, .run i], ?_⟩
                simp only [Threads.exec, List.foldl_cons, List.foldl_nil, run_only hi, Threads.stmt, Threads.goto, List.set_set, Sys.step, Sys.runStep, hts, sleepTime,
                  if_pos hk, Option.getD_some, ha, hc, bind, Except.bind, Pure.pure, Except.pure, List.map_cons]
                exact ⟨⟨g1, trivial, trivial, trivial, ⟨i, l, hi, hl, rfl⟩⟩, trivial⟩
          · refine ⟨[.run i, .run i, .run i], ?_⟩
            simp only [Threads.exec, List.foldl_cons, List.foldl_nil, run_only hi, Threads.stmt, Threads.goto, List.set_set, Sys.step, Sys.runStep, hts, sleepTime,
              if_neg hk, List.map_cons]
            exact ⟨⟨g1, trivial, trivial, trivial, ⟨i, l, hi, hl, rfl⟩⟩, trivial⟩
      | waiting =>
        obtain ⟨i, l, hi, hl, rfl⟩ := g5
        cases hsd : sd with
        | true =>
          refine ⟨[.run i, .run i], ?_⟩
          simp only [Threads.exec, List.foldl_cons, List.foldl_nil, run_only hi, Threads.stmt, Threads.goto, List.set_set, Sys.step, Sys.runStep, if_true]
          exact ⟨⟨g1, trivial, trivial, trivial, ended_of_only hl (.inl rfl)⟩, trivial⟩
        | false =>
          refine ⟨[], ?_⟩
          simp only [Sys.step, Sys.runStep, Bool.false_eq_true, if_false]
          exact ⟨⟨g1, rfl, rfl, rfl, ⟨i, l, hi, hl, rfl⟩⟩, rfl⟩

end RBM.Props
