import Verif.Props.LookupExamples
import Verif.Props.Broadcaster
import Verif.Props.VelocityLookup
import Verif.Props.LinearTransform
import Verif.Props.VelocityExamples

/-!
C59, C63: stopping a broadcaster, broadcasters that follow another frame; C50: the constructor.
-/

namespace RBM.Props

open RBM RBM.Ros RBM.Spec

section

variable {b : Broadcaster} {ns : List ℕ} {tl : List Vec} {rl : List Quat}

theorem exec_append (near : NearestFn) (σ : Sys) (e1 e2 : List Ev) : σ.exec near (e1 ++ e2) = (σ.exec near e1).exec near e2 := by
  simp [Sys.exec]

/-- Once the thread has entered its loop, `stop` ends it: whatever happens then, the loop publishes nothing more until `spin` is called again,
and two further steps of the thread end it. -/
theorem C59_stop_partial (near : NearestFn) (b : Broadcaster) (dt : Bool) (before after : List Ev)
    (hpc : ((Sys.start b dt).exec near before).pc ≠ .starting) (ha : ∀ e ∈ after, e ≠ .spin) :
    published .loop ((Sys.start b dt).exec near (before ++ .stop :: after)).log = published .loop ((Sys.start b dt).exec near before).log ∧
    (b.subscribed = none → b.timestamps.isSome → 2 ≤ runs after → ((Sys.start b dt).exec near (before ++ .stop :: after)).pc = .idle) := by
  have wait : ∀ (evs : List Ev) (σ : Sys), (σ.pc = .waiting → ¬ (σ.b.subscribed = none ∧ σ.b.timestamps.isSome)) →
      ((σ.exec near evs).pc = .waiting → ¬ ((σ.exec near evs).b.subscribed = none ∧ (σ.exec near evs).b.timestamps.isSome)) ∧
      (σ.exec near evs).b.subscribed = σ.b.subscribed ∧ (σ.exec near evs).b.timestamps = σ.b.timestamps := by
    intro evs
    induction evs with
    | nil => intro σ h; exact ⟨h, rfl, rfl⟩
    | cons e evs ih =>
      intro σ h
      have hs : ((σ.step near e).pc = .waiting → ¬ ((σ.step near e).b.subscribed = none ∧ (σ.step near e).b.timestamps.isSome)) ∧
          (σ.step near e).b.subscribed = σ.b.subscribed ∧ (σ.step near e).b.timestamps = σ.b.timestamps := by
        cases e with
        | run =>
          simp only [Sys.step, Sys.runStep, Sys.record]
          cases hp : σ.pc with
          | starting =>
            refine ⟨?_, rfl, rfl⟩
            simp only
            split_ifs with hc
            · simp
            · intro _ ⟨h1, h2⟩; exact hc ⟨by simp [h1], h2⟩
          | waiting =>
            simp only
            split_ifs
            · simp
            · exact ⟨fun _ => h hp, rfl, rfl⟩
          | idle => exact ⟨h, rfl, rfl⟩
          | check => simp only; split_ifs <;> (try split) <;> simp
          | advance =>
            simp only
            split
            · rename_i hx; simp [hx]
            · rename_i hx; split <;> simp [hx]
        | spin =>
          simp only [Sys.step, Sys.record]
          split
          · rename_i hx; refine ⟨fun _ => by simp [hx], rfl, by simp [hx]⟩
          · split_ifs
            · simp
            · exact ⟨h, rfl, rfl⟩
        | incoming ms =>
          simp only [Sys.step, Sys.record]
          split <;> exact ⟨h, rfl, rfl⟩
        | stop => exact ⟨h, rfl, rfl⟩
        | shutdown => exact ⟨h, rfl, rfl⟩
        | publish i => exact ⟨h, rfl, rfl⟩
      obtain ⟨i1, i2, i3⟩ := ih _ hs.1
      exact ⟨i1, i2.trans hs.2.1, i3.trans hs.2.2⟩
  have key : ∀ (after : List Ev), (∀ e ∈ after, e ≠ .spin) → ∀ σ : Sys, σ.pc ≠ .starting → σ.b.stopped = true →
      published .loop (σ.exec near after).log = published .loop σ.log ∧
      (σ.pc ≠ .waiting → (σ.pc = .advance → 2 ≤ runs after) → (σ.pc = .check → 1 ≤ runs after) → (σ.exec near after).pc = .idle) := by
    intro after
    induction after with
    | nil =>
      intro _ σ h1 h2
      refine ⟨rfl, fun h3 h4 h5 => ?_⟩
      show σ.pc = _
      cases hp : σ.pc with
      | idle => rfl
      | starting => exact absurd hp h1
      | waiting => exact absurd hp h3
      | advance => have := h4 hp; simp [runs] at this
      | check => have := h5 hp; simp [runs] at this
    | cons e after ih =>
      intro ha σ h1 h2
      have hsp := ha e (by simp)
      have ih := ih (fun e he => ha e (by simp [he]))
      show published .loop ((σ.step near e).exec near after).log = _ ∧ (_ → _ → _ → ((σ.step near e).exec near after).pc = .idle)
      have other : ∀ o r, o ≠ Origin.loop → published .loop (σ.record o r).log = published .loop σ.log := by
        intro o r ho
        simp [Sys.record, published_cons, ho]
      have nr : ∀ e : Ev, e ≠ .run → runs (e :: after) = runs after := by
        intro e he
        cases e <;> simp [runs] at he ⊢
      cases e with
      | spin => exact absurd rfl hsp
      | stop => rw [nr _ (by simp)]; exact ih { σ with b := { σ.b with stopped := true } } h1 rfl
      | shutdown => rw [nr _ (by simp)]; exact ih { σ with shutdown := true } h1 h2
      | publish i =>
        rw [nr _ (by simp)]
        have := ih (σ.record .user (σ.b.publish i)) h1 h2
        rw [other _ _ (by decide)] at this
        exact this
      | incoming ms =>
        rw [nr _ (by simp)]
        simp only [Sys.step]
        split
        · exact ih σ h1 h2
        · rename_i target _
          have := ih (σ.record .incoming (σ.b.handle near target ms)) h1 h2
          rw [other _ _ (by decide)] at this
          exact this
      | run =>
        have hrun : runs (.run :: after) = runs after + 1 := by simp [runs]
        rw [hrun]
        cases hp : σ.pc with
        | starting => exact absurd hp h1
        | idle =>
          have hst : σ.step near .run = σ := by simp only [Sys.step, Sys.runStep, hp]
          rw [hst]
          have := ih σ h1 h2
          exact ⟨this.1, fun _ _ _ => this.2 (by simp [hp]) (by simp [hp]) (by simp [hp])⟩
        | check =>
          have hst : σ.step near .run = { σ with b := { σ.b with stopped := true }, pc := .idle } := by
            simp only [Sys.step, Sys.runStep, hp, h2, or_true, if_true]
          rw [hst]
          have := ih { σ with b := { σ.b with stopped := true }, pc := .idle } (by simp) rfl
          exact ⟨this.1, fun _ _ _ => this.2 (by simp) (by simp) (by simp)⟩
        | waiting =>
          simp only [Sys.step, Sys.runStep, hp]
          split_ifs
          · have := ih { σ with b := { σ.b with stopped := true }, pc := .idle } (by simp) rfl
            exact ⟨this.1, fun h => absurd rfl h⟩
          · exact ⟨(ih σ h1 h2).1, fun h => absurd rfl h⟩
        | advance =>
          have hst : (σ.step near .run).log = σ.log ∧ (σ.step near .run).b.stopped = true ∧
              ((σ.step near .run).pc = .check ∨ (σ.step near .run).pc = .idle) := by
            simp only [Sys.step, Sys.runStep, hp]
            split
            · exact ⟨rfl, h2, .inr rfl⟩
            · split
              · exact ⟨rfl, h2, .inl rfl⟩
              · exact ⟨rfl, h2, .inr rfl⟩
          obtain ⟨s1, s2, s3⟩ := hst
          have hns : (σ.step near .run).pc ≠ .starting ∧ (σ.step near .run).pc ≠ .waiting ∧ (σ.step near .run).pc ≠ .advance := by
            rcases s3 with h | h <;> simp [h]
          have := ih _ hns.1 s2
          rw [s1] at this
          refine ⟨this.1, fun _ h _ => this.2 hns.2.1 (fun h' => absurd h' hns.2.2) (fun _ => ?_)⟩
          have := h rfl
          omega
  rw [exec_append]
  show published .loop ((((Sys.start b dt).exec near before).step near .stop).exec near after).log = _ ∧
    (_ → _ → _ → ((((Sys.start b dt).exec near before).step near .stop).exec near after).pc = .idle)
  obtain ⟨w1, w2, w3⟩ := wait before (Sys.start b dt) (by simp [Sys.start])
  obtain ⟨k1, k2⟩ := key after ha (((Sys.start b dt).exec near before).step near .stop) hpc rfl
  refine ⟨k1, fun h1 h2 h3 => k2 (fun h => w1 h ⟨w2.trans h1, by rw [w3]; exact h2⟩) (fun _ => h3) (fun _ => by omega)⟩

/-- `stop` called after `spin` but before the thread has executed its first statement is lost: the thread resets the flag and publishes. -/
theorem C59_stop_lost (near : NearestFn) (hb : Playable b ns tl rl) (hsub : b.subscribed = none) (h0 : b.idx = 0) (dt : Bool) :
    ∃ ms, published .loop ((Sys.start b dt).exec near [.spin, .stop, .run, .run]).log = [ms] ∧ ShowsSample b ns tl rl 0 ms := by
  have hn : 0 < ns.length := List.length_pos_iff.mpr hb.nonempty
  have e : (published .loop ((Sys.start b dt).exec near [.spin, .stop, .run, .run]).log).length = 1 := by
    obtain ⟨ms, e1, _⟩ := publish_ok (b := { b with stopped := false })
      ⟨hb.nonempty, hb.stamps, hb.translation, hb.rotation, hb.tlen, hb.rlen, hb.twist⟩ (idx := none) (k := 0) (by simp [h0]) (by omega) (by omega)
    have s1 : (Sys.start b dt).exec near [.spin, .stop, .run] = ⟨{ b with stopped := false }, dt, .check, false, [], []⟩ := by
      simp only [Sys.exec, List.foldl, Sys.step, Sys.start, hb.stamps, if_true, Sys.runStep, hsub]
      simp
    have s2 : (Sys.start b dt).exec near [.spin, .stop, .run, .run] =
        ⟨{ b with stopped := false }, dt, .advance, false, [(.loop, ms)], []⟩ := by
      rw [show ([.spin, .stop, .run, .run] : List Ev) = [.spin, .stop, .run] ++ [.run] from rfl, exec_append, s1]
      simp only [Sys.exec, List.foldl, Sys.step, Sys.runStep, e1, Sys.record]
      simp
    rw [s2]
    rfl
  obtain ⟨ms, hms⟩ := List.length_eq_one_iff.mp e
  refine ⟨ms, hms, ?_⟩
  have := (C50_loop near hb hsub h0 dt [.spin, .stop, .run, .run]).1 0 ms (by rw [hms]; rfl)
  rwa [Nat.zero_mod] at this

/-- `stop` does not end `spin` of a broadcaster with a subscription: whatever is called, the thread waits until the node is shut down.
(Incoming messages are then still answered: `C63_follows` holds for every history.) -/
theorem C59_subscribed (near : NearestFn) {target : Option String} {ts : List ℝ} (hs : b.subscribed = some target) (hts : b.timestamps = some ts) (dt : Bool) (evs : List Ev)
    (he : ∀ e ∈ evs, e ≠ .shutdown) : ((Sys.start b dt).exec near (.spin :: .run :: evs)).pc = .waiting := by
  have key : ∀ (evs : List Ev), (∀ e ∈ evs, e ≠ .shutdown) → ∀ σ : Sys, σ.pc = .waiting → σ.shutdown = false → σ.b.subscribed = some target →
      σ.b.timestamps = some ts →
      (σ.exec near evs).pc = .waiting ∧ (σ.exec near evs).b.subscribed = some target := by
    intro evs
    induction evs with
    | nil => intro _ σ h1 h2 h3 h4; exact ⟨h1, h3⟩
    | cons e evs ih =>
      intro he σ h1 h2 h3 h4
      have ih := ih (fun e h => he e (by simp [h]))
      have hsd := he e (by simp)
      show ((σ.step near e).exec near evs).pc = _ ∧ ((σ.step near e).exec near evs).b.subscribed = _
      cases e with
      | shutdown => exact absurd rfl hsd
      | spin =>
        have hst : σ.step near .spin = σ := by simp [Sys.step, h4, h1]
        rw [hst]
        exact ih σ h1 h2 h3 h4
      | stop => exact ih { σ with b := { σ.b with stopped := true } } h1 h2 h3 h4
      | publish i => exact ih (σ.record .user (σ.b.publish i)) h1 h2 h3 h4
      | incoming ms =>
        have hst : σ.step near (.incoming ms) = σ.record .incoming (σ.b.handle near target ms) := by simp only [Sys.step, h3]
        rw [hst]
        exact ih _ h1 h2 h3 h4
      | run =>
        have hst : σ.step near .run = σ := by simp [Sys.step, Sys.runStep, h1, h2]
        rw [hst]
        exact ih σ h1 h2 h3 h4
  have h0 : (Sys.start b dt).exec near [.spin, .run] = ⟨{ b with stopped := false }, dt, .waiting, false, [], []⟩ := by
    simp [Sys.exec, Sys.step, Sys.start, hts, Sys.runStep, hs]
  have h1 := key evs he ((Sys.start b dt).exec near [.spin, .run]) (by rw [h0]) (by rw [h0]) (by rw [h0]; exact hs) (by rw [h0]; exact hts)
  rw [← exec_append] at h1
  exact h1.1

/-! ### Following another frame -/

/-- A broadcaster with a subscription never advances its index. -/
theorem subscribed_idx (near : NearestFn) {target : Option String} (hs : b.subscribed = some target) (h0 : b.idx = 0) (dt : Bool) (evs : List Ev) :
    Same b ((Sys.start b dt).exec near evs).b ∧ ((Sys.start b dt).exec near evs).b.idx = 0 := by
  have key : ∀ (evs : List Ev) (σ : Sys), Same b σ.b → σ.b.idx = 0 → σ.pc ≠ .check → σ.pc ≠ .advance →
      Same b (σ.exec near evs).b ∧ (σ.exec near evs).b.idx = 0 := by
    intro evs
    induction evs with
    | nil => intro σ h1 h2 _ _; exact ⟨h1, h2⟩
    | cons e evs ih =>
      intro σ h1 h2 h3 h4
      have hs' : σ.b.subscribed = some target := by rw [h1.subscribed]; exact hs
      show Same b ((σ.step near e).exec near evs).b ∧ ((σ.step near e).exec near evs).b.idx = 0
      cases e with
      | shutdown => exact ih { σ with shutdown := true } h1 h2 h3 h4
      | stop => exact ih { σ with b := { σ.b with stopped := true } } (h1.upd _ _) h2 h3 h4
      | publish i => exact ih (σ.record .user (σ.b.publish i)) h1 h2 h3 h4
      | incoming ms =>
        have hst : σ.step near (.incoming ms) = σ.record .incoming (σ.b.handle near target ms) := by simp only [Sys.step, hs']
        rw [hst]
        exact ih _ h1 h2 h3 h4
      | spin =>
        simp only [Sys.step]
        split
        · exact ih (σ.record .user σ.b.publish) h1 h2 h3 h4
        · split_ifs
          · exact ih { σ with pc := .starting } h1 h2 (by simp) (by simp)
          · exact ih σ h1 h2 h3 h4
      | run =>
        simp only [Sys.step, Sys.runStep]
        cases hp : σ.pc with
        | check => exact absurd hp h3
        | advance => exact absurd hp h4
        | idle => simpa [hp] using ih σ h1 h2 h3 h4
        | starting =>
          simp only [hs', Option.isNone_some, Bool.false_eq_true, false_and, if_false]
          exact ih { σ with b := { σ.b with stopped := false, subscribed := some target }, pc := .waiting }
            (by have := h1.upd σ.b.idx false; exact ⟨this.1, this.2, this.3, this.4, this.5, this.6, this.7, hs.symm⟩) h2 (by simp) (by simp)
        | waiting =>
          simp only
          split_ifs
          · exact ih { σ with b := { σ.b with stopped := true }, pc := .idle } (h1.upd _ _) h2 (by simp) (by simp)
          · exact ih σ h1 h2 h3 h4
  exact key evs _ (.refl b) h0 (by simp [Sys.start]) (by simp [Sys.start])

/-- Sample `k` of the timestamps is a nearest one to time `n`. -/
def NearestSample (ns : List ℕ) (n k : ℕ) : Prop :=
  ∃ x, ns[k]? = some x ∧ ∀ y ∈ ns, |(x : ℤ) - n| ≤ |(y : ℤ) - n|

/-- A broadcaster with a subscription: after any history, an incoming message is answered by one publication for each of its transforms
of the followed frame, in order, and each shows the sample that is nearest in time to the incoming transform. -/
theorem C63_follows (near : NearestFn) (hnear : NearestLaw near) (hb : Playable b ns tl rl) (hinc : ns.Pairwise (· < ·)) {target : Option String} (hs : b.subscribed = some target)
    (h0 : b.idx = 0) (dt : Bool) (evs : List Ev) (ms : List TransformStamped) :
    ∃ answers : List (List OutMsg), ((Sys.start b dt).exec near (evs ++ [.incoming ms])).log =
        (.incoming, answers.flatten) :: ((Sys.start b dt).exec near evs).log ∧
      List.Forall₂ (fun m a => ∃ k, NearestSample ns m.header.stamp k ∧ ShowsSample b ns tl rl k a)
        (ms.filter fun m => decide (m.childFrameId = target)) answers := by
  obtain ⟨hsame, hidx⟩ := subscribed_idx near hs h0 dt evs
  obtain ⟨σ, hσ⟩ : ∃ σ, σ = (Sys.start b dt).exec near evs := ⟨_, rfl⟩
  rw [← hσ] at hsame hidx
  have hs' : σ.b.subscribed = some target := by rw [hsame.subscribed]; exact hs
  have hb' := hsame.playable hb
  have hincR : StrictlyIncreasing (ns.map fun n : ℕ => (n : ℝ)) := by
    rw [StrictlyIncreasing, List.pairwise_map]
    exact hinc.imp fun h => by exact_mod_cast h
  have hne : (ns.map fun n : ℕ => (n : ℝ)) ≠ [] := by simpa using hb.nonempty
  have key : ∀ ms : List TransformStamped, ∃ answers : List (List OutMsg), σ.b.handle near target ms = (answers.flatten, .ok ()) ∧
      List.Forall₂ (fun m a => ∃ k, NearestSample ns m.header.stamp k ∧ ShowsSample b ns tl rl k a)
        (ms.filter fun m => decide (m.childFrameId = target)) answers := by
    intro ms
    induction ms with
    | nil => exact ⟨[], rfl, .nil⟩
    | cons m ms ih =>
      obtain ⟨answers, e, hf⟩ := ih
      by_cases hm : m.childFrameId = target
      · set k := near (ns.map fun n : ℕ => (n : ℝ)) (toSec m.header.stamp * 1000000000) with hk
        have hlt : k < ns.length := by simpa using hnear.lt _ (toSec m.header.stamp * 1000000000) hne hincR
        have hsec : toSec m.header.stamp * 1000000000 = (m.header.stamp : ℝ) := by simp [toSec]
        obtain ⟨a, e1, e2⟩ := publish_ok hb' (idx := some (k : ℤ)) (k := (k : ℤ)) (by
          by_cases hz : (k : ℤ) = 0
          · simp [hz, hidx]
          · simp only [Option.getD_some, if_neg hz]) (by omega) (by omega)
        rw [show ((k : ℤ) % ns.length).toNat = k by rw [Int.emod_eq_of_lt (by omega) (by omega)]; rfl] at e2
        refine ⟨a :: answers, ?_, ?_⟩
        · rw [Broadcaster.handle, if_pos hm, hb'.stamps]
          simp only [← hk, e1, e, List.flatten_cons]
        · rw [List.filter_cons_of_pos (by simpa using hm)]
          refine .cons ⟨k, ⟨ns[k], List.getElem?_eq_getElem hlt, fun y hy => ?_⟩, hsame.shows e2⟩ hf
          have := hnear.nearest _ (toSec m.header.stamp * 1000000000) ((ns[k] : ℕ) : ℝ) (y : ℝ) hincR (by rw [← hk]; simp [hlt])
            (List.mem_map.mpr ⟨y, hy, rfl⟩)
          rw [hsec] at this
          exact_mod_cast this
      · refine ⟨answers, ?_, ?_⟩
        · rw [Broadcaster.handle, if_neg hm, e]
        · rw [List.filter_cons_of_neg (by simpa using hm)]; exact hf
  obtain ⟨answers, e, hf⟩ := key ms
  refine ⟨answers, ?_, hf⟩
  rw [exec_append, ← hσ]
  simp only [Sys.exec, List.foldl, Sys.step, hs', Sys.record, e]

/-! ### The constructor -/

/-- The base frame: the argument, or the parent if it is missing or empty. -/
theorem resolveBase_eq {s : State} {f p : ℕ} {base : Option FrameRef} (h : s.resolveOr f base = .ok p) : resolveBase s f base = .ok p := by
  simp only [State.resolveOr] at h
  simp only [resolveBase]
  generalize (if base = some (FrameRef.byName "") then none else base) = b' at h ⊢
  cases b' with
  | none =>
    cases hp : s.parent f with
    | none => simp [hp] at h
    | some q => simpa [hp] using h
  | some r =>
    cases r with
    | other => cases h
    | byObj i => exact h
    | byName n => exact h

theorem sharedStamps_self {ts : List ℝ} (h : StrictlyIncreasing ts) : sharedStamps [some ts, some ts] = some ts := by
  simp only [sharedStamps, List.filterMap_cons, id, List.filterMap_nil, commonStamps]
  rw [List.filter_eq_self.mpr]
  intro τ hτ
  simp only [List.mem_cons, List.not_mem_nil, or_false, or_self, forall_eq, decide_eq_true_eq]
  exact inRange_mem h hτ

theorem listensTo_target (base : Option String) (sub : SubArg) : ListensTo base sub (sub.target base) := by
  cases sub with
  | flag b => cases b with
    | false => exact .no
    | true => exact .base
  | name n =>
    by_cases hn : n = ""
    · subst hn; exact .empty
    · simp only [SubArg.target, if_neg hn]; exact .name hn

/-- The constructor for a moving frame: the broadcaster plays the samples of `lookup_transform(base)`, starting with the first one; with
`publish_twist`, it also plays the velocities of the frame relative to the base, expressed in the frame. -/
theorem C50_constructor {ext : Ext} (hsq : SquadLaw ext.squad) {s : State} {h : List Event} (hr : Reachable s h) {frame : FrameRef} {a p : ℕ} {base : Option FrameRef}
    (hf : s.resolve frame = .ok a) (hbase : s.resolveOr a base = .ok p)
    (ha : a < s.size) (hp : p < s.size) (hpath : PathAll s a p (FrameOk true s)) {tl : List Vec} {rl : List Quat} {ns : List ℕ}
    (he : s.lookupTransform ext.squad a (.byObj p) = .ok (.many tl, .many rl, some (ns.map fun n : ℕ => (n : ℝ)))) (hns : ns ≠ [])
    (pose tw : Bool) (sub : SubArg) (cutoff outlier : Option ℝ) {lin ang : ND ℝ}
    (hlin : tw = true → s.lookupLinearVelocity ext a base (some (.byObj a)) { cutoff := cutoff, outlier := outlier, returnTimestamps := true } =
      .ok (.withTs lin (some (ns.map fun n : ℕ => (n : ℝ)))) ∧ IsSeries lin (some (ns.map fun n : ℕ => (n : ℝ))))
    (hang : tw = true → s.lookupAngularVelocity ext a base (some (.byObj a)) { cutoff := cutoff, returnTimestamps := true } =
      .ok (.withTs ang (some (ns.map fun n : ℕ => (n : ℝ)))) ∧ IsSeries ang (some (ns.map fun n : ℕ => (n : ℝ)))) :
    ∃ b, mkBroadcaster ext s frame base pose tw sub cutoff outlier = .ok b ∧ Playable b ns tl rl ∧ b.idx = 0 ∧
      b.frameName = s.name a ∧ b.baseName = s.name p ∧ b.pose = pose ∧ ListensTo (s.name p) sub b.subscribed ∧
      (tw = false → b.twist = none) ∧
      (tw = true → ∃ lin' ang', b.twist = some (lin', ang') ∧
        ∀ τ w, (SampleAt lin' (some (ns.map fun n : ℕ => (n : ℝ))) τ w → SampleAt lin (some (ns.map fun n : ℕ => (n : ℝ))) τ w) ∧
          (SampleAt ang' (some (ns.map fun n : ℕ => (n : ℝ))) τ w → SampleAt ang (some (ns.map fun n : ℕ => (n : ℝ))) τ w)) ∧
      StrictlyIncreasing (ns.map fun n : ℕ => (n : ℝ)) ∧
      ∀ (k n : ℕ), ns[k]? = some n → ∃ A, IsTransformAt ext.squad s a p n A ∧ tl[k]? = some A.t ∧ rl[k]? = some A.r := by
  obtain ⟨hinc, l1, l2, hrows⟩ := lookup_rows hsq hr ha hp hpath he
  rw [List.length_map] at l1 l2
  have hrows' : ∀ (k n : ℕ), ns[k]? = some n → ∃ A, IsTransformAt ext.squad s a p n A ∧ tl[k]? = some A.t ∧ rl[k]? = some A.r :=
    fun k n hk => hrows k n (by simp [hk])
  have hb := resolveBase_eq hbase
  have hrep : s.resolveOr a (some (.byObj a)) = .ok a := by
    simp [State.resolveOr, State.resolve]
  cases tw with
  | false =>
    refine ⟨⟨s.name a, s.name p, .many tl, .many rl, some (ns.map fun n : ℕ => (n : ℝ)), pose, none, sub.target (s.name p), 0, false⟩, ?_,
      ⟨hns, rfl, rfl, rfl, l1, l2, by simp⟩, rfl, rfl, rfl, rfl, listensTo_target _ _, fun _ => rfl, by simp, hinc, hrows'⟩
    simp only [mkBroadcaster, hf, hb, he, bind, Except.bind, Pure.pure, Except.pure, Bool.false_eq_true, if_false]
  | true =>
    obtain ⟨hl, sl⟩ := hlin rfl
    obtain ⟨hg, sg⟩ := hang rfl
    obtain ⟨lin', ang', ots, e1, e2, e3, e4, e5, e6⟩ := C38_twist hbase hrep he { cutoff := cutoff, outlier := outlier } hl hg sl sg
    have hots : ots = some (ns.map fun n : ℕ => (n : ℝ)) := by
      rw [e2, sharedStamps_self hinc]
    subst hots
    refine ⟨⟨s.name a, s.name p, .many tl, .many rl, some (ns.map fun n : ℕ => (n : ℝ)), pose, some (lin', ang'), sub.target (s.name p), 0, false⟩, ?_,
      ⟨hns, rfl, rfl, rfl, l1, l2, ?_⟩, rfl, rfl, rfl, rfl, listensTo_target _ _, by simp, fun _ => ⟨lin', ang', rfl, fun τ w => ⟨fun h => ?_, e6 τ w⟩⟩, hinc, hrows'⟩
    · simp only [mkBroadcaster, hf, hb, he, bind, Except.bind, Pure.pure, Except.pure, if_true, e1, unpackTwistPair]
      rfl
    · intro _ _ hx
      cases hx
      simp only [seriesShape, List.length_map] at e3 e4
      exact ⟨e3, e4⟩
    · refine valueAt_sample sl (e5 τ w h) fun y hy => ?_
      cases hy
      obtain ⟨k, hk, _⟩ := h
      exact List.mem_of_getElem? hk

/-- The constructor for a static frame: the transform of `lookup_transform(base)`. With `publish_twist` it raises a `ValueError`. -/
theorem C50_constructor_static {ext : Ext} {s : State} {frame : FrameRef} {a p : ℕ} {base : Option FrameRef}
    (hf : s.resolve frame = .ok a) (hbase : s.resolveOr a base = .ok p) {t : Vec} {r : Quat}
    (he : s.lookupTransform ext.squad a (.byObj p) = .ok (.one t, .one r, none)) (pose : Bool) (sub : SubArg) (cutoff outlier : Option ℝ) :
    mkBroadcaster ext s frame base pose true sub cutoff outlier = .error .valueError ∧
    ∃ b, mkBroadcaster ext s frame base pose false sub cutoff outlier = .ok b ∧ b.timestamps = none ∧ b.translation = .one t ∧ b.rotation = .one r ∧
      b.twist = none ∧ b.pose = pose ∧ b.frameName = s.name a ∧ b.baseName = s.name p ∧ ListensTo (s.name p) sub b.subscribed := by
  have hb := resolveBase_eq hbase
  have hrep : s.resolveOr a (some (.byObj a)) = .ok a := by simp [State.resolveOr, State.resolve]
  have htw := (lookup_static_zero (ext := ext) hbase hrep he { cutoff := cutoff, outlier := outlier }).2.2
  refine ⟨?_, ⟨s.name a, s.name p, .one t, .one r, none, pose, none, sub.target (s.name p), 0, false⟩, ?_, rfl, rfl, rfl, rfl, rfl, rfl, rfl, listensTo_target _ _⟩
  · simp only [mkBroadcaster, hf, hb, he, bind, Except.bind, if_true, htw, Bool.false_eq_true, if_false]
  · simp only [mkBroadcaster, hf, hb, he, bind, Except.bind, Pure.pure, Except.pure, Bool.false_eq_true, if_false]

end

/-! ### Concrete cases -/

/-- A broadcaster for the frame of `Ex.u2` (timestamps 0, 1, 3 ns) with pose and twist, as the constructor returns it, meets `C50_loop`. -/
example : ∃ b, mkBroadcaster Ex.ext Ex.u2 (.byObj 1) none true true = .ok b ∧
    Playable b [0, 1, 3] [![0, 0, 0], ![2, 0, 0], ![6, 0, 0]] [⟨0, 0, 0, 1⟩, ⟨0, 0, 0, 1⟩, ⟨0, 0, 0, 1⟩] ∧ b.idx = 0 ∧ b.subscribed = none ∧ b.twist.isSome = true := by
  obtain ⟨h, hr⟩ := Ex.reachU
  have hlt : (1 : ℕ) < Ex.u2.size ∧ (0 : ℕ) < Ex.u2.size := by rw [Ex.u2_eq]; norm_num
  have hres : Ex.u2.resolveOr 1 none = .ok 0 := by rw [Ex.u2_eq]; simp [State.resolveOr]
  have hself : Ex.u2.resolveOr 1 (some (.byObj 1)) = .ok 1 := by simp [State.resolveOr, State.resolve]
  have hts : ([0, 1, 3] : List ℕ).map (fun n : ℕ => (n : ℝ)) = [0, 1, 3] := by simp
  have h0 : ∀ (c : ℝ) (k : ℕ) (τ : ℝ), ([0, 1, 3] : List ℝ)[k]? = some τ → Ex.ext.deriv [c, c, c] [0, 1, 3] k = 0 := by
    intro c k τ hk
    have := Ex.ext_deriv.affine [0, 1, 3] c 0 k (by simp) (by simp [StrictlyIncreasing]) (List.getElem?_eq_some_iff.mp hk).1
    simpa using this
  have hdown : PathAll Ex.u2 0 1 (FrameOk true Ex.u2) ∧ Route Ex.u2 0 1 [1] := ⟨pathAll_symm Ex.pathU.1, route_symm Ex.pathU.2.1⟩
  obtain ⟨lin, l1, l2, l3⟩ := C36_lookup_uniform (ext := Ex.ext) Ex.ext_squad Ex.ext_filt exXr hr hlt.1 hlt.2 hlt.1 hres hself Ex.pathU.1 hdown.1 hdown.2
    exU_lookup { returnTimestamps := true } rfl (by simp) (by rw [exU_stamps']; simp) (c := 0) (V := ![2, 0, 0]) (fun τ hτ A hA => (exU_poses τ hτ A hA).1)
  obtain ⟨ang, a1, a2, _⟩ := C37_lookup_exact_body (ext := Ex.ext) Ex.ext_squad exXr hr hlt.1 hlt.2 hres hself Ex.pathU.1 exU_lookup
    (Ex.ext_deriv.accepts _ (by simp) (by simp [StrictlyIncreasing])) (by simp) true false (q := fun _ => ⟨0, 0, 0, 1⟩)
    (fun _ => by simp [IsUnitQ, nsq]) (fun τ hτ A hA => (exU_poses τ hτ A hA).2)
    (by
      intro k τ hk
      have : quatDeriv Ex.ext [⟨0, 0, 0, 1⟩, ⟨0, 0, 0, 1⟩, ⟨0, 0, 0, 1⟩] [0, 1, 3] k = 0 := by
        have hz := h0 0 k τ hk
        have h1 := h0 1 k τ hk
        apply Quaternion.ext
        · exact hz
        · exact hz
        · exact hz
        · exact h1
      rw [this]
      exact hasDerivAt_const _ _)
  rw [exU_stamps'] at l1 l2
  obtain ⟨b, b1, b2, b3, _, _, _, b4, _, b5, _⟩ := C50_constructor (ext := Ex.ext) Ex.ext_squad hr (frame := .byObj 1) rfl hres hlt.1 hlt.2 Ex.pathU.1 (ns := [0, 1, 3])
    (by rw [hts]; exact exU_lookup) (by simp) true true (.flag false) none none (fun _ => by rw [hts]; exact ⟨l1, l2⟩) (fun _ => by rw [hts]; exact ⟨a1, a2⟩)
  obtain ⟨lin', ang', e, _⟩ := b5 rfl
  exact ⟨b, b1, b2, b3, (by cases h4 : b.subscribed with | none => rfl | some x => rw [h4] at b4; cases b4), by rw [e]; rfl⟩

/-- There is a function with the contract of `get_loc`. -/
theorem exists_nearestLaw : ∃ near, NearestLaw near := by
  classical
  have key : ∀ (ts : List ℝ) (τ : ℝ), ts ≠ [] → ∃ k, k < ts.length ∧ ∀ x y, ts[k]? = some x → y ∈ ts → |x - τ| ≤ |y - τ| := by
    intro ts τ h
    induction ts with
    | nil => exact absurd rfl h
    | cons t ts ih =>
      by_cases hts : ts = []
      · subst hts
        refine ⟨0, by simp, fun x y hx hy => ?_⟩
        simp at hx hy
        rw [← hx, hy]
      · obtain ⟨k, hk, hmin⟩ := ih hts
        by_cases hlt : |t - τ| ≤ |ts[k] - τ|
        · refine ⟨0, by simp, fun x y hx hy => ?_⟩
          simp at hx
          subst hx
          rcases List.mem_cons.mp hy with rfl | hy
          · exact le_rfl
          · exact hlt.trans (hmin _ y (List.getElem?_eq_getElem hk) hy)
        · refine ⟨k + 1, by simpa using hk, fun x y hx hy => ?_⟩
          rw [List.getElem?_cons_succ] at hx
          rcases List.mem_cons.mp hy with rfl | hy
          · rw [List.getElem?_eq_getElem hk] at hx
            cases hx
            exact (not_le.mp hlt).le
          · exact hmin x y hx hy
  refine ⟨fun ts τ => if h : ts ≠ [] then (key ts τ h).choose else 0, ⟨?_, ?_⟩⟩
  · intro ts τ h _
    simp only [dif_pos h]
    exact (key ts τ h).choose_spec.1
  · intro ts τ x y _ hx hy
    have h : ts ≠ [] := List.ne_nil_of_mem hy
    simp only [dif_pos h] at hx
    exact (key ts τ h).choose_spec.2 x y hx hy

/-- A broadcaster that follows "cam": an incoming transform of "cam" at 5.9 s is answered with the sample at 6 s, also after `stop`. -/
example (near : NearestFn) (hn : NearestLaw near) : ∃ a, ShowsSample exB [5000000000, 6000000000] [![1, 0, 0], ![2, 0, 0]] [⟨1, 0, 0, 0⟩, ⟨1, 0, 0, 0⟩] 1 a ∧
    ((Sys.start { exB with subscribed := some (some "cam") } true).exec near [.spin, .run, .stop,
      .incoming [⟨⟨5900000000, some "map"⟩, some "cam", ⟨⟨0, 0, 0⟩, ⟨0, 0, 0, 1⟩⟩⟩]]).log = [(.incoming, a)] := by
  obtain ⟨answers, h1, h2⟩ := C63_follows near hn (exB_playable 0 false (some (some "cam"))) (by simp) rfl rfl true [.spin, .run, .stop]
    [⟨⟨5900000000, some "map"⟩, some "cam", ⟨⟨0, 0, 0⟩, ⟨0, 0, 0, 1⟩⟩⟩]
  simp only [decide_true, List.filter_cons_of_pos, List.filter_nil] at h2
  rcases h2 with _ | ⟨⟨k, ⟨x, hx, hmin⟩, hs⟩, _ | _⟩
  rename_i a
  have hk : k = 1 := by
    have h6 := hmin 6000000000 (by simp)
    rcases k with _ | _ | k
    · simp at hx
      subst hx
      norm_num at h6
    · rfl
    · simp at hx
  subst hk
  refine ⟨a, hs, ?_⟩
  rw [show ([.spin, .run, .stop, .incoming [⟨⟨5900000000, some "map"⟩, some "cam", ⟨⟨0, 0, 0⟩, ⟨0, 0, 0, 1⟩⟩⟩]] : List Ev) = [.spin, .run, .stop] ++
    [.incoming [⟨⟨5900000000, some "map"⟩, some "cam", ⟨⟨0, 0, 0⟩, ⟨0, 0, 0, 1⟩⟩⟩]] from rfl]
  refine h1.trans ?_
  simp [Sys.exec, Sys.step, Sys.start, exB, Sys.runStep]

/-- `stop` after the first message: nothing more is published and the thread ends (`C59_stop_partial`). `stop` before the loop has begun is lost
(`C59_stop_lost`). -/
example (near : NearestFn) :
    published .loop ((Sys.start exB true).exec near ([.spin, .run, .run] ++ .stop :: [.run, .run, .run])).log =
      published .loop ((Sys.start exB true).exec near [.spin, .run, .run]).log ∧
    ((Sys.start exB true).exec near ([.spin, .run, .run] ++ .stop :: [.run, .run, .run])).pc = .idle ∧
    ∃ ms, published .loop ((Sys.start exB true).exec near [.spin, .stop, .run, .run]).log = [ms] := by
  have hpc : ((Sys.start exB true).exec near [.spin, .run, .run]).pc ≠ .starting := by
    obtain ⟨ms, hms, -⟩ := C50_publish_default (exB_playable 0 false none) (k := 0) rfl (by simp)
    have hms' : exB.publish = (ms, .ok ()) := hms
    simp [Sys.exec, Sys.step, Sys.start, Sys.runStep, exB] at hms' ⊢
    simp [hms']
  obtain ⟨h1, h2⟩ := C59_stop_partial near exB true [.spin, .run, .run] [.run, .run, .run] hpc (by simp)
  obtain ⟨ms, h3, -⟩ := C59_stop_lost near (exB_playable 0 false none) rfl rfl true
  exact ⟨h1, h2 rfl rfl (by simp [runs]), ms, h3⟩

/-- A broadcaster that follows a frame waits forever (`C59_subscribed`). -/
example (near : NearestFn) : ((Sys.start { exB with subscribed := some (some "cam") } true).exec near [.spin, .run, .stop, .run]).pc = .waiting :=
  C59_subscribed (b := { exB with subscribed := some (some "cam") }) near rfl rfl true [.stop, .run] (by simp)

/-- A static frame (`C50_constructor_static`). -/
example : ∃ b, mkBroadcaster Ex.ext Ex.s4 (.byObj 1) none true false = .ok b ∧ b.translation = .one ![1, 2, 3] ∧ b.baseName = some "world" := by
  obtain ⟨-, b, h1, -, h2, -, -, -, -, h3, -⟩ := C50_constructor_static (ext := Ex.ext) (s := Ex.s4) (frame := .byObj 1) (base := none) rfl
    (p := 0) (by rw [Ex.s4_eq]; rfl) (exS_lookup _) true (.flag false) none none
  exact ⟨b, h1, h2, by rw [h3, Ex.s4_eq]; rfl⟩

end RBM.Props
