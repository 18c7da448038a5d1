import Verif.Props.Threads
import Verif.Props.BroadcasterEvents

/-!
C92: calls of `publish` and answers to incoming messages while other threads use the broadcaster; two loops at once.
-/

namespace RBM.Props

open RBM RBM.Ros RBM.Spec

section

variable {b : Broadcaster} {ns : List ℕ} {tl : List Vec} {rl : List Quat}

/-- A broadcaster with a subscription never advances its index, however many threads there are. -/
theorem subscribed_zero (near : NearestFn) (hb : Playable b ns tl rl) (h0 : b.idx = 0) (hsub : b.subscribed ≠ none) (dt : Bool) (evs : List TEv) :
    ((Threads.start b dt).exec near evs).b.idx = 0 := by
  have key : ((Threads.start b dt).exec near evs).b.idx = 0 ∧ ∀ (j : ℕ) (t : Thr), ((Threads.start b dt).exec near evs).threads[j]? = some t → t.role = .loop →
      t.pc = .clear ∨ t.pc = .waiting ∨ t.pc = .set ∨ t.pc = .done := by
    induction evs using List.reverseRecOn with
    | nil => exact ⟨h0, fun j t h => by simp [Threads.start, Threads.exec] at h⟩
    | append_singleton pre e ih =>
      obtain ⟨g1, g2⟩ := ih
      have hinv := tinv_exec near hb (tinv_start hb h0 dt) pre
      rw [texec_append]
      generalize (Threads.start b dt).exec near pre = σ at *
      show (σ.step near e).b.idx = 0 ∧ ∀ (j : ℕ) (t : Thr), (σ.step near e).threads[j]? = some t → t.role = .loop → _
      refine ⟨?_, ?_⟩
      · cases e with
        | spin => simp only [Threads.step]; split <;> exact g1
        | publish idx => exact g1
        | incoming ms => simp only [Threads.step]; split <;> exact g1
        | stop => exact g1
        | shutdown => exact g1
        | run j =>
          simp only [Threads.step]
          split
          · exact g1
          · rename_i tj hj
            obtain ⟨_, _, _, _, _, _, _, g, _⟩ := stmt_next σ hj
            rw [g, g1]
            intro v hv
            have hok := hinv.ok j tj hj
            simp only [TOk, hv] at hok
            rcases g2 j tj hj hok.1 with h | h | h | h <;> rw [hv] at h <;> cases h
      · intro j t hj hl
        cases (step_cases near hb hinv e).2 j t hj with
        | rests h1 _ _ _ => exact g2 j t h1 hl
        | starts _ _ _ h =>
          cases h with
          | spin => exact .inl rfl
          | publish idx => exact absurd hl (calling_ok 0 _).2
          | incoming ms target _ => exact absurd hl (calling_ok 0 _).2
        | moves t1 h1 _ h3 f =>
          have hlt := (List.getElem?_eq_some_iff.mp h1).1
          rw [h3] at hj
          have hsub' : σ.b.subscribed ≠ none := by rw [hinv.same.subscribed]; exact hsub
          obtain ⟨target, ht⟩ := Option.ne_none_iff_exists'.mp hsub'
          rcases g2 j t1 h1 (f.loop.mpr hl) with h | h | h | h
          · simp only [Threads.stmt, h, ht, Threads.goto, List.getElem?_set, hlt, if_true, Option.some.injEq] at hj
            rw [← hj]
            simp
          · simp only [Threads.stmt, h, Threads.goto, List.getElem?_set, hlt, if_true, Option.some.injEq] at hj
            rw [← hj]
            simp only
            split_ifs <;> simp
          · simp only [Threads.stmt, h, Threads.goto, List.getElem?_set, hlt, if_true, Option.some.injEq] at hj
            rw [← hj]
            simp
          · simp only [Threads.stmt, h] at hj
            rw [h1] at hj
            cases hj
            simp [h]
  exact key.1

/-- The sample that `publish(idx)` sends: with an index other than zero the one with this index (counted from the end if it is negative), otherwise the one at
which the broadcaster is, which is the first one if the broadcaster has a subscription. -/
def Resolves (b : Broadcaster) (n : ℕ) (idx : Option ℤ) (k : ℕ) : Prop :=
  k < n ∧ (idx.getD 0 ≠ 0 → (k : ℤ) = idx.getD 0 % n) ∧ (idx.getD 0 = 0 → b.subscribed ≠ none → k = 0)

/-- Which calls a thread has still to begin, and how many steps that takes. -/
def Remaining (n : ℕ) (is : List (Option ℤ)) (t : Thr) (rest : List (Option ℤ)) (steps : ℕ) : Prop :=
  match t.pc, t.role with
  | .fetch x, .calls r => rest = x :: r ∧ steps + 5 * (1 + r.length) ≤ 5 * is.length
  | .send _ ms, .calls r => rest = r ∧ steps + ms.length + 2 + 5 * r.length ≤ 5 * is.length
  | .twist _, .calls r => rest = r ∧ steps + 1 + 5 * r.length ≤ 5 * is.length
  | .done, .calls _ => rest = []
  | .dead _, .calls _ => ∃ k, some k ∈ is ∧ ¬ ValidIdx n k
  | _, _ => False

theorem remaining_calling {n : ℕ} {is rest : List (Option ℤ)} {steps : ℕ} (h : steps + 5 * rest.length ≤ 5 * is.length) :
    Remaining n is (Thr.calling rest) rest steps := by
  cases rest with
  | nil => simp [Thr.calling, Remaining]
  | cons x r => simp only [Thr.calling, Remaining, List.length_cons] at h ⊢; exact ⟨trivial, by omega⟩

/-- A thread that calls `publish` for the indices `is`, while other threads do whatever they like. -/
theorem calls_run (near : NearestFn) (hb : Playable b ns tl rl) (h0 : b.idx = 0) (dt : Bool) (before after : List TEv) (e0 : TEv) {i : ℕ}
    (hi : i = ((Threads.start b dt).exec near before).threads.length) {is : List (Option ℤ)}
    (hst : ((Threads.start b dt).exec near before).step near e0 =
      { (Threads.start b dt).exec near before with threads := ((Threads.start b dt).exec near before).threads ++ [Thr.calling is] }) :
    ∃ t done rest ks, ((Threads.start b dt).exec near (before ++ e0 :: after)).threads[i]? = some t ∧ is = done ++ rest ∧
      List.Forall₂ (Resolves b ns.length) done ks ∧
      Sending b ns tl rl ks (sentBy i ((Threads.start b dt).exec near (before ++ e0 :: after)).log) (pend b t.pc) ∧
      Remaining ns.length is t rest (stepsOf i after) := by
  have hn : 0 < ns.length := List.length_pos_iff.mpr hb.nonempty
  induction after using List.reverseRecOn with
  | nil =>
    have hinv := tinv_exec near hb (tinv_start hb h0 dt) before
    rw [texec_append]
    change ∃ t done rest ks, (((Threads.start b dt).exec near before).step near e0).threads[i]? = some t ∧ is = done ++ rest ∧
      List.Forall₂ (Resolves b ns.length) done ks ∧ Sending b ns tl rl ks (sentBy i (((Threads.start b dt).exec near before).step near e0).log) (pend b t.pc) ∧
      Remaining ns.length is t rest (stepsOf i [])
    rw [hst]
    refine ⟨Thr.calling is, [], is, [], by simp [hi], rfl, .nil, ?_, remaining_calling (by simp [stepsOf])⟩
    simp only
    rw [sentBy_fresh hinv.fresh (by omega)]
    cases is <;> exact sending_nil
  | append_singleton pre e ih =>
    obtain ⟨t, done, rest, ks, g1, g2, g3, g4, g5⟩ := ih
    have hv := tinv_exec near hb (tinv_start hb h0 dt) (before ++ e0 :: pre)
    have hz : b.subscribed ≠ none → ((Threads.start b dt).exec near (before ++ e0 :: pre)).b.idx = 0 := fun h => subscribed_zero near hb h0 h dt _
    rw [show before ++ e0 :: (pre ++ [e]) = (before ++ e0 :: pre) ++ [e] by simp, texec_append]
    generalize (Threads.start b dt).exec near (before ++ e0 :: pre) = σ at *
    show ∃ t done rest ks, (σ.step near e).threads[i]? = some t ∧ is = done ++ rest ∧ List.Forall₂ (Resolves b ns.length) done ks ∧
      Sending b ns tl rl ks (sentBy i (σ.step near e).log) (pend b t.pc) ∧ Remaining ns.length is t rest (stepsOf i (pre ++ [e]))
    have hlt0 := (List.getElem?_eq_some_iff.mp g1).1
    have hlt : i < (σ.step near e).threads.length := by
      cases e with
      | spin => simp only [Threads.step]; split <;> simp only [List.length_append] <;> omega
      | publish idx => simp only [Threads.step, List.length_append]; omega
      | incoming ms =>
        simp only [Threads.step]
        split
        · exact hlt0
        · simp only [List.length_append]; omega
      | stop => exact hlt0
      | shutdown => exact hlt0
      | run j =>
        simp only [Threads.step]
        split
        · exact hlt0
        · rename_i tj hj
          obtain ⟨t', h', _⟩ := stmt_next σ hj
          rw [h', List.length_set]
          exact hlt0
    obtain ⟨t', ht'⟩ : ∃ t', (σ.step near e).threads[i]? = some t' := ⟨_, List.getElem?_eq_getElem hlt⟩
    cases (step_cases near hb hv e).2 i t' ht' with
    | starts h1 _ _ _ => omega
    | rests h1 h2 h3 h4 =>
      rw [g1] at h1
      cases h1
      refine ⟨t, done, rest, ks, ht', g2, g3, by rw [h2]; exact g4, ?_⟩
      rw [(stepsOf_append i pre e).2 h4]
      exact g5
    | moves t1 h1 h2 h3 f =>
      rw [g1] at h1
      cases h1
      rw [(stepsOf_append i pre e).1 h2]
      have hnx : (σ.stmt i t).threads[i]? = some t' := by rw [← h3]; exact ht'
      have hok := hv.ok i t g1
      cases hr : t.role with
      | loop => cases hp : t.pc <;> simp only [Remaining, hr, hp] at g5
      | calls r =>
        cases hp : t.pc with
        | fetch x =>
          simp only [Remaining, hr, hp] at g5
          obtain ⟨g5, g6⟩ := g5
          subst g5
          obtain ⟨f1, f2, f3⟩ := f.fetch x hp
          rw [hp] at g4
          rcases f3 with ⟨ms, hval, hpc, hsh⟩ | ⟨⟨k, hk, hnv⟩, er, her⟩
          · refine ⟨t', done ++ [x], r, ks ++ [((if x.getD 0 = 0 then σ.b.idx else x.getD 0) % ns.length).toNat], ht', by simp [g2], List.rel_append g3 (.cons ?_ .nil),
              by rw [f1]; exact Sending.next g4 hsh, ?_⟩
            · have m1 := Int.emod_nonneg (if x.getD 0 = 0 then σ.b.idx else x.getD 0) (show (ns.length : ℤ) ≠ 0 by omega)
              have m2 := Int.emod_lt_of_pos (if x.getD 0 = 0 then σ.b.idx else x.getD 0) (show (0 : ℤ) < ns.length by omega)
              refine ⟨by omega, fun hx => ?_, fun hx hs => ?_⟩
              · rw [Int.toNat_of_nonneg m1, if_neg hx]
              · rw [if_pos hx, hz hs]; simp
            · have hok' := f.ok
              simp only [TOk, hpc] at hok'
              simp only [Remaining, hpc, f2, hr]
              refine ⟨trivial, ?_⟩
              have := hok'.2
              omega
          · refine ⟨t', done, x :: r, ks, ht', g2, g3, by rw [f1, her]; exact g4, ?_⟩
            simp only [Remaining, her, f2, hr]
            exact ⟨k, by rw [g2]; simp [hk], hnv⟩
        | send k ms =>
          have g4' := g4.moves f (by simp [hp])
          simp only [Remaining, hr, hp] at g5
          cases ms with
          | nil =>
            simp only [Threads.stmt, hp, Threads.goto, List.getElem?_set, hlt0, if_true, Option.some.injEq] at hnx
            refine ⟨t', done, rest, ks, ht', g2, g3, g4', ?_⟩
            rw [← hnx]
            simp only [Remaining, hr, List.length_nil] at g5 ⊢
            exact ⟨g5.1, by omega⟩
          | cons m ms =>
            simp only [Threads.stmt, hp, Threads.goto, List.getElem?_set, hlt0, if_true, Option.some.injEq] at hnx
            refine ⟨t', done, rest, ks, ht', g2, g3, g4', ?_⟩
            rw [← hnx]
            simp only [Remaining, hr, List.length_cons] at g5 ⊢
            exact ⟨g5.1, by omega⟩
        | twist k =>
          have g4' := g4.moves f (by simp [hp])
          simp only [Remaining, hr, hp] at g5
          refine ⟨t', done, rest, ks, ht', g2, g3, g4', ?_⟩
          have hret : t' = Thr.calling r := by
            have hr' : t.ret = Thr.calling r := by simp only [Thr.ret, hr]
            simp only [TOk, hp] at hok
            obtain ⟨_, _, _, _, hm⟩ := moving_ok hb hok
            have hts : σ.b.timestamps = some (ns.map fun n : ℕ => (n : ℝ)) := by rw [hv.same.timestamps]; exact hb.stamps
            cases htw : b.twist with
            | none =>
              simp only [Threads.stmt, hp, hv.same.twist, htw, List.getElem?_set, hlt0, if_true, Option.some.injEq] at hnx
              rw [← hnx, hr']
            | some p =>
              obtain ⟨lin, ang⟩ := p
              obtain ⟨m, hm⟩ := hm lin ang htw
              simp only [Threads.stmt, hp, hv.same.twist, htw, hts, hv.same.twistMsg, hm, List.getElem?_set, hlt0, if_true, Option.some.injEq] at hnx
              rw [← hnx, hr']
          rw [hret, g5.1]
          exact remaining_calling (by omega)
        | done =>
          have g4' := g4.moves f (by simp [hp])
          simp only [Threads.stmt, hp] at hnx
          rw [g1] at hnx
          cases hnx
          refine ⟨t, done, rest, ks, ht', g2, g3, g4', ?_⟩
          simp only [Remaining, hr, hp] at g5 ⊢
          exact g5
        | dead er =>
          have g4' := g4.moves f (by simp [hp])
          simp only [Threads.stmt, hp] at hnx
          rw [g1] at hnx
          cases hnx
          refine ⟨t, done, rest, ks, ht', g2, g3, g4', ?_⟩
          simp only [Remaining, hr, hp] at g5 ⊢
          exact g5
        | _ => simp only [Remaining, hr, hp] at g5

/-- `publish(k)` with an index other than zero sends sample `k` and nothing else, whatever other threads do meanwhile; it is finished after at most five of its own
steps. -/
theorem C92_publish (near : NearestFn) (hb : Playable b ns tl rl) (h0 : b.idx = 0) (dt : Bool) (before after : List TEv) {k : ℤ} (hk : k ≠ 0)
    (h1 : -(ns.length : ℤ) ≤ k) (h2 : k < ns.length) {i : ℕ} (hi : i = ((Threads.start b dt).exec near before).threads.length) :
    (sentBy i ((Threads.start b dt).exec near (before ++ .publish (some k) :: after)).log = [] ∨
      Publishing b ns tl rl [(k % ns.length).toNat] (sentBy i ((Threads.start b dt).exec near (before ++ .publish (some k) :: after)).log)) ∧
    (5 ≤ stepsOf i after → ShowsSample b ns tl rl (k % ns.length).toNat (sentBy i ((Threads.start b dt).exec near (before ++ .publish (some k) :: after)).log)) := by
  obtain ⟨t, done, rest, ks, g1, g2, g3, g4, g5⟩ := calls_run near hb h0 dt before after (.publish (some k)) hi (is := [some k]) rfl
  generalize (Threads.start b dt).exec near (before ++ .publish (some k) :: after) = σ at *
  have hks : done = [] ∧ ks = [] ∧ rest = [some k] ∨ rest = [] ∧ ks = [(k % ns.length).toNat] := by
    cases done with
    | nil =>
      rw [List.forall₂_nil_left_iff] at g3
      exact .inl ⟨rfl, g3, by simpa using g2.symm⟩
    | cons x xs =>
      right
      simp only [List.cons_append, List.cons.injEq] at g2
      obtain ⟨rfl, g2⟩ := g2
      obtain ⟨rfl, rfl⟩ := List.append_eq_nil_iff.mp g2.symm
      obtain ⟨j, js, hj, hjs, rfl⟩ := List.forall₂_cons_left_iff.mp g3
      rw [List.forall₂_nil_left_iff] at hjs
      subst hjs
      have := hj.2.1 (by simpa using hk)
      simp only [Option.getD_some] at this
      exact ⟨rfl, by rw [← this]; rfl⟩
  refine ⟨?_, fun hs => ?_⟩
  · rcases hks with ⟨_, rfl, _⟩ | ⟨_, rfl⟩
    · left
      obtain ⟨⟨gs, q1, q2⟩, _⟩ := g4
      rw [List.forall₂_nil_left_iff] at q1
      subst q1
      simp only [List.flatten_nil, List.append_eq_nil_iff] at q2
      exact q2.1
    · exact .inr g4.publishing
  · have hdone : rest = [] ∧ pend b t.pc = [] := by
      obtain ⟨role, pc⟩ := t
      cases role with
      | loop => cases pc <;> simp [Remaining] at g5
      | calls r =>
        cases pc with
        | done => simp only [Remaining] at g5; exact ⟨g5, rfl⟩
        | dead e =>
          simp only [Remaining, List.mem_singleton, Option.some.injEq] at g5
          obtain ⟨k', rfl, hn⟩ := g5
          exact absurd ⟨h1, h2⟩ hn
        | fetch x => simp only [Remaining, List.length_singleton] at g5; omega
        | send x ms => simp only [Remaining, List.length_singleton] at g5; omega
        | twist x => simp only [Remaining, List.length_singleton] at g5; omega
        | _ => simp [Remaining] at g5
    rcases hks with ⟨_, _, h⟩ | ⟨_, rfl⟩
    · rw [hdone.1] at h; cases h
    · obtain ⟨⟨gs, q1, q2⟩, _⟩ := g4
      obtain ⟨g, gs', hg, hgs, rfl⟩ := List.forall₂_cons_left_iff.mp q1
      rw [List.forall₂_nil_left_iff] at hgs
      subst hgs
      rw [hdone.2] at q2
      simp only [List.append_nil, List.flatten_cons, List.flatten_nil] at q2
      rw [q2]
      exact hg

/-- A broadcaster that follows another frame: an incoming message is answered for each of its transforms of the followed frame, in order, with the sample that is
nearest in time, even while other threads publish, spin or answer other messages; the answer is complete after at most five steps for each transform. -/
theorem C92_follows (near : NearestFn) (hnear : NearestLaw near) (hb : Playable b ns tl rl) (hinc : ns.Pairwise (· < ·)) {target : Option String}
    (hs : b.subscribed = some target) (h0 : b.idx = 0) (dt : Bool) (before after : List TEv) (ms : List TransformStamped) {i : ℕ}
    (hi : i = ((Threads.start b dt).exec near before).threads.length) :
    ∃ answered rest ks, (ms.filter fun m => decide (m.childFrameId = target)) = answered ++ rest ∧
      List.Forall₂ (fun m k => NearestSample ns m.header.stamp k) answered ks ∧
      Publishing b ns tl rl ks (sentBy i ((Threads.start b dt).exec near (before ++ .incoming ms :: after)).log) ∧
      (5 * (ms.filter fun m => decide (m.childFrameId = target)).length ≤ stepsOf i after → rest = [] ∧
        Publishes b ns tl rl ks (sentBy i ((Threads.start b dt).exec near (before ++ .incoming ms :: after)).log)) := by
  have hn : 0 < ns.length := List.length_pos_iff.mpr hb.nonempty
  have hincR : StrictlyIncreasing (ns.map fun n : ℕ => (n : ℝ)) := by
    rw [StrictlyIncreasing, List.pairwise_map]
    exact hinc.imp fun h => by exact_mod_cast h
  have hne : (ns.map fun n : ℕ => (n : ℝ)) ≠ [] := by simpa using hb.nonempty
  have hinv := tinv_exec near hb (tinv_start hb h0 dt) before
  have hstep : ((Threads.start b dt).exec near before).step near (.incoming ms) =
      { (Threads.start b dt).exec near before with
        threads := ((Threads.start b dt).exec near before).threads ++ [Thr.calling (b.answers near target ms)] } := by
    have e1 : ((Threads.start b dt).exec near before).b.subscribed = some target := by rw [hinv.same.subscribed]; exact hs
    have e2 : ((Threads.start b dt).exec near before).b.answers near target ms = b.answers near target ms := by
      simp only [Broadcaster.answers, hinv.same.timestamps]
    simp only [Threads.step, e1, e2]
  obtain ⟨t, done, rest, ks, g1, g2, g3, g4, g5⟩ := calls_run near hb h0 dt before after (.incoming ms) hi hstep
  generalize (Threads.start b dt).exec near (before ++ .incoming ms :: after) = σ at *
  have hlen : (b.answers near target ms).length = (ms.filter fun m => decide (m.childFrameId = target)).length := by
    simp [Broadcaster.answers]
  have hvalid : ∀ k, some k ∈ b.answers near target ms → ValidIdx ns.length k := by
    intro k hk
    simp only [Broadcaster.answers, hb.stamps, List.mem_map, Option.some.injEq] at hk
    obtain ⟨m, _, rfl⟩ := hk
    have := hnear.lt _ (toSec m.header.stamp * 1000000000) hne hincR
    rw [List.length_map] at this
    exact ⟨by omega, by omega⟩
  simp only [Broadcaster.answers, hb.stamps] at g2
  obtain ⟨answered, rest', e1, e2, e3⟩ := List.map_eq_append_iff.mp g2
  refine ⟨answered, rest', ks, e1, ?_, g4.publishing, fun hst => ?_⟩
  · rw [← e2, List.forall₂_map_left_iff] at g3
    refine g3.imp fun m k hk => ?_
    set j := near (ns.map fun n : ℕ => (n : ℝ)) (toSec m.header.stamp * 1000000000) with hj
    have hlt : j < ns.length := by simpa using hnear.lt _ (toSec m.header.stamp * 1000000000) hne hincR
    have hkj : k = j := by
      obtain ⟨_, r1, r2⟩ := hk
      simp only [Option.getD_some] at r1 r2
      by_cases hz : (j : ℤ) = 0
      · rw [r2 hz (by rw [hs]; simp)]; omega
      · have := r1 hz
        rw [Int.emod_eq_of_lt (by omega) (by omega)] at this
        exact_mod_cast this
    rw [hkj]
    refine ⟨ns[j], List.getElem?_eq_getElem hlt, fun y hy => ?_⟩
    have hsec : toSec m.header.stamp * 1000000000 = (m.header.stamp : ℝ) := by simp [toSec]
    have := hnear.nearest _ (toSec m.header.stamp * 1000000000) ((ns[j] : ℕ) : ℝ) (y : ℝ) hincR (by rw [← hj]; simp [hlt])
      (List.mem_map.mpr ⟨y, hy, rfl⟩)
    rw [hsec] at this
    exact_mod_cast this
  · rw [← hlen] at hst
    have hdone : rest = [] ∧ pend b t.pc = [] := by
      obtain ⟨role, pc⟩ := t
      cases role with
      | loop => cases pc <;> simp [Remaining] at g5
      | calls r =>
        cases pc with
        | done => simp only [Remaining] at g5; exact ⟨g5, rfl⟩
        | dead e =>
          simp only [Remaining] at g5
          obtain ⟨k', hk', hn⟩ := g5
          exact absurd (hvalid k' hk') hn
        | fetch x => simp only [Remaining] at g5; omega
        | send x ms => simp only [Remaining] at g5; omega
        | twist x => simp only [Remaining] at g5; omega
        | _ => simp [Remaining] at g5
    obtain ⟨d1, d2⟩ := hdone
    subst d1
    refine ⟨by simpa using e3, ?_⟩
    have := g4.1
    rw [d2, List.append_nil] at this
    exact this

end

end RBM.Props
