import Verif.Model.RosPlayFrame
import Verif.Props.Play
import Verif.Props.Broadcaster

/-!
C102: playing a moving frame.
-/

namespace RBM.Props

open RBM RBM.Ros RBM.Spec

section

variable {b : Broadcaster} {ns : List ℕ} {tl : List Vec} {rl : List Quat} {step : ℤ} {speed : ℝ} {skip : Option ℤ} {p : Player}

/-- For a moving frame with at least two samples there is a widget; it has one position per sample, starts at the first one, and the interval of the
play button is the mean time between the samples in milliseconds, divided by the speed and multiplied by the step. -/
theorem C102_created (hb : Playable b ns tl rl) (h2 : 2 ≤ ns.length) (hs : speed ≠ 0) :
    ∃ p, playBroadcaster b step speed skip = .ok p ∧ p.max = (ns.length : ℤ) - 1 ∧ p.value = 0 ∧ p.calls = [0] ∧
      ∀ x y, ns.head? = some x → ns.getLast? = some y →
        p.interval = pyInt (((y : ℝ) - x) / 1000000 / (ns.length - 1) / speed * step) := by
  obtain ⟨p, h, hm, hv, hc, hi⟩ := C53_created (ts := ns.map fun n : ℕ => (n : ℝ)) (step := step) (skip := skip) (by simpa using h2) hs
  refine ⟨p, by simp only [playBroadcaster, hb.stamps]; exact h, by simpa using hm, hv, hc, fun x y hx hy => ?_⟩
  have := hi x y (by simp [hx]) (by simp [hy])
  simpa using this

/-- The widget is the one of `play_publisher` with the times of the samples as timestamps: everything in C53 holds for it, in particular what the
buttons do. With timestamps given it is the one for these timestamps. -/
theorem C102_widget (hb : Playable b ns tl rl) :
    playBroadcaster b step speed skip = playPublisher (ns.map fun n : ℕ => (n : ℝ)) step speed skip ∧
    ∀ ts, playBroadcaster b step speed skip (some ts) = playPublisher ts step speed skip :=
  ⟨by simp only [playBroadcaster, hb.stamps], fun _ => rfl⟩

theorem play_ok_frame (hb : Playable b ns tl rl) (h : playBroadcaster b step speed skip = .ok p) :
    playPublisher (ns.map fun n : ℕ => (n : ℝ)) step speed skip = .ok p := by
  simpa only [playBroadcaster, hb.stamps] using h

theorem shows_calls (hb : Playable b ns tl rl) (h0 : b.idx = 0) (l : List ℤ) (hl : ∀ k ∈ l, 0 ≤ k ∧ k < ns.length) :
    List.Forall₂ (fun (k : ℤ) (s : Sent) => ∃ (j : ℕ) (ms : List OutMsg), k = j ∧ s = (ms, .ok ()) ∧ ShowsSample b ns tl rl j ms) l
      (l.map fun k => b.publish (some k)) := by
  induction l with
  | nil => exact .nil
  | cons k l ih =>
    refine .cons ?_ (ih fun x hx => hl x (by simp [hx]))
    obtain ⟨hk, hk'⟩ := hl k (by simp)
    obtain ⟨j, rfl⟩ := Int.eq_ofNat_of_zero_le hk
    by_cases hj : j = 0
    · subst hj
      obtain ⟨ms, e, hsm⟩ := C50_publish_default hb (k := 0) (by simpa using h0) (by omega)
      exact ⟨0, ms, rfl, (C50_publish_zero b).trans e, hsm⟩
    · obtain ⟨ms, e, hsm⟩ := C50_publish_partial hb (k := (j : ℤ)) (by omega) (by omega) hk'
      rw [Int.emod_eq_of_lt (by omega) hk'] at hsm
      exact ⟨j, ms, rfl, e, hsm⟩

theorem calls_range {ts : List ℝ} (h : playPublisher ts step speed skip = .ok p) (evs : List PlayEv) :
    ∀ k ∈ (p.exec evs).calls, 0 ≤ k ∧ k < ts.length := by
  induction evs using List.reverseRecOn with
  | nil =>
    intro k hk
    obtain ⟨h2, _, _, _, hc, _⟩ := play_ok h
    have : (p.exec []).calls = [0] := hc
    rw [this, List.mem_singleton] at hk
    omega
  | append_singleton evs e ih =>
    intro k hk
    have hr := C53_range h (evs ++ [e])
    have hx : p.exec (evs ++ [e]) = (p.exec evs).ev e := by simp [Player.exec, List.foldl_append]
    rw [hx] at hk hr
    obtain ⟨v, hv⟩ := ev_set (p.exec evs) e
    rw [hv] at hk hr
    obtain ⟨_, _, _, s4, s5⟩ := set_facts (p.exec evs) v
    rw [s5] at hk
    split_ifs at hk with hc
    · exact ih k hk
    · rcases List.mem_cons.mp hk with rfl | hk
      · rw [s4] at hr; exact ⟨hr.1, hr.2.1⟩
      · exact ih k hk

/-- Whatever the user does with the widget of a moving frame that was not moved by its own loop, no call fails, and what is sent are the messages of the
samples at the positions of the slider: first those of sample 0 and then, on every change of the slider, those of the sample at the new position, with the
timestamp of that sample. -/
theorem C102_messages (hb : Playable b ns tl rl) (h0 : b.idx = 0) (h : playBroadcaster b step speed skip = .ok p) (evs : List PlayEv) :
    List.Forall₂ (fun (k : ℤ) (s : Sent) => ∃ (j : ℕ) (ms : List OutMsg), k = j ∧ s = (ms, .ok ()) ∧ ShowsSample b ns tl rl j ms)
      ((values p evs).destutter (· ≠ ·)) ((p.exec evs).sent b) := by
  have h' := play_ok_frame hb h
  rw [← C53_calls h', Player.sent]
  refine shows_calls hb h0 _ fun k hk => ?_
  simpa using calls_range h' evs k (by simpa using hk)

/-- The latest message shows the sample at the position of the slider. -/
theorem C102_latest (hb : Playable b ns tl rl) (h0 : b.idx = 0) (h : playBroadcaster b step speed skip = .ok p) (evs : List PlayEv) :
    ∃ (j : ℕ) (ms : List OutMsg), (p.exec evs).value = j ∧ ((p.exec evs).sent b).getLast? = some (ms, .ok ()) ∧ ShowsSample b ns tl rl j ms := by
  have h' := play_ok_frame hb h
  obtain ⟨r1, r2, r3⟩ := C53_range h' evs
  have := shows_calls hb h0 [(p.exec evs).value] (by simpa using ⟨r1, by simpa using r2⟩)
  simp only [List.map_cons, List.map_nil, List.forall₂_cons] at this
  obtain ⟨⟨j, ms, e1, e2, e3⟩, _⟩ := this
  refine ⟨j, ms, e1, ?_, e3⟩
  rw [Player.sent, List.getLast?_map, List.getLast?_reverse, r3, Option.map_some, e2]

/-- The forward button: `skip` samples ahead (or `step`, if there is no `skip`), at most to the last one, and the sample there is sent. -/
theorem C102_forward (hb : Playable b ns tl rl) (h0 : b.idx = 0) (h : playBroadcaster b step speed skip = .ok p) (evs : List PlayEv) {j k : ℕ}
    (hj : (p.exec evs).value = j) (hk : (k : ℤ) = if skip.getD 0 = 0 then step else skip.getD 0) :
    ∃ ms, ((p.exec (evs ++ [.forward])).sent b).getLast? = some (ms, .ok ()) ∧ ShowsSample b ns tl rl (min (j + k) (ns.length - 1)) ms := by
  obtain ⟨i, ms, e1, e2, e3⟩ := C102_latest hb h0 h (evs ++ [.forward])
  have h' := play_ok_frame hb h
  have hf := C53_forward h' evs hk (by omega)
  rw [e1, hj] at hf
  simp only [List.length_map] at hf
  have hn : 0 < ns.length := List.length_pos_iff.mpr hb.nonempty
  obtain rfl : i = min (j + k) (ns.length - 1) := by omega
  exact ⟨ms, e2, e3⟩

/-- With timestamps of another length than the frame: a position at or behind the number of samples sends nothing and is an `IndexError`; the playback goes on. -/
theorem C102_other_timestamps (hb : Playable b ns tl rl) (h0 : b.idx = 0) {ts : List ℝ}
    (h : playBroadcaster b step speed skip (some ts) = .ok p) (evs : List PlayEv) :
    List.Forall₂ (fun (k : ℤ) (s : Sent) => if k < ns.length then ∃ (j : ℕ) (ms : List OutMsg), k = j ∧ s = (ms, .ok ()) ∧ ShowsSample b ns tl rl j ms
        else s = ([], .error .indexError))
      ((values p evs).destutter (· ≠ ·)) ((p.exec evs).sent b) := by
  have h' : playPublisher ts step speed skip = .ok p := h
  rw [← C53_calls h', Player.sent]
  have key : ∀ l : List ℤ, (∀ k ∈ l, 0 ≤ k) →
      List.Forall₂ (fun (k : ℤ) (s : Sent) => if k < ns.length then ∃ (j : ℕ) (ms : List OutMsg), k = j ∧ s = (ms, .ok ()) ∧ ShowsSample b ns tl rl j ms
        else s = ([], .error .indexError)) l (l.map fun k => b.publish (some k)) := by
    intro l hl
    induction l with
    | nil => exact .nil
    | cons k l ih =>
      refine .cons ?_ (ih fun x hx => hl x (by simp [hx]))
      split_ifs with hk
      · have := shows_calls hb h0 [k] (by simpa using ⟨hl k (by simp), hk⟩)
        simp only [List.map_cons, List.map_nil, List.forall₂_cons] at this
        exact this.1
      · exact C50_publish_out_of_range hb (.inr (by omega))
  exact key _ fun k hk => (calls_range h' evs k (by simpa using hk)).1

/-- A static frame, or a moving one with a single sample, has no widget. -/
theorem C102_none : (b.timestamps = none → playBroadcaster b step speed skip = .error .valueError) ∧
    (Playable b ns tl rl → ns.length = 1 → ∃ e, playBroadcaster b step speed skip = .error e) := by
  refine ⟨fun h => by simp only [playBroadcaster, h], fun hb h1 => ?_⟩
  obtain ⟨e, he⟩ := C53_short (ts := ns.map fun n : ℕ => (n : ℝ)) (step := step) (speed := speed) (skip := skip) (by simp [h1])
  exact ⟨e, by simp only [playBroadcaster, hb.stamps]; exact he⟩

end

/-- If the loop of the broadcaster has moved it, position 0 of the widget does not show sample 0: with the broadcaster at index 1 the first message is
that of sample 1. -/
theorem C102_moved_is_false : ∃ (b : Broadcaster) (ns : List ℕ) (tl : List Vec) (rl : List Quat) (p : Player) (ms : List OutMsg),
    Playable b ns tl rl ∧ playBroadcaster b = .ok p ∧ p.value = 0 ∧ p.sent b = [(ms, .ok ())] ∧
      ShowsSample b ns tl rl 1 ms ∧ ¬ ShowsSample b ns tl rl 0 ms := by
  have hp := exB_playable 1 false none
  obtain ⟨p, h, _, hv, hc, _⟩ := C102_created (step := 1) (speed := 1) (skip := none) hp (by simp) one_ne_zero
  obtain ⟨ms, e, hs⟩ := C50_publish_default hp (k := 1) rfl (by simp)
  refine ⟨_, _, _, _, p, ms, hp, h, hv, ?_, hs, ?_⟩
  · rw [Player.sent, hc]
    simp only [List.reverse_cons, List.reverse_nil, List.nil_append, List.map_cons, List.map_nil]
    rw [C50_publish_zero, e]
  · obtain ⟨n, t, r, h1, h2, h3, h4⟩ := hs
    rintro ⟨n', t', r', g1, g2, g3, g4⟩
    simp only [List.getElem?_cons_zero, List.getElem?_cons_succ, Option.some.injEq] at h1 g1
    subst h1; subst g1
    rw [h4] at g4
    simp at g4

/-- The hypotheses are met: two samples, one second apart, and the user presses the forward button; sample 1 is sent. -/
example : ∃ p, playBroadcaster exB = .ok p ∧ p.interval = 1000 ∧ (p.exec [.forward]).value = 1 ∧ ∃ ms, ((p.exec [.forward]).sent exB).getLast? = some (ms, .ok ()) ∧
    ShowsSample exB [5000000000, 6000000000] [![1, 0, 0], ![2, 0, 0]] [⟨1, 0, 0, 0⟩, ⟨1, 0, 0, 0⟩] 1 ms := by
  have hp := exB_playable 0 false none
  obtain ⟨p, h, hm, hv, _, hi⟩ := C102_created (step := 1) (speed := 1) (skip := none) hp (by simp) one_ne_zero
  obtain ⟨_, _, _, _, _, hst, hsk, _⟩ := play_ok (play_ok_frame hp h)
  have hval : (p.exec [.forward]).value = 1 := by
    simp [Player.exec, Player.ev, Player.set, Player.jump, hm, hv, hst, hsk, clamp]
  obtain ⟨j, ms, e1, e2, e3⟩ := C102_latest hp rfl h [.forward]
  rw [hval] at e1
  obtain rfl : j = 1 := by exact_mod_cast e1.symm
  refine ⟨p, h, ?_, hval, ms, e2, e3⟩
  rw [hi 5000000000 6000000000 rfl rfl, pyInt]
  norm_num

end RBM.Props
