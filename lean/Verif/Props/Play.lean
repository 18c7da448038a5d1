import Verif.Model.RosPlay
import Mathlib.Data.List.Destutter
import Mathlib.Tactic

/-!
C53: the playback widget.
-/

namespace RBM.Props

open RBM RBM.Ros

section

variable {ts : List ℝ} {step : ℤ} {speed : ℝ} {skip : Option ℤ} {p : Player}

theorem diffs_length (l : List ℝ) : (diffs l).length = l.length - 1 := by
  induction l with
  | nil => rfl
  | cons a l ih =>
    cases l with
    | nil => rfl
    | cons b l => simp only [diffs, List.length_cons, ih] at *; omega

theorem diffs_sum (a : ℝ) (l : List ℝ) : (diffs (a :: l)).sum = (a :: l).getLast (by simp) - a := by
  induction l generalizing a with
  | nil => simp [diffs]
  | cons b l ih =>
    rw [diffs, List.sum_cons, ih, List.getLast_cons (a := a) (List.cons_ne_nil b l)]
    ring

theorem play_ok (h : playPublisher ts step speed skip = .ok p) :
    2 ≤ ts.length ∧ speed ≠ 0 ∧ p.max = (ts.length : ℤ) - 1 ∧ p.value = 0 ∧ p.calls = [0] ∧ p.step = step ∧ p.skip = skip ∧
    p.interval = pyInt ((diffs (ts.map fun τ => τ / 1000000)).sum / (diffs (ts.map fun τ => τ / 1000000)).length / speed * step) := by
  simp only [playPublisher] at h
  split_ifs at h with h1 h2 h3
  cases h
  have : (diffs (ts.map fun τ => τ / 1000000)).length ≠ 0 := by simpa using h2
  rw [diffs_length, List.length_map] at this
  exact ⟨by omega, h3, rfl, rfl, rfl, rfl, rfl, rfl⟩

/-- With fewer than two timestamps there is no widget. -/
theorem C53_short (h : ts.length ≤ 1) : ∃ e, playPublisher ts step speed skip = .error e := by
  cases hx : playPublisher ts step speed skip with
  | error e => exact ⟨e, rfl⟩
  | ok p => have := (play_ok hx).1; omega

/-- With at least two timestamps and a speed other than zero, the widget exists; the interval of the play button is the mean time between two
samples in milliseconds, divided by the speed and multiplied by the step, rounded towards zero. -/
theorem C53_created (h2 : 2 ≤ ts.length) (hs : speed ≠ 0) : ∃ p, playPublisher ts step speed skip = .ok p ∧ p.max = (ts.length : ℤ) - 1 ∧ p.value = 0 ∧ p.calls = [0] ∧
    ∀ x y, ts.head? = some x → ts.getLast? = some y → p.interval = pyInt ((y - x) / 1000000 / (ts.length - 1) / speed * step) := by
  have hd : (diffs (ts.map fun τ => τ / 1000000)).length = ts.length - 1 := by rw [diffs_length, List.length_map]
  have hne : ts ≠ [] := by rintro rfl; simp at h2
  have hne' : diffs (ts.map fun τ => τ / 1000000) ≠ [] := by intro h; rw [h] at hd; simp at hd; omega
  refine ⟨_, by rw [playPublisher, if_neg hne, if_neg hne', if_neg hs], rfl, rfl, rfl, ?_⟩
  intro x y hx hy
  simp only
  rw [hd]
  obtain ⟨a, l, rfl⟩ := List.exists_cons_of_ne_nil hne
  simp only [List.head?_cons, Option.some.injEq] at hx
  subst hx
  have hsum : (diffs ((a :: l).map fun τ => τ / 1000000)).sum = (y - a) / 1000000 := by
    rw [List.map_cons, diffs_sum]
    have : ((a / 1000000) :: l.map fun τ => τ / 1000000).getLast (by simp) = y / 1000000 := by
      have e1 : ((a / 1000000) :: l.map fun τ => τ / 1000000) = (a :: l).map fun τ => τ / 1000000 := rfl
      have e2 : (a :: l).getLast (by simp) = y := by
        rw [List.getLast?_eq_getLast_of_ne_nil (by simp)] at hy
        exact Option.some.inj hy
      rw [List.getLast_congr _ (by simp) e1, List.getLast_map, e2]
    rw [this]
    ring
  rw [hsum]
  simp

/-- Values of the slider during a history, from the beginning. -/
def values (p : Player) : List PlayEv → List ℤ
  | [] => [p.value]
  | e :: evs => p.value :: values (p.ev e) evs

theorem clamp_range {hi v : ℤ} (h : 0 ≤ hi) : 0 ≤ clamp hi v ∧ clamp hi v ≤ hi := by
  unfold clamp; omega

theorem set_facts (p : Player) (v : ℤ) : (p.set v).max = p.max ∧ (p.set v).step = p.step ∧ (p.set v).skip = p.skip ∧ (p.set v).value = clamp p.max v ∧
    (p.set v).calls = if clamp p.max v = p.value then p.calls else clamp p.max v :: p.calls := by
  unfold Player.set
  simp only
  split_ifs with h
  · exact ⟨rfl, rfl, rfl, h.symm, rfl⟩
  · exact ⟨rfl, rfl, rfl, rfl, rfl⟩

theorem ev_set (p : Player) (e : PlayEv) : ∃ v, p.ev e = p.set v := by
  cases e <;> exact ⟨_, rfl⟩

theorem exec_const (evs : List PlayEv) (p : Player) : (p.exec evs).max = p.max ∧ (p.exec evs).step = p.step ∧ (p.exec evs).skip = p.skip := by
  induction evs generalizing p with
  | nil => exact ⟨rfl, rfl, rfl⟩
  | cons e evs ih =>
    obtain ⟨v, hv⟩ := ev_set p e
    obtain ⟨s1, s2, s3, _⟩ := set_facts p v
    obtain ⟨a, b, c⟩ := ih (p.ev e)
    rw [hv] at a b c
    show ((p.ev e).exec evs).max = _ ∧ ((p.ev e).exec evs).step = _ ∧ ((p.ev e).exec evs).skip = _
    rw [hv]
    exact ⟨a.trans s1, b.trans s2, c.trans s3⟩

/-- Whatever the user does, the index stays in the range of the samples, and the last call of `publish` was for the index that is shown. -/
theorem C53_range (h : playPublisher ts step speed skip = .ok p) (evs : List PlayEv) :
    0 ≤ (p.exec evs).value ∧ (p.exec evs).value < ts.length ∧ (p.exec evs).calls.head? = some (p.exec evs).value := by
  obtain ⟨h2, _, h3, h4, h5, _⟩ := play_ok h
  have key : ∀ (evs : List PlayEv) (q : Player), q.max = (ts.length : ℤ) - 1 → 0 ≤ q.value → q.value < ts.length → q.calls.head? = some q.value →
      0 ≤ (q.exec evs).value ∧ (q.exec evs).value < ts.length ∧ (q.exec evs).calls.head? = some (q.exec evs).value := by
    intro evs
    induction evs with
    | nil => intro q _ a b c; exact ⟨a, b, c⟩
    | cons e evs ih =>
      intro q hm a b c
      obtain ⟨v, hv⟩ := ev_set q e
      obtain ⟨s1, _, _, s4, s5⟩ := set_facts q v
      have hr := clamp_range (hi := q.max) (v := v) (by omega)
      refine ih (q.ev e) ?_ ?_ ?_ ?_
      · rw [hv, s1, hm]
      · rw [hv, s4]; exact hr.1
      · rw [hv, s4]; omega
      · rw [hv, s4, s5]
        split_ifs with hc
        · rw [c, hc]
        · rfl
  exact key evs p h3 (by omega) (by omega) (by rw [h5, h4]; rfl)

/-- `publish` is called once at the beginning and then exactly once for every change of the index, with the new index: the calls are
the values of the slider without repetitions of the same value in a row. -/
theorem C53_calls (h : playPublisher ts step speed skip = .ok p) (evs : List PlayEv) :
    (p.exec evs).calls.reverse = (values p evs).destutter (· ≠ ·) := by
  obtain ⟨_, _, _, h4, h5, _⟩ := play_ok h
  have key : ∀ (evs : List PlayEv) (q : Player) (c : List ℤ), q.calls = q.value :: c →
      (q.exec evs).calls.reverse = c.reverse ++ (values q evs).destutter (· ≠ ·) := by
    intro evs
    induction evs with
    | nil => intro q c hc; simp [Player.exec, values, hc]
    | cons e evs ih =>
      intro q c hc
      obtain ⟨v, hv⟩ := ev_set q e
      obtain ⟨_, _, _, s4, s5⟩ := set_facts q v
      show ((q.ev e).exec evs).calls.reverse = _
      have hvals : ∃ l, values (q.ev e) evs = (q.ev e).value :: l := by cases evs <;> exact ⟨_, rfl⟩
      obtain ⟨l, hl⟩ := hvals
      by_cases hch : clamp q.max v = q.value
      · rw [if_pos hch] at s5
        rw [ih (q.ev e) c (by rw [hv, s5, s4, hch]; exact hc)]
        simp only [values, hl]
        rw [List.destutter_cons', List.destutter_cons', List.destutter'_cons_neg _ (by rw [hv, s4, hch]; simp), hv, s4, hch]
      · rw [if_neg hch] at s5
        rw [ih (q.ev e) q.calls (by rw [hv, s5, s4]), hc]
        simp only [values, hl]
        rw [List.destutter_cons', List.destutter_cons', List.destutter'_cons_pos _ (by rw [hv, s4]; exact fun h => hch h.symm)]
        simp
  exact key evs p [] (by rw [h5, h4])

/-- The forward button: `skip` (or `step`, if `skip` is missing or zero) samples ahead, at most to the last one. -/
theorem C53_forward (h : playPublisher ts step speed skip = .ok p) (evs : List PlayEv) {k : ℤ} (hk : k = if skip.getD 0 = 0 then step else skip.getD 0) (hpos : 0 ≤ k) :
    (p.exec (evs ++ [.forward])).value = min ((p.exec evs).value + k) (ts.length - 1) := by
  obtain ⟨_, _, h3, _, _, h6, h7, _⟩ := play_ok h
  obtain ⟨r1, r2, _⟩ := C53_range h evs
  have hm : (p.exec evs).max = (ts.length : ℤ) - 1 ∧ (p.exec evs).step = step ∧ (p.exec evs).skip = skip := by
    rw [← h3, ← h6, ← h7]
    exact exec_const evs p
  have : p.exec (evs ++ [.forward]) = (p.exec evs).ev .forward := by simp [Player.exec]
  rw [this, Player.ev, (set_facts _ _).2.2.2.1, Player.jump, hm.1, hm.2.1, hm.2.2, ← hk]
  unfold clamp
  split_ifs <;> omega

/-- The backward button, except at the last sample: `skip` (or `step`) samples back, at most to the first one. Missing: at the last sample, the button
does nothing (`C53_backward_is_false`). -/
theorem C53_backward_partial (h : playPublisher ts step speed skip = .ok p) (evs : List PlayEv) {k : ℤ} (hk : k = if skip.getD 0 = 0 then step else skip.getD 0) (hpos : 0 ≤ k)
    (hlt : (p.exec evs).value < ts.length - 1) : (p.exec (evs ++ [.backward])).value = max ((p.exec evs).value - k) 0 := by
  obtain ⟨_, _, h3, _, _, h6, h7, _⟩ := play_ok h
  obtain ⟨r1, r2, _⟩ := C53_range h evs
  have hm : (p.exec evs).max = (ts.length : ℤ) - 1 ∧ (p.exec evs).step = step ∧ (p.exec evs).skip = skip := by
    rw [← h3, ← h6, ← h7]
    exact exec_const evs p
  have : p.exec (evs ++ [.backward]) = (p.exec evs).ev .backward := by simp [Player.exec]
  rw [this, Player.ev, (set_facts _ _).2.2.2.1, Player.jump, hm.1, hm.2.1, hm.2.2, ← hk]
  unfold clamp
  rw [if_pos hlt]
  omega

/-- At the last sample the backward button does nothing. -/
theorem C53_backward_stuck (h : playPublisher ts step speed skip = .ok p) (evs : List PlayEv) (hmax : (p.exec evs).value = ts.length - 1) :
    p.exec (evs ++ [.backward]) = p.exec evs := by
  obtain ⟨_, _, h3, _⟩ := play_ok h
  obtain ⟨r1, r2, _⟩ := C53_range h evs
  have hm : (p.exec evs).max = (ts.length : ℤ) - 1 := by
    rw [← h3]
    exact (exec_const evs p).1
  have : p.exec (evs ++ [.backward]) = (p.exec evs).ev .backward := by simp [Player.exec]
  rw [this, Player.ev, hm, hmax, if_neg (by omega), Player.set, hm, hmax]
  rw [if_pos (by unfold clamp; omega)]

end

/-- Three samples, all moved by the buttons: forward, forward, then backward does not go back. -/
theorem C53_backward_is_false : ∃ p, playPublisher [0, 1000000, 2000000] = .ok p ∧
    (p.exec [.forward, .forward]).value = 2 ∧ (p.exec [.forward, .forward, .backward]).value = 2 := by
  obtain ⟨p, h, -⟩ := C53_created (ts := [0, 1000000, 2000000]) (step := 1) (speed := 1) (skip := none) (by simp) one_ne_zero
  have h4 := (play_ok h).2.2.2.1
  have e1 : (p.exec [.forward]).value = 1 := by
    have := C53_forward h [] (k := 1) (by simp) (by simp)
    simp only [List.nil_append] at this
    rw [this]
    show min (p.value + 1) _ = _
    rw [h4]; simp
  have e2 : (p.exec [.forward, .forward]).value = 2 := by
    have := C53_forward h [.forward] (k := 1) (by simp) (by simp)
    simp only [List.cons_append, List.nil_append] at this
    rw [this, e1]; simp
  refine ⟨p, h, e2, ?_⟩
  have := C53_backward_stuck h [.forward, .forward] (by rw [e2]; simp)
  simp only [List.cons_append, List.nil_append] at this
  rw [this, e2]

/-- Three timestamps (nanoseconds) at double speed: the hypotheses of `C53_created`, `C53_range`, `C53_calls`, `C53_forward`,
`C53_backward_partial` and `C53_backward_stuck` are met, with `skip = 1`. -/
example : ∃ p, playPublisher [0, 1000000, 2000000] 1 2 (some 1) = .ok p ∧ (p.exec [.forward]).value = 1 ∧
    (p.exec ([.forward] ++ [.backward])).value = 0 ∧ (p.exec ([.forward] ++ [.forward])).value = 2 ∧
    p.exec ([.forward, .forward] ++ [.backward]) = p.exec [.forward, .forward] ∧
    (p.exec [.forward, .forward]).calls.reverse = (values p [.forward, .forward]).destutter (· ≠ ·) := by
  obtain ⟨p, hp, -, h0, -, -⟩ := C53_created (ts := [0, 1000000, 2000000]) (step := 1) (speed := 2) (skip := some 1) (by simp) (by norm_num)
  have e0 : (p.exec []).value = 0 := h0
  have e1 : (p.exec [.forward]).value = 1 := by
    have := C53_forward hp [] (k := 1) (by simp) (by norm_num)
    rw [List.nil_append, e0] at this
    rw [this]; norm_num
  have e2 : (p.exec ([.forward] ++ [.forward])).value = 2 := by
    rw [C53_forward hp [.forward] (k := 1) (by simp) (by norm_num), e1]; norm_num
  refine ⟨p, hp, e1, ?_, e2, C53_backward_stuck hp _ ?_, C53_calls hp _⟩
  · rw [C53_backward_partial hp [.forward] (k := 1) (by simp) (by norm_num) (by rw [e1]; norm_num), e1]; norm_num
  · rw [show ([.forward, .forward] : List PlayEv) = [.forward] ++ [.forward] from rfl, e2]; norm_num

/-- One timestamp is too few (`C53_short`). -/
example : ∃ e, playPublisher [5] 1 1 none = .error e := C53_short (by simp)

end RBM.Props
