import Verif.Lemmas.GapsAllNear
import Verif.Lemmas.GapsCore

/-!
C101, for one time: what is known near a time is known in the result for that time.
-/

namespace RBM.Props

open RBM.Spec

section

variable {sq : SquadFn} {sqg : SquadGapsFn} {s s' : State} {gd : ℕ → Option GapData} {h' : List Event} {a b : ℕ}

theorem timedFirst_validated {v : ND (Option ℝ)} {o : TArgs} {ats : List ℝ} {rest : List ℕ} {m : ℕ} (h : TimedFirst v o ats rest m)
    {w : ND (Option ℝ)} {wts : Option (List ℝ)} (e : validateInputGaps v o.axis m o.timestamps o.timeAxis = .ok (w, wts)) :
    wts = some ats ∧ w.shape = v.shape ∧ ∀ idx, idx.length = v.shape.length → w.get idx = v.get idx := by
  obtain ⟨ta, hta, hq⟩ := h.timeAxis
  have hd : v.ndim = rest.length + 2 := by simp [ND.ndim, h.shape]
  have := validateInputGaps_timed (v := v) (axis := o.axis) (p := rest.length + 1) (k := m) (by rw [hd]; exact h.axis)
    (by rw [h.shape]; simp) (ta := ta) (q := 0) (by rw [hd]; exact hq) (ats := ats) (by rw [h.shape]; rfl)
  rw [h.timestamps, hta, this] at e
  cases e
  refine ⟨rfl, swapL_self (by rw [h.shape]; simp), fun idx hi => ?_⟩
  simp only [ND.swapaxes]
  rw [swapL_self (by rw [hi, h.shape]; simp)]

theorem timedFirst_undone {v : ND (Option ℝ)} {o : TArgs} {ats : List ℝ} {rest : List ℕ} {m : ℕ} (h : TimedFirst v o ats rest m)
    {y z : ND (Option ℝ)} (hy : y.shape.length = rest.length + 2) (e : undoTimeSwapGaps y o.timeAxis = .ok z) :
    z.shape = y.shape ∧ ∀ idx, idx.length = y.shape.length → z.get idx = y.get idx := by
  obtain ⟨ta, hta, hq⟩ := h.timeAxis
  rw [hta] at e
  exact swapZ_same (normAxis_zero (by rw [ND.ndim, hy]; omega)) (axisIs_norm (by rw [ND.ndim, hy]; exact hq)) e

theorem timedFirst_resamples {v : ND (Option ℝ)} {o : TArgs} {ats : List ℝ} {rest : List ℕ} {m : ℕ} (h : TimedFirst v o ats rest m) (hm : m ≠ 4)
    {v' : ND ℝ} (hs : v.shape = v'.shape) : Resamples v' o := by
  obtain ⟨ta, hta, hq⟩ := h.timeAxis
  refine .numbers (q := 0) hta (by rw [ND.ndim, ← hs, h.shape]; simpa using hq) ?_
  rw [← hs, h.shape]
  simp only [List.getD_cons_zero, List.set_cons_zero]
  rw [← List.cons_append, List.getLast?_concat]
  simpa using hm

/-- C101: the vectors returned for a time near which nothing is missing, neither in the vectors nor in the recordings on the route, are
complete, and those of every completion. -/
theorem C101_near_vectors (hsq : SquadLaw sq) (hg : SquadGapsLaw sq sqg) (hr : Reachable s' h') (ha : a < s.size) (hb : b < s.size)
    (hc : CompletesTree s gd s') {l : List ℕ} (hl : Route s' a b l) (hne : l ≠ []) (hp : PathAll s' a b (FrameOk true s'))
    {v : ND (Option ℝ)} {v' : ND ℝ} (hv : FitsArr v v') {o : TArgs} {ats : List ℝ} {rest : List ℕ} (ho : TimedFirst v o ats rest 3)
    {a' : ND ℝ} {ts : List ℝ} (e : s'.transformVectors sq a v' (.byObj b) o = .ok (.withTs a' (some ts)))
    {K : ℕ} {τ : ℝ} (hk : ts[K]? = some τ) (hn : ∀ i ∈ l, ∀ g, gd i = some g → NoGapsNear τ g)
    {c : List ℕ} (hcv : Valid rest c) (hrow : ∀ j, Close ats 1 τ j → ∀ k < 3, v.get (j :: (c ++ [k])) ≠ none) :
    ∃ g, s.transformVectorsAllGaps sqg gd a v (.byObj b) o = .ok (.withTs g (some ts)) ∧
      ∀ k < 3, g.get (K :: (c ++ [k])) = some (a'.get (K :: (c ++ [k]))) := by
  have hR := timedFirst_resamples ho (by norm_num) hv.1
  simp only [State.transformVectors, State.transformVectorsCore, bind] at e
  obtain ⟨⟨x1, ts1⟩, e0, e⟩ := bind_ok' e
  obtain ⟨⟨w', wts⟩, e1, e0⟩ := bind_ok' e0
  obtain ⟨m', e2, e0⟩ := bind_ok' e0
  obtain ⟨⟨t', r', ts'⟩, e3, e0⟩ := bind_ok' e0
  obtain ⟨x', e4, e0⟩ := bind_ok' e0
  obtain ⟨y', e5, e0⟩ := bind_ok' e0
  obtain ⟨z', e6, e⟩ := bind_ok' e
  cases e0
  have hret : o.returnTimestamps = true ∧ z' = a' ∧ ts' = some ts := by
    cases hb : o.returnTimestamps with
    | false => rw [hb] at e; cases e
    | true => rw [hb] at e; cases e; exact ⟨rfl, rfl, rfl⟩
  obtain ⟨hret, rfl, rfl⟩ := hret
  have hvr := rel_of_fits hv
  obtain ⟨w, f1, hw⟩ := validateInput_rel hvr e1
  obtain ⟨rfl, w1, w2⟩ := timedFirst_validated ho f1
  obtain ⟨t, r, x, f2, ht, hrr, hx⟩ := matchAll_sound (full := false) hg hr ha hb hc hl hp (fun h => by cases h) hw (lane_of hg hR e1) e2 e3 e4
  obtain ⟨y, f3, hy⟩ := rel_rotateF (rel_expandSingleton (rel_ofQuats hrr) x'.ndim) hx e5
  obtain ⟨z, f4, hz⟩ := undo_rel hy e6
  obtain ⟨hin, hres, tl, rl, rfl, rfl, n1, n2, k1, k2⟩ := matchAll_known hsq hg hr ha hb hc hl hne hp hw.1 e2 e3 hk hn f2
  have hws : w.shape = ats.length :: (rest ++ [3]) := w1.trans ho.shape
  have hlen : ∀ i k : ℕ, (i :: (c ++ [k])).length = v.shape.length := fun i k => by rw [ho.shape]; simp [hcv.length]
  have hxk : ∀ k < 3, x.shape = ts.length :: (rest ++ [3]) ∧ x.get (K :: (c ++ [k])) ≠ none := fun k hk3 =>
    resampleNum_known hws (by rw [← List.cons_append, List.getLast?_concat]; simp) ho.increasing ho.two hk hin
      (fun j hj => by rw [w2 _ (hlen j k)]; exact hrow j hj k hk3) hres
  have hxs := (hxk 0 (by norm_num)).1
  obtain ⟨bk, _⟩ := List.getElem?_eq_some_iff.mp hk
  obtain ⟨y1, y2⟩ := rotateAll_known (rest := rest) (by rw [hxs, n2]) (axisIs_norm ho.axis) (by rw [← hx.ndim] at f3; exact f3)
  obtain ⟨z1, z2⟩ := timedFirst_undone ho (by rw [y1]; simp) f4
  refine ⟨z, ?_, fun k hk3 => ?_⟩
  · simp only [State.transformVectorsAllGaps, f1, f2, hx.ndim, f3, f4, bind, Except.bind, hret]
    rfl
  · have hne : z.get (K :: (c ++ [k])) ≠ none := by
      rw [z2 _ (by rw [y1]; simp [hcv.length])]
      exact y2 K c (by omega) hcv k2 (fun k hk3 => (hxk k hk3).2) k hk3
    obtain ⟨u, hu⟩ := Option.ne_none_iff_exists'.mp hne
    rw [hu, (fits_of_rel hz).2 _ (by rw [z1, y1]; exact ⟨by omega, valid_snoc_mk hcv hk3⟩) u hu]

/-- C101: the points returned for a time near which nothing is missing, neither in the points nor in the recordings on the route, are
complete, and those of every completion. -/
theorem C101_near_points (hsq : SquadLaw sq) (hg : SquadGapsLaw sq sqg) (hr : Reachable s' h') (ha : a < s.size) (hb : b < s.size)
    (hc : CompletesTree s gd s') {l : List ℕ} (hl : Route s' a b l) (hne : l ≠ []) (hp : PathAll s' a b (FrameOk true s'))
    {v : ND (Option ℝ)} {v' : ND ℝ} (hv : FitsArr v v') {o : TArgs} {ats : List ℝ} {rest : List ℕ} (ho : TimedFirst v o ats rest 3)
    {a' : ND ℝ} {ts : List ℝ} (e : s'.transformPoints sq a v' (.byObj b) o = .ok (.withTs a' (some ts)))
    {K : ℕ} {τ : ℝ} (hk : ts[K]? = some τ) (hn : ∀ i ∈ l, ∀ g, gd i = some g → NoGapsNear τ g)
    {c : List ℕ} (hcv : Valid rest c) (hrow : ∀ j, Close ats 1 τ j → ∀ k < 3, v.get (j :: (c ++ [k])) ≠ none) :
    ∃ g, s.transformPointsAllGaps sqg gd a v (.byObj b) o = .ok (.withTs g (some ts)) ∧
      ∀ k < 3, g.get (K :: (c ++ [k])) = some (a'.get (K :: (c ++ [k]))) := by
  have hR := timedFirst_resamples ho (by norm_num) hv.1
  simp only [State.transformPoints, State.transformPointsCore, bind] at e
  obtain ⟨⟨x1, ts1⟩, e0, e⟩ := bind_ok' e
  obtain ⟨⟨w', wts⟩, e1, e0⟩ := bind_ok' e0
  obtain ⟨m', e2, e0⟩ := bind_ok' e0
  obtain ⟨⟨t', r', ts'⟩, e3, e0⟩ := bind_ok' e0
  obtain ⟨x', e4, e0⟩ := bind_ok' e0
  obtain ⟨y', e5, e0⟩ := bind_ok' e0
  obtain ⟨u', e7, e0⟩ := bind_ok' e0
  obtain ⟨z', e6, e⟩ := bind_ok' e
  cases e0
  have hret : o.returnTimestamps = true ∧ z' = a' ∧ ts' = some ts := by
    cases hb : o.returnTimestamps with
    | false => rw [hb] at e; cases e
    | true => rw [hb] at e; cases e; exact ⟨rfl, rfl, rfl⟩
  obtain ⟨hret, rfl, rfl⟩ := hret
  have hvr := rel_of_fits hv
  obtain ⟨w, f1, hw⟩ := validateInput_rel hvr e1
  obtain ⟨rfl, w1, w2⟩ := timedFirst_validated ho f1
  obtain ⟨t, r, x, f2, ht, hrr, hx⟩ := matchAll_sound (full := false) hg hr ha hb hc hl hp (fun h => by cases h) hw (lane_of hg hR e1) e2 e3 e4
  obtain ⟨y, f3, hy⟩ := rel_rotateF (rel_expandSingleton (rel_ofQuats hrr) x'.ndim) hx e5
  obtain ⟨u, f5, hu⟩ := rel_bop (R := Fit false) (S := Fit false) (T := Fit false) (f := nan2 fun x y => x + y) (g := fun x y => x + y)
    (fun a a' b b' h1 h2 => fit_nan2 _ h1 h2) hy (rel_expandSingleton (rel_ofVecs ht) x'.ndim) e7
  obtain ⟨z, f4, hz⟩ := undo_rel hu e6
  obtain ⟨hin, hres, tl, rl, rfl, rfl, n1, n2, k1, k2⟩ := matchAll_known hsq hg hr ha hb hc hl hne hp hw.1 e2 e3 hk hn f2
  have hws : w.shape = ats.length :: (rest ++ [3]) := w1.trans ho.shape
  have hlen : ∀ i k : ℕ, (i :: (c ++ [k])).length = v.shape.length := fun i k => by rw [ho.shape]; simp [hcv.length]
  have hxk : ∀ k < 3, x.shape = ts.length :: (rest ++ [3]) ∧ x.get (K :: (c ++ [k])) ≠ none := fun k hk3 =>
    resampleNum_known hws (by rw [← List.cons_append, List.getLast?_concat]; simp) ho.increasing ho.two hk hin
      (fun j hj => by rw [w2 _ (hlen j k)]; exact hrow j hj k hk3) hres
  have hxs := (hxk 0 (by norm_num)).1
  obtain ⟨bk, _⟩ := List.getElem?_eq_some_iff.mp hk
  obtain ⟨y1, y2⟩ := rotateAll_known (rest := rest) (by rw [hxs, n2]) (axisIs_norm ho.axis) (by rw [← hx.ndim] at f3; exact f3)
  have hxd : x'.ndim = rest.length + 2 := by rw [← hx.ndim, ND.ndim, hxs]; simp
  obtain ⟨u1, u2⟩ := addAll_known (rest := rest) (by rw [y1, n1, n2]) (by rw [hxd] at f5; exact f5)
  obtain ⟨z1, z2⟩ := timedFirst_undone ho (by rw [u1]; simp) f4
  refine ⟨z, ?_, fun k hk3 => ?_⟩
  · simp only [State.transformPointsAllGaps, f1, f2, hx.ndim, f3, f5, f4, bind, Except.bind, hret]
    rfl
  · have hne : z.get (K :: (c ++ [k])) ≠ none := by
      rw [z2 _ (by rw [u1]; simp [hcv.length])]
      exact u2 K c (by omega) hcv k1 k hk3 (y2 K c (by omega) hcv k2 (fun k hk3 => (hxk k hk3).2) k hk3)
    obtain ⟨p, hp'⟩ := Option.ne_none_iff_exists'.mp hne
    rw [hp', (fits_of_rel hz).2 _ (by rw [z1, u1]; exact ⟨by omega, valid_snoc_mk hcv hk3⟩) p hp']

/-- C101: the quaternions returned for a time near which nothing is missing, neither in the quaternions (up to two samples away, as for the
orientations of a frame) nor in the recordings on the route, are complete, and those of every completion. -/
theorem C101_near_quaternions (hsq : SquadLaw sq) (hg : SquadGapsLaw sq sqg) (hr : Reachable s' h') (ha : a < s.size) (hb : b < s.size)
    (hc : CompletesTree s gd s') {l : List ℕ} (hl : Route s' a b l) (hne : l ≠ []) (hp : PathAll s' a b (FrameOk true s'))
    {v : ND (Option ℝ)} {v' : ND ℝ} (hv : FitsArr v v') {o : TArgs} {ats : List ℝ} {rest : List ℕ} (ho : TimedFirst v o ats rest 4)
    (hu : ∀ idx, Valid v'.shape idx → IsUnitQ (quat4 v' (v'.ndim - 1) idx))
    {a' : ND ℝ} {ts : List ℝ} (e : s'.transformQuaternions sq a v' (.byObj b) o = .ok (.withTs a' (some ts)))
    {K : ℕ} {τ : ℝ} (hk : ts[K]? = some τ) (hn : ∀ i ∈ l, ∀ g, gd i = some g → NoGapsNear τ g)
    {c : List ℕ} (hcv : Valid rest c) (hrow : ∀ j, Close ats 2 τ j → ∀ k < 4, v.get (j :: (c ++ [k])) ≠ none) :
    ∃ g, s.transformQuaternionsAllGaps sqg gd a v (.byObj b) o = .ok (.withTs g (some ts)) ∧
      ∀ k < 4, g.get (K :: (c ++ [k])) = some (a'.get (K :: (c ++ [k]))) := by
  have hR : Resamples v' o := by
    obtain ⟨ta, hta, hq⟩ := ho.timeAxis
    have hd : v'.ndim = rest.length + 2 := by rw [ND.ndim, ← hv.1, ho.shape]; simp
    exact .quaternions (q := 0) ho.timestamps hta (by rw [hd]; exact hq) (by rw [hd]; omega) ho.two ho.increasing hu
  simp only [State.transformQuaternions, State.transformQuaternionsCore, bind] at e
  obtain ⟨⟨x1, ts1⟩, e0, e⟩ := bind_ok' e
  obtain ⟨⟨w', wts⟩, e1, e0⟩ := bind_ok' e0
  obtain ⟨m', e2, e0⟩ := bind_ok' e0
  obtain ⟨⟨t', r', ts'⟩, e3, e0⟩ := bind_ok' e0
  obtain ⟨x', e4, e0⟩ := bind_ok' e0
  obtain ⟨y', e5, e0⟩ := bind_ok' e0
  obtain ⟨rq', e7, e0⟩ := bind_ok' e0
  obtain ⟨aq', e8, e0⟩ := bind_ok' e0
  obtain ⟨pr', e9, e0⟩ := bind_ok' e0
  obtain ⟨u', e10, e0⟩ := bind_ok' e0
  obtain ⟨z', e6, e⟩ := bind_ok' e
  cases e0
  have hret : o.returnTimestamps = true ∧ z' = a' ∧ ts' = some ts := by
    cases hb : o.returnTimestamps with
    | false => rw [hb] at e; cases e
    | true => rw [hb] at e; cases e; exact ⟨rfl, rfl, rfl⟩
  obtain ⟨hret, rfl, rfl⟩ := hret
  have hvr := rel_of_fits hv
  obtain ⟨w, f1, hw⟩ := validateInput_rel hvr e1
  obtain ⟨rfl, w1, w2⟩ := timedFirst_validated ho f1
  obtain ⟨t, r, x, f2, ht, hrr, hx⟩ := matchAll_sound (full := false) hg hr ha hb hc hl hp (fun h => by cases h) hw (lane_of hg hR e1) e2 e3 e4
  obtain ⟨y, f3, hy⟩ := rel_swapaxesZ hx e5
  obtain ⟨rq, f7, hrq⟩ := rel_asQuat (rel_expandSingleton (rel_ofQuats hrr) x'.ndim) e7
  obtain ⟨aq, f8, haq⟩ := rel_asQuat hy e8
  obtain ⟨pr, f9, hpr⟩ := rel_bop (R := Fit false) (S := Fit false) (T := Fit false) (f := mulGaps) (g := fun x y => x * y)
    (fun a a' b b' h1 h2 => fit_mul h1 h2) hrq haq e9
  obtain ⟨u, f10, hu'⟩ := rel_swapaxesZ (rel_asFloat hpr) e10
  obtain ⟨z, f4, hz⟩ := undo_rel hu' e6
  obtain ⟨hin, hres, tl, rl, rfl, rfl, n1, n2, k1, k2⟩ := matchAll_known hsq hg hr ha hb hc hl hne hp hw.1 e2 e3 hk hn f2
  have hws : w.shape = ats.length :: (rest ++ [4]) := w1.trans ho.shape
  have hlen : ∀ i k : ℕ, (i :: (c ++ [k])).length = v.shape.length := fun i k => by rw [ho.shape]; simp [hcv.length]
  obtain ⟨hxs, hxk⟩ := resampleQuat_known (tail := c) hg hws ho.increasing ho.two rfl hk hin
      (fun j hj k hk4 => by rw [w2 _ (hlen j k)]; exact hrow j hj k hk4) hres
  obtain ⟨bk, _⟩ := List.getElem?_eq_some_iff.mp hk
  have hxd : x'.ndim = rest.length + 2 := by rw [← hx.ndim, ND.ndim, hxs]; simp
  obtain ⟨u1, u2⟩ := mulAll_known (rest := rest) (by rw [hxs, n2]) (axisIs_norm ho.axis) f3 (by rw [hxd] at f7; exact f7) f8 f9 f10
  obtain ⟨z1, z2⟩ := timedFirst_undone ho (by rw [u1]; simp) f4
  refine ⟨z, ?_, fun k hk4 => ?_⟩
  · simp only [State.transformQuaternionsAllGaps, f1, f2, hx.ndim, f3, f4, f7, f8, f9, f10, bind, Except.bind, hret]
    rfl
  · have hne : z.get (K :: (c ++ [k])) ≠ none := by
      rw [z2 _ (by rw [u1]; simp [hcv.length])]
      exact u2 K c (by omega) hcv k2 (fun k _ => hxk k) k hk4
    obtain ⟨p, hp'⟩ := Option.ne_none_iff_exists'.mp hne
    rw [hp', (fits_of_rel hz).2 _ (by rw [z1, u1]; exact ⟨by omega, valid_snoc_mk hcv hk4⟩) p hp']

end

end RBM.Props
