import Verif.Props.TransformLaws

/-!
C20, C21 and C28 for arrays; static arrays through moving frames (C30); axes (C31, C32, C33);
`return_timestamps` (C34).
-/

namespace RBM.Props

open RBM Spec

/-! ### C20, C21 -/

/-- The timestamps returned by a transform of a timestamped array (they are the `outStamps` of
C15_*_timed) are exactly the timestamps of the array that lie in the closed ranges of the array and
of all continuous frames on the route, strictly increasing. -/
theorem C20_array_timestamps {s : State} {l : List ℕ} {ats : List ℝ} (h : StrictlyIncreasing ats) :
    StrictlyIncreasing (outStamps s l ats) ∧ (outStamps s l ats).Sublist ats ∧
    ∀ τ, τ ∈ outStamps s l ats ↔
      τ ∈ ats ∧ ∀ i ∈ l, ∀ y, stampsOf s false i = some y → InRange y τ := by
  refine ⟨outStamps_sorted h, List.filter_sublist, fun τ => ?_⟩
  rw [mem_outStamps]
  exact ⟨fun ⟨h1, _, h3⟩ => ⟨h1, h3⟩, fun ⟨h1, h3⟩ => ⟨h1, inRange_mem h h1, h3⟩⟩

example : outStamps Ex.m3 [1, 2] [-1, 0, 1] = [0, 1] := ex_outStamps

/-- Timestamps of the continuous frames of a matcher in the order they were added. -/
def contFrames (m : Matcher) : List (List ℝ) := m.frames.filterMap fun f => if f.discrete then none else f.timestamps

/-- Timestamps of the arrays of a matcher in the order they were added. -/
def timedArrays (m : Matcher) : List (List ℝ) := m.arrays.filterMap (·.timestamps)

/-- Which element defines the sampling. By default the first timestamped array, else the first
continuous frame; with `arrays_first=False` the first continuous frame, else the first timestamped
array. The result is restricted to the common range of all of them. -/
theorem C21_sampling (m : Matcher) (hne : ∀ c ∈ contFrames m ++ timedArrays m, c ≠ []) (af : Bool) (x : List ℝ)
    (hx : (af = true ∧ (timedArrays m).head? = some x) ∨
      (af = true ∧ timedArrays m = [] ∧ (contFrames m).head? = some x) ∨
      (af = false ∧ (contFrames m).head? = some x) ∨
      (af = false ∧ contFrames m = [] ∧ (timedArrays m).head? = some x)) :
    m.getTimestamps af = .ok (some (commonStamps x (contFrames m ++ timedArrays m))) := by
  classical
  have hel : ∃ cs, m.elements af = x :: cs := by
    have e : m.elements af = if af then timedArrays m ++ contFrames m else contFrames m ++ timedArrays m := rfl
    have key : ∀ {l : List (List ℝ)} {y}, l.head? = some y → ∃ t, l = y :: t := by
      intro l y h; cases l with
      | nil => simp at h
      | cons a t => simp at h; exact ⟨t, by rw [h]⟩
    rw [e]
    rcases hx with ⟨rfl, h⟩ | ⟨rfl, h0, h⟩ | ⟨rfl, h⟩ | ⟨rfl, h0, h⟩
    · obtain ⟨t, ht⟩ := key h; simp [ht]
    · obtain ⟨t, ht⟩ := key h; simp [ht, h0]
    · obtain ⟨t, ht⟩ := key h; simp [ht]
    · obtain ⟨t, ht⟩ := key h; simp [ht, h0]
  obtain ⟨cs, hel⟩ := hel
  rcases getTimestamps_spec m af hne with ⟨c, cs', ts, e1, e2, _, e3⟩ | ⟨h0, _⟩ | ⟨h0, _⟩
  · rw [hel] at e1; cases e1
    rw [e2, e3 (fun t => ∀ c ∈ m.continuous, InRange c t) (fun t => Iff.rfl)]
    rw [commonStamps]; rfl
  · rw [(elements_nil m af).mpr h0] at hel; simp at hel
  · rw [(elements_nil m af).mpr h0] at hel; simp at hel

/-- The two settings differ: a frame sampled at 0, 1, 2 and an array sampled at 0, 2. -/
example :
    let m : Matcher := ⟨[⟨.many [0, 0, 0], .many [1, 1, 1], some [0, 1, 2], false, false⟩], [⟨Ex.arr1 [7, 8], some [0, 2]⟩]⟩
    m.getTimestamps true = .ok (some [0, 2]) ∧ m.getTimestamps false = .ok (some [0, 1, 2]) := by
  intro m
  have h1 := C21_sampling m (by simp [contFrames, timedArrays, m]) true [0, 2] (.inl ⟨rfl, rfl⟩)
  have h2 := C21_sampling m (by simp [contFrames, timedArrays, m]) false [0, 1, 2] (.inr (.inr (.inl ⟨rfl, rfl⟩)))
  rw [h1, h2]
  simp [contFrames, timedArrays, m, commonStamps, InRange, List.filter_cons]

/-- With no continuous element at all the sampling consists of all events of discrete frames. -/
theorem C21_discrete_only (m : Matcher) (af : Bool) (h1 : contFrames m = []) (h2 : timedArrays m = []) :
    let ev := (m.frames.filterMap fun f => if f.discrete then f.timestamps else none)
    if ev = [] then m.getTimestamps af = .ok none
    else ∃ ts, m.getTimestamps af = .ok (some ts) ∧ StrictlyIncreasing ts ∧ ∀ τ, τ ∈ ts ↔ ∃ e ∈ ev, τ ∈ e := by
  intro ev
  have hc : m.continuous = [] := by
    have : m.continuous = contFrames m ++ timedArrays m := rfl
    rw [this, h1, h2]; rfl
  have hev : m.discretes = ev := rfl
  rcases getTimestamps_spec m af (by rw [hc]; simp) with ⟨c, cs', ts, e1, _⟩ | ⟨_, hd, e⟩ | ⟨_, hd, e⟩
  · rw [(elements_nil m af).mpr hc] at e1; simp at e1
  · rw [if_neg (hev ▸ hd)]
    refine ⟨_, e, npUnique_sorted _, fun τ => ?_⟩
    rw [mem_npUnique, List.mem_flatten, hev]
  · rw [if_pos (hev ▸ hd)]; exact e

/-! ### C28 for arrays -/

theorem addArray_bad {v : ND ℝ} {ats : List ℝ} (hbad : ¬ NonDecreasing ats ∨ v.shape.head? ≠ some ats.length)
    (hv : v.shape ≠ []) (fs : List MFrame) : addArrays [⟨v, some ats⟩] ⟨fs, []⟩ = .error .valueError := by
  match hs : v.shape with
  | [] => exact absurd hs hv
  | n :: r =>
    simp only [addArrays, Matcher.addArray, hs]
    have : checkTimestamps (some ats) n = .error .valueError := by
      simp only [checkTimestamps]
      split
      · rfl
      · rename_i hd
        rcases hbad with h | h
        · exact absurd ((anyDecrease_iff ats).mp hd) h
        · rw [hs] at h
          rw [if_pos]
          rintro rfl
          exact h rfl
    simp only [this]

/-- A transform of an array whose timestamps decrease somewhere, or whose number differs from the
length of the time axis, raises `ValueError`, for points, vectors and orientations alike
(the frames on the way being completely constructed). -/
theorem C28_bad_array (sq : SquadFn) {s : State} {h : List Event} (hr : Reachable s h) {a b : ℕ}
    (ha : a < s.size) (hb : b < s.size) {l : List ℕ} (hl : Route s a b l) (hpose : ∀ i ∈ l, HasPose s i)
    (v : ND ℝ) (o : TArgs) {p q : ℕ} {ta : ℤ} {ats : List ℝ}
    (hax : AxisIs o.axis v.ndim p) (hta : o.timeAxis = some ta) (hq : AxisIs ta v.ndim q)
    (hts : o.timestamps = some (ofList ats))
    (hbad : ¬ NonDecreasing ats ∨ v.shape.getD q 0 ≠ ats.length) :
    (v.shape.getD p 0 = 3 → s.transformVectors sq a v (.byObj b) o = .error .valueError ∧
      s.transformPoints sq a v (.byObj b) o = .error .valueError) ∧
    (v.shape.getD p 0 = 4 → s.transformQuaternions sq a v (.byObj b) o = .error .valueError) := by
  have key : ∀ k, v.shape.getD p 0 = k →
      validateInput v o.axis k o.timestamps o.timeAxis = .error .valueError ∨
      (validateInput v o.axis k o.timestamps o.timeAxis = .ok (v.swapaxes 0 q, some ats) ∧
        s.getMatcher a (.byObj b) [⟨v.swapaxes 0 q, some ats⟩] = .error .valueError) := by
    intro k hk
    by_cases hn : v.shape.getD q 0 = ats.length
    · right
      rw [hts, hta]
      refine ⟨validateInput_timed hax hk hq hn, ?_⟩
      have hbad' : ¬ NonDecreasing ats := hbad.resolve_right (by simpa using hn)
      obtain ⟨h1, h2⟩ := C28_bad_timestamps sq hr ha hb hl hpose
      by_cases hb' : ∃ i ∈ l, BadStamps s i
      · have := h1 hb'
        obtain ⟨c, la, lb, hc, hla, hlb, rfl⟩ := hl
        have hw : s.walk a (.byObj b) = .ok (la, lb.reverse) := by
          simp [State.walk, State.resolve, walk_eq hr.wf ha hb hc hla hlb]
        have hgood : ∀ i, HasPose s i → ¬ BadStamps s i → Checked s i := by
          rintro i ⟨d, ⟨t, r⟩, hd, hp⟩ hn
          refine ⟨d, (t, r), hd, hp, ?_⟩
          cases hts : d.timestamps with
          | none => rfl
          | some ts =>
            by_contra hne
            apply hn
            refine ⟨d, t, r, ts, hd, hp, hts, ?_⟩
            by_contra hcon
            push Not at hcon
            exact hne (checkTimestamps_ok hcon.1 hcon.2)
        simp only [State.getMatcher, hw, bind, Except.bind]
        by_cases h1 : ∃ i ∈ la, BadStamps s i
        · rw [addFrames_bad (fun i hi => hpose i (by simp [hi])) h1]
        · obtain ⟨fs, e, _⟩ := addFrames_ok (s := s) (inv := false) (l := la) (m := Matcher.empty)
            (fun i hi => hgood i (hpose i (by simp [hi])) (fun hb => h1 ⟨i, hi, hb⟩))
          simp only [e]
          rw [addFrames_bad (fun i hi => hpose i (by simp at hi; simp [hi]))]
          obtain ⟨i, hi, hb⟩ := hb'
          rcases List.mem_append.mp hi with hi | hi
          · exact absurd ⟨i, hi, hb⟩ h1
          · exact ⟨i, hi, hb⟩
      · obtain ⟨c, la, lb, hc, hla, hlb, rfl⟩ := hl
        have hgood : ∀ i ∈ la ++ lb, Checked s i := by
          intro i hi
          have hi' : i ∈ la ++ lb.reverse := by simp at hi ⊢; exact hi
          obtain ⟨d, ⟨t, r⟩, hd, hp⟩ := hpose i hi'
          refine ⟨d, (t, r), hd, hp, ?_⟩
          cases hts : d.timestamps with
          | none => rfl
          | some ts =>
            by_contra hne
            apply hb'
            refine ⟨i, hi', d, t, r, ts, hd, hp, hts, ?_⟩
            by_contra hcon
            push Not at hcon
            exact hne (checkTimestamps_ok hcon.1 hcon.2)
        obtain ⟨fa, fb, e, _⟩ := getMatcher_ok hr.wf ha hb hc hla hlb hgood [⟨v.swapaxes 0 q, some ats⟩]
        rw [e]
        refine addArray_bad (.inl hbad') ?_ _
        have := hq.1
        intro h0
        have : (v.swapaxes 0 q).shape.length = v.shape.length := by simp [ND.swapaxes]
        rw [h0] at this; simp only [ND.ndim] at *; simp at this; omega
    · left
      rw [hts, hta]
      simp only [validateInput, pyShape_ok (axisIs_norm hax), hk, bind, Except.bind, ofList, pyShape_ok (axisIs_norm hq)]
      simp only [ne_eq, not_true_eq_false, if_false, hn, not_false_eq_true, if_true, Pure.pure, Except.pure, throw, throwThe,
        MonadExceptOf.throw]
  constructor
  · intro h3
    rcases key 3 h3 with e | ⟨e1, e2⟩
    · constructor <;> simp only [State.transformVectors, State.transformVectorsCore, State.transformPoints,
        State.transformPointsCore, e, bind, Except.bind]
    · constructor <;> simp only [State.transformVectors, State.transformVectorsCore, State.transformPoints,
        State.transformPointsCore, e1, e2, bind, Except.bind]
  · intro h4
    rcases key 4 h4 with e | ⟨e1, e2⟩
    · simp only [State.transformQuaternions, State.transformQuaternionsCore, e, bind, Except.bind]
    · simp only [State.transformQuaternions, State.transformQuaternionsCore, e1, e2, bind, Except.bind]

/-- Non-vacuous: decreasing timestamps `[1, 0]`. -/
example : Ex.m3.transformPoints Ex.holdSquad 1 (Ex.arr2 3 [[1, 2, 3], [4, 5, 6]]) (.byObj 2)
    { timestamps := some (ofList [1, 0]) } = .error .valueError :=
  ((C28_bad_array Ex.holdSquad Ex.reachM (by rw [Ex.m3_eq]; norm_num) (by rw [Ex.m3_eq]; norm_num) ex_route_moving
    (by intro i hi; simp at hi; rcases hi with rfl | rfl
        · exact ⟨Ex.dataM, _, by rw [Ex.m3_eq]; simp, rfl⟩
        · exact ⟨Ex.dataD, _, by rw [Ex.m3_eq]; simp, rfl⟩)
    (Ex.arr2 3 [[1, 2, 3], [4, 5, 6]]) { timestamps := some (ofList [1, 0]) } (p := 1) (q := 0) (ta := 0) (ats := [1, 0])
    ⟨by simp [ND.ndim, Ex.arr2], .inr (by simp [ND.ndim, Ex.arr2])⟩ rfl ⟨by simp [ND.ndim, Ex.arr2], .inl rfl⟩ rfl
    (.inl (by simp [NonDecreasing]))).1 rfl).2

end RBM.Props
