import Verif.Spec.PlainArrays
import Verif.Props.Plumbing
import Verif.Props.TopLevel

/-!
C85: the top level functions on plain arrays are the methods of the frames.
-/

namespace RBM.Props

open RBM RBM.Spec

theorem axesGiven_default {arr : ND ℝ} {axis timeAxis : Option ℤ} {ax ta : ℤ} (h : AxesGiven arr axis timeAxis ax ta) :
    orDefault axis (-1) = ax ∧ orDefault timeAxis 0 = ta := by
  obtain ⟨h1, h2, -⟩ := h
  constructor
  · rcases h1 with ⟨rfl, h0⟩ | ⟨rfl, rfl⟩
    · simp [orDefault, h0]
    · rfl
  · rcases h2 with rfl | ⟨rfl, rfl⟩
    · simp only [orDefault]; split <;> simp_all
    · rfl

theorem plain_unpack {arr : ND ℝ} {axis timeAxis : Option ℤ} {ax ta : ℤ} (h : AxesGiven arr axis timeAxis ax ta) (ts : Option (ND ℝ)) :
    maybeUnpack (.nd arr) none axis timeAxis (stampsGiven ts) = .ok ⟨arr, ax, none, some ta, none, stampsGiven ts, none⟩ := by
  obtain ⟨e1, e2⟩ := axesGiven_default h
  cases ts with
  | none => simp only [stampsGiven, C56_plain, e1, e2]
  | some t =>
    obtain ⟨p, q, hp, hq, hpq⟩ := h.differ
    have := (C56_plain_timed arr axis timeAxis t (by rw [e1]; exact hp) (by rw [e2]; exact hq)).1 hpq
    simp only [stampsGiven, this, e1, e2]

theorem stampsGiven_toND (ts : Option (ND ℝ)) : (stampsGiven ts).toND = ts := by cases ts <;> rfl

/-- The method returns timestamps on request only. -/
def OnRequest (M : TArgs → Res PyRet) : Prop :=
  ∀ o : TArgs, ∃ r : Res (ND ℝ × Option (List ℝ)), ∀ b : Bool, M { o with returnTimestamps := b } = r.map fun p => pyReturn b p.1 p.2

theorem plain_top (x : XrOps) (s : State) (method : MethodFn) (what : String) {arr : ND ℝ} {axis timeAxis : Option ℤ} {ax ta : ℤ}
    (h : AxesGiven arr axis timeAxis ax ta) (ts : Option (ND ℝ)) {outof into : FrameRef} {a b : ℕ} (ha : s.resolve outof = .ok a) (hb : s.resolve into = .ok b)
    (hM : OnRequest (method what a arr (.byObj b))) (rt : Bool) :
    transformTop x s method what (.nd arr) into
        { outof := some outof, axis := axis, timestamps := stampsGiven ts, timeAxis := timeAxis, returnTimestamps := some rt } =
      (method what a arr (.byObj b) { axis := ax, timeAxis := some ta, timestamps := ts, returnTimestamps := rt }).map asTop ∧
    transformTop x s method what (.nd arr) into
        { outof := some outof, axis := axis, timestamps := stampsGiven ts, timeAxis := timeAxis, returnTimestamps := none } =
      (method what a arr (.byObj b) { axis := ax, timeAxis := some ta, timestamps := ts, returnTimestamps := true }).map asTopAuto := by
  obtain ⟨r, hr⟩ := hM { axis := ax, timeAxis := some ta, timestamps := ts }
  simp only at hr
  simp only [transformTop, plain_unpack h, resolveOutof, ha, hb, stampsGiven_toND, hr, bind, Except.bind, Option.map_none]
  cases r with
  | error e => exact ⟨rfl, rfl⟩
  | ok p =>
    obtain ⟨v, t⟩ := p
    simp only [Except.map, pyReturn, if_true, packResult]
    constructor
    · cases rt <;> simp [asTop]
    · cases t <;> simp [asTopAuto]

theorem walk_resolved {s : State} {into : FrameRef} {b : ℕ} (hb : s.resolve into = .ok b) (a : ℕ) : s.walk a into = s.walk a (.byObj b) := by
  have : s.resolve (.byObj b) = .ok b := rfl
  simp only [State.walk, hb, this]

theorem getMatcher_resolved {s : State} {into : FrameRef} {b : ℕ} (hb : s.resolve into = .ok b) (a : ℕ) (as : List MArray) :
    s.getMatcher a into as = s.getMatcher a (.byObj b) as := by simp only [State.getMatcher, walk_resolved hb]

variable (sq : SquadFn) (x : XrOps) (s : State) {arr : ND ℝ} {axis timeAxis : Option ℤ} {ax ta : ℤ}

/-- `transform_points` of a plain array is the method of the source frame, with the same axes (default: space last, time first), the same timestamps
and the same choice of what is returned; by default (`None`) timestamps are returned if there are any. -/
theorem C85_points (h : AxesGiven arr axis timeAxis ax ta) (ts : Option (ND ℝ)) {outof into : FrameRef} {a b : ℕ} (ha : s.resolve outof = .ok a)
    (hb : s.resolve into = .ok b) (rt : Bool) :
    topPoints sq x s (.nd arr) into { outof := some outof, axis := axis, timestamps := stampsGiven ts, timeAxis := timeAxis, returnTimestamps := some rt } =
      (s.transformPoints sq a arr into { axis := ax, timeAxis := some ta, timestamps := ts, returnTimestamps := rt }).map asTop ∧
    topPoints sq x s (.nd arr) into { outof := some outof, axis := axis, timestamps := stampsGiven ts, timeAxis := timeAxis, returnTimestamps := none } =
      (s.transformPoints sq a arr into { axis := ax, timeAxis := some ta, timestamps := ts, returnTimestamps := true }).map asTopAuto := by
  have e : ∀ o, s.transformPoints sq a arr into o = s.transformPoints sq a arr (.byObj b) o := by
    intro o; simp only [State.transformPoints, State.transformPointsCore, getMatcher_resolved hb]
  simp only [e]
  refine plain_top x s _ "reference_frame" h ts ha hb ?_ rt
  intro o
  refine ⟨(do let p ← s.transformPointsCore sq a arr (.byObj b) o; let y ← undoTimeSwap p.1 o.timeAxis; return (y, p.2)), fun rt => ?_⟩
  simp only [State.transformPoints, bind, Except.bind]
  have : s.transformPointsCore sq a arr (.byObj b) { o with returnTimestamps := rt } = s.transformPointsCore sq a arr (.byObj b) o := rfl
  rw [this]
  cases s.transformPointsCore sq a arr (.byObj b) o with
  | error e => rfl
  | ok p =>
    simp only
    cases undoTimeSwap p.1 o.timeAxis <;> rfl

theorem C85_vectors (h : AxesGiven arr axis timeAxis ax ta) (ts : Option (ND ℝ)) {outof into : FrameRef} {a b : ℕ} (ha : s.resolve outof = .ok a)
    (hb : s.resolve into = .ok b) (rt : Bool) :
    topVectors sq x s (.nd arr) into { outof := some outof, axis := axis, timestamps := stampsGiven ts, timeAxis := timeAxis, returnTimestamps := some rt } =
      (s.transformVectors sq a arr into { axis := ax, timeAxis := some ta, timestamps := ts, returnTimestamps := rt }).map asTop ∧
    topVectors sq x s (.nd arr) into { outof := some outof, axis := axis, timestamps := stampsGiven ts, timeAxis := timeAxis, returnTimestamps := none } =
      (s.transformVectors sq a arr into { axis := ax, timeAxis := some ta, timestamps := ts, returnTimestamps := true }).map asTopAuto := by
  have e : ∀ o, s.transformVectors sq a arr into o = s.transformVectors sq a arr (.byObj b) o := by
    intro o; simp only [State.transformVectors, State.transformVectorsCore, getMatcher_resolved hb]
  simp only [e]
  refine plain_top x s _ "representation_frame" h ts ha hb ?_ rt
  intro o
  refine ⟨(do let p ← s.transformVectorsCore sq a arr (.byObj b) o; let y ← undoTimeSwap p.1 o.timeAxis; return (y, p.2)), fun rt => ?_⟩
  simp only [State.transformVectors, bind, Except.bind]
  have : s.transformVectorsCore sq a arr (.byObj b) { o with returnTimestamps := rt } = s.transformVectorsCore sq a arr (.byObj b) o := rfl
  rw [this]
  cases s.transformVectorsCore sq a arr (.byObj b) o with
  | error e => rfl
  | ok p =>
    simp only
    cases undoTimeSwap p.1 o.timeAxis <;> rfl

theorem C85_orientations (h : AxesGiven arr axis timeAxis ax ta) (ts : Option (ND ℝ)) {outof into : FrameRef} {a b : ℕ} (ha : s.resolve outof = .ok a)
    (hb : s.resolve into = .ok b) (rt : Bool) :
    topQuaternions sq x s (.nd arr) into { outof := some outof, axis := axis, timestamps := stampsGiven ts, timeAxis := timeAxis, returnTimestamps := some rt } =
      (s.transformQuaternions sq a arr into { axis := ax, timeAxis := some ta, timestamps := ts, returnTimestamps := rt }).map asTop ∧
    topQuaternions sq x s (.nd arr) into { outof := some outof, axis := axis, timestamps := stampsGiven ts, timeAxis := timeAxis, returnTimestamps := none } =
      (s.transformQuaternions sq a arr into { axis := ax, timeAxis := some ta, timestamps := ts, returnTimestamps := true }).map asTopAuto := by
  have e : ∀ o, s.transformQuaternions sq a arr into o = s.transformQuaternions sq a arr (.byObj b) o := by
    intro o; simp only [State.transformQuaternions, State.transformQuaternionsCore, getMatcher_resolved hb]
  simp only [e]
  refine plain_top x s _ "reference_frame" h ts ha hb ?_ rt
  intro o
  refine ⟨(do let p ← s.transformQuaternionsCore sq a arr (.byObj b) o; let y ← undoTimeSwap p.1 o.timeAxis; return (y, p.2)), fun rt => ?_⟩
  simp only [State.transformQuaternions, bind, Except.bind]
  have : s.transformQuaternionsCore sq a arr (.byObj b) { o with returnTimestamps := rt } = s.transformQuaternionsCore sq a arr (.byObj b) o := rfl
  rw [this]
  cases s.transformQuaternionsCore sq a arr (.byObj b) o with
  | error e => rfl
  | ok p =>
    simp only
    cases undoTimeSwap p.1 o.timeAxis <;> rfl

/-- A plain array has no attributes: without a source frame the functions fail. Unknown frames fail. -/
theorem C85_errors (h : AxesGiven arr axis timeAxis ax ta) (ts : Option (ND ℝ)) (into : FrameRef) (rt : Option Bool) :
    (topPoints sq x s (.nd arr) into { axis := axis, timestamps := stampsGiven ts, timeAxis := timeAxis, returnTimestamps := rt } = .error .valueError ∧
      topVectors sq x s (.nd arr) into { axis := axis, timestamps := stampsGiven ts, timeAxis := timeAxis, returnTimestamps := rt } = .error .valueError ∧
      topQuaternions sq x s (.nd arr) into { axis := axis, timestamps := stampsGiven ts, timeAxis := timeAxis, returnTimestamps := rt } = .error .valueError) ∧
    (∀ outof e, s.resolve outof = .error e ∨ (∃ a, s.resolve outof = .ok a ∧ s.resolve into = .error e) →
      topPoints sq x s (.nd arr) into { outof := some outof, axis := axis, timestamps := stampsGiven ts, timeAxis := timeAxis, returnTimestamps := rt } = .error e ∧
      topVectors sq x s (.nd arr) into { outof := some outof, axis := axis, timestamps := stampsGiven ts, timeAxis := timeAxis, returnTimestamps := rt } = .error e ∧
      topQuaternions sq x s (.nd arr) into { outof := some outof, axis := axis, timestamps := stampsGiven ts, timeAxis := timeAxis, returnTimestamps := rt } = .error e) := by
  constructor
  · simp only [topPoints, topVectors, topQuaternions, transformTop, plain_unpack h, resolveOutof, bind, Except.bind, and_self]
  · rintro outof e (he | ⟨a, ha, he⟩)
    · simp only [topPoints, topVectors, topQuaternions, transformTop, plain_unpack h, resolveOutof, he, bind, Except.bind, and_self]
    · simp only [topPoints, topVectors, topQuaternions, transformTop, plain_unpack h, resolveOutof, ha, he, bind, Except.bind, and_self]

/-- Default axes of a two dimensional array. -/
example : AxesGiven (Ex.arr2 3 [[1, 2, 3], [4, 5, 6]]) none none (-1) 0 :=
  ⟨.inr ⟨rfl, rfl⟩, .inr ⟨rfl, rfl⟩, 1, 0, ⟨by decide, .inr (by decide)⟩, ⟨by decide, .inl rfl⟩, by decide⟩

/-- The static frames of the example: one call by name, one of the method. -/
example : topPoints Ex.holdSquad exXr Ex.m3 (.nd (Ex.arr2 3 [[1, 2, 3], [4, 5, 6]])) (.byObj 2)
      { outof := some (.byObj 1), timestamps := .arr (Ex.arr1 [0, 1]), returnTimestamps := some true } =
    (Ex.m3.transformPoints Ex.holdSquad 1 (Ex.arr2 3 [[1, 2, 3], [4, 5, 6]]) (.byObj 2)
      { timestamps := some (Ex.arr1 [0, 1]), returnTimestamps := true }).map asTop :=
  (C85_points Ex.holdSquad exXr Ex.m3 (arr := Ex.arr2 3 [[1, 2, 3], [4, 5, 6]]) (axis := none) (timeAxis := none)
    ⟨.inr ⟨rfl, rfl⟩, .inr ⟨rfl, rfl⟩, 1, 0, ⟨by decide, .inr (by decide)⟩, ⟨by decide, .inl rfl⟩, by decide⟩ (some (Ex.arr1 [0, 1]))
    (outof := .byObj 1) (into := .byObj 2) rfl rfl true).1

end RBM.Props
