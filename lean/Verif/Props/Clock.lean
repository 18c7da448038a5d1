import Verif.Lemmas.Clock
import Verif.Lemmas.Example2
import Verif.Props.Lookup

/-!
Shifting the clock (C35).
-/

namespace RBM.Props

open RBM Spec

/-- Adding `c` to all timestamps of all frames changes nothing in any lookup, except that `c` is added
to the returned timestamps. Errors are the same, too. -/
theorem C35_lookup (sq : SquadFn) (hsq : ShiftLaw sq) (s : State) (a : ℕ) (dst : FrameRef) (c : ℝ) :
    (shiftState c s).lookupTransform sq a dst =
      (s.lookupTransform sq a dst).map fun p => (p.1, p.2.1, p.2.2.map (List.map (· + c))) := by
  have hres : ∀ r, (shiftState c s).resolve r = s.resolve r := fun r => by cases r <;> rfl
  have hw : (shiftState c s).walk a dst = s.walk a dst := by simp only [State.walk, hres]; rfl
  simp only [State.lookupTransform, State.getMatcher, hw, bind, Except.bind]
  cases s.walk a dst with
  | error e => rfl
  | ok p =>
    have h0 := addFrames_shift c s false p.1 Matcher.empty
    rw [show shM c Matcher.empty = Matcher.empty from rfl] at h0
    simp only [h0]
    cases s.addFrames false p.1 Matcher.empty with
    | error e => rfl
    | ok m =>
      simp only [Except.map, addFrames_shift c s true p.2 m]
      cases s.addFrames true p.2 m with
      | error e => rfl
      | ok m' =>
        simp only [addArrays, getTransformation_shift c hsq]
        rfl

theorem getElem?_shL (c : ℝ) (l : List ℝ) (k : ℕ) : (l.map (· + c))[k]? = l[k]?.map (· + c) := List.getElem?_map ..

theorem linInterp_shift (c : ℝ) {V : Type} [AddCommGroup V] [Module ℝ V] {xs : List ℝ} {ys : List V} {τ : ℝ} {v : V} (h : IsLinInterp xs ys τ v) :
    IsLinInterp (xs.map (· + c)) ys (τ + c) v := by
  obtain ⟨k, x0, x1, y0, y1, h0, h1, g0, g1, hlt, hl, hr, rfl⟩ := h
  refine ⟨k, x0 + c, x1 + c, y0, y1, by rw [getElem?_shL, h0]; rfl, by rw [getElem?_shL, h1]; rfl, g0, g1, by linarith, by linarith, by linarith, ?_⟩
  rw [add_sub_add_right_eq_sub, add_sub_add_right_eq_sub]

theorem currentEvent_shift (c : ℝ) {ev : List ℝ} {τ : ℝ} {k : ℕ} (h : IsCurrentEvent ev τ k) : IsCurrentEvent (ev.map (· + c)) (τ + c) k := by
  have hlater : ∀ {j : ℕ} {e' : ℝ}, (ev.map (· + c))[j]? = some e' → ∃ e, ev[j]? = some e ∧ e' = e + c := by
    intro j e' h
    rw [getElem?_shL] at h
    cases hj : ev[j]? with
    | none => rw [hj] at h; cases h
    | some e => rw [hj] at h; exact ⟨e, rfl, (Option.some.inj h).symm⟩
  rcases h with ⟨e, h1, h2, h3⟩ | ⟨h1, h2, h3⟩
  · refine .inl ⟨e + c, by rw [getElem?_shL, h1]; rfl, by linarith, fun j e' hj he => ?_⟩
    obtain ⟨e2, h4, rfl⟩ := hlater he
    linarith [h3 j e2 hj h4]
  · refine .inr ⟨h1, by simpa using h2, fun j e' he => ?_⟩
    obtain ⟨e2, h4, rfl⟩ := hlater he
    linarith [h3 j e2 h4]

theorem pose_shift (c : ℝ) {sq : SquadFn} (hsq : ShiftLaw sq) {d : FrameData} {τ : ℝ} {P : Pose} (h : IsPoseAt sq d τ P) :
    IsPoseAt sq (shiftData c d) (τ + c) P := by
  cases h with
  | static => exact .static
  | discrete h1 h2 h3 => exact .discrete (currentEvent_shift c h1) h2 h3
  | @continuous tr ro ev _ t hc =>
    rw [← hsq c]
    exact .continuous (linInterp_shift c hc)

theorem shiftData_back (c : ℝ) (d : FrameData) : shiftData (-c) (shiftData c d) = d := by
  obtain ⟨p, ts, disc⟩ := d
  cases ts <;> simp [shiftData]

/-- The pose of every frame at time `τ + c` by the shifted clock is its pose at `τ`. -/
theorem C35_pose (sq : SquadFn) (hsq : ShiftLaw sq) (s : State) (c τ : ℝ) (i : ℕ) (P : Pose) :
    PoseOf sq (shiftState c s) (τ + c) i P ↔ PoseOf sq s τ i P := by
  constructor
  · rintro ⟨d, h1, h2⟩
    simp only [shiftState, Option.map_eq_some_iff] at h1
    obtain ⟨d', h1, rfl⟩ := h1
    refine ⟨d', h1, ?_⟩
    have := pose_shift (-c) hsq h2
    rwa [shiftData_back, add_neg_cancel_right] at this
  · rintro ⟨d, h1, h2⟩
    exact ⟨shiftData c d, by simp [shiftState, h1], pose_shift c hsq h2⟩

/-- ... and therefore so is every change of coordinates that the transform functions apply (see C15
and C16). -/
theorem C35_transform (sq : SquadFn) (hsq : ShiftLaw sq) (s : State) (c τ : ℝ) (a b : ℕ) (A : Pose) :
    IsTransformAt sq (shiftState c s) a b (τ + c) A ↔ IsTransformAt sq s a b τ A := by
  have hp : PoseOf sq (shiftState c s) (τ + c) = PoseOf sq s τ := by
    funext i P; exact propext (C35_pose sq hsq s c τ i P)
  unfold IsTransformAt
  rw [hp]
  rfl

/-- The contract can be met. -/
theorem holdSquad_shift : ShiftLaw Ex.holdSquad := by
  intro c qs xs τ
  simp only [Ex.holdSquad]
  congr 1
  induction xs generalizing qs with
  | nil => simp
  | cons x xs ih =>
    cases qs with
    | nil => simp
    | cons q qs =>
      simp only [List.map_cons, List.zip_cons_cons, List.find?_cons, add_left_inj]
      by_cases h : x = τ
      · simp only [h, decide_true, Option.map_some]
      · simp only [h, decide_false, Option.map_none]
        exact ih qs

example (c : ℝ) : (shiftState c Ex.m3).lookupTransform Ex.holdSquad 1 (.byObj 2) =
    (Ex.m3.lookupTransform Ex.holdSquad 1 (.byObj 2)).map fun p => (p.1, p.2.1, p.2.2.map (List.map (· + c))) :=
  C35_lookup _ holdSquad_shift _ _ _ _

/-- The pose of the moving frame of the example and the transformation to its parent, an hour later. -/
example (A : Pose) (hA : PoseOf Ex.holdSquad Ex.m3 1 1 A) : PoseOf Ex.holdSquad (shiftState 3600 Ex.m3) (1 + 3600) 1 A ∧
    (IsTransformAt Ex.holdSquad Ex.m3 1 0 1 A → IsTransformAt Ex.holdSquad (shiftState 3600 Ex.m3) 1 0 (1 + 3600) A) :=
  ⟨(C35_pose _ holdSquad_shift _ _ _ _ _).mpr hA, (C35_transform _ holdSquad_shift _ _ _ _ _ _).mpr⟩

end RBM.Props
