import Verif.Lemmas.UnitsVel
import Verif.Lemmas.UnitsOps
import Verif.Lemmas.Example3
import Verif.Props.Clock

/-!
C84: other units of length and time.
-/

namespace RBM.Props

open RBM RBM.Spec

/-- Poses in another unit of length by another clock: all lookups give translations in that unit and timestamps by that clock, the same
rotations, and fail with the same errors. -/
theorem C84_lookup (sq : SquadFn) (hsq : UnitsLaw sq) (s : State) (a : ℕ) (dst : FrameRef) {k : ℝ} (hk : 0 < k) (c u : ℝ) :
    (unitsState k c u s).lookupTransform sq a dst =
      (s.lookupTransform sq a dst).map fun p => (p.1.map (u • ·), p.2.1, p.2.2.map (List.map (reclock k c))) := by
  have hm := getMatcher_units hk (c := c) u 1 s a dst []
  simp only [List.map_nil] at hm
  simp only [State.lookupTransform, hm, bind, Except.bind]
  cases s.getMatcher a dst [] with
  | error e => rfl
  | ok m => exact getTransformation_units hk hsq u 1 m

/-- Each call on the registry or the tree with arguments in the new units succeeds or fails as before, and builds the same frames in the new units. -/
theorem C84_construct (s : State) (op : Op) (k c u : ℝ) :
    ((unitsState k c u s).step (unitsOp k c u op)).1 = unitsState k c u (s.step op).1 ∧ ((unitsState k c u s).step (unitsOp k c u op)).2 = (s.step op).2 := by
  simp only [step_units, and_self]

/-- A whole program with all its arguments in the new units. -/
theorem C84_program (ops : List Op) (k c u : ℝ) : runOps .init (ops.map (unitsOp k c u)) = unitsState k c u (runOps .init ops) := by
  have key : ∀ s, runOps (unitsState k c u s) (ops.map (unitsOp k c u)) = unitsState k c u (runOps s ops) := by
    induction ops with
    | nil => exact fun _ => rfl
    | cons op ops ih => intro s; simp only [List.map_cons, runOps, step_units, ih]
  rw [← key]; rfl

/-- Points in the new unit with timestamps by the new clock: the transformed points are the old ones in the new unit, at the same times; errors are the same. -/
theorem C84_points (sq : SquadFn) (hsq : UnitsLaw sq) (s : State) (a : ℕ) (arr : ND ℝ) (dst : FrameRef) (o : TArgs) (h4 : NotLikeOrientations arr o)
    {k : ℝ} (hk : 0 < k) (c u : ℝ) :
    (unitsState k c u s).transformPoints sq a (scaleArr u arr) dst (unitsArgs k c o) = (s.transformPoints sq a arr dst o).map (unitsRet k c u) := by
  simp only [State.transformPoints, pointsCore_units hk hsq u s a arr dst o h4, bind, Except.bind]
  cases s.transformPointsCore sq a arr dst o with
  | error e => rfl
  | ok p =>
    obtain ⟨out, ts⟩ := p
    simp only [Except.map, unitsArgs, undoTimeSwap_scale]
    cases undoTimeSwap out o.timeAxis with
    | error e => rfl
    | ok x =>
      simp only [Except.map, Pure.pure, Except.pure, Except.ok.injEq, pyReturn]
      split <;> rfl

/-- Vectors may be of any unit `w`, also one that has nothing to do with the unit of length. -/
theorem C84_vectors (sq : SquadFn) (hsq : UnitsLaw sq) (s : State) (a : ℕ) (arr : ND ℝ) (dst : FrameRef) (o : TArgs) (h4 : NotLikeOrientations arr o)
    {k : ℝ} (hk : 0 < k) (c u w : ℝ) :
    (unitsState k c u s).transformVectors sq a (scaleArr w arr) dst (unitsArgs k c o) = (s.transformVectors sq a arr dst o).map (unitsRet k c w) := by
  simp only [State.transformVectors, vectorsCore_units hk hsq u w s a arr dst o h4, bind, Except.bind]
  cases s.transformVectorsCore sq a arr dst o with
  | error e => rfl
  | ok p =>
    obtain ⟨out, ts⟩ := p
    simp only [Except.map, unitsArgs, undoTimeSwap_scale]
    cases undoTimeSwap out o.timeAxis with
    | error e => rfl
    | ok x =>
      simp only [Except.map, Pure.pure, Except.pure, Except.ok.injEq, pyReturn]
      split <;> rfl

/-- Orientations do not depend on units. -/
theorem C84_orientations (sq : SquadFn) (hsq : UnitsLaw sq) (s : State) (a : ℕ) (arr : ND ℝ) (dst : FrameRef) (o : TArgs) {k : ℝ} (hk : 0 < k) (u : ℝ) :
    (unitsState k 0 u s).transformQuaternions sq a arr dst (unitsArgs k 0 o) = (s.transformQuaternions sq a arr dst o).map (unitsRet k 0 1) := by
  simp only [State.transformQuaternions, quaternionsCore_units hk hsq u s a arr dst o, bind, Except.bind]
  cases s.transformQuaternionsCore sq a arr dst o with
  | error e => rfl
  | ok p =>
    obtain ⟨out, ts⟩ := p
    simp only [Except.map, unitsArgs]
    cases undoTimeSwap out o.timeAxis with
    | error e => rfl
    | ok x =>
      simp only [Pure.pure, Except.pure, Except.ok.injEq, pyReturn]
      split <;> simp only [unitsRet, scaleArr_one]

theorem resolveOr_units (k c u : ℝ) (s : State) (a : ℕ) (r : Option FrameRef) : (unitsState k c u s).resolveOr a r = s.resolveOr a r := by
  simp only [State.resolveOr, resolve_units]; rfl

theorem stampArg_units (k : ℝ) (ts : List ℝ) : stampArg (some (rcL k 0 ts)) = (stampArg (some ts)).map (ND.map (reclock k 0)) := by
  simp only [stampArg, Option.map_some, Option.some.injEq, ND.vec1, ND.map, ND.mk.injEq, rcL_length, true_and]
  funext idx
  rw [rc0_getD, reclock_zero]

theorem vectorsWithTs_units {sq : SquadFn} (hsq : UnitsLaw sq) (s : State) (a : ℕ) (arr : ND ℝ) (dst : ℕ) (ts : List ℝ) {k : ℝ} (hk : 0 < k) (u w : ℝ) :
    (unitsState k 0 u s).vectorsWithTs sq a (scaleArr w arr) dst { timestamps := stampArg (some (rcL k 0 ts)) } =
      (s.vectorsWithTs sq a arr dst { timestamps := stampArg (some ts) }).map fun p => (scaleArr w p.1, p.2.map (rcL k 0)) := by
  have h := C84_vectors sq hsq s a arr (.byObj dst) { timestamps := stampArg (some ts), returnTimestamps := true } (.inr (.inl ⟨rfl, rfl⟩)) hk 0 u w
  simp only [unitsArgs, ← stampArg_units] at h
  simp only [State.vectorsWithTs, h, bind, Except.bind]
  cases s.transformVectors sq a arr (.byObj dst) { timestamps := stampArg (some ts), returnTimestamps := true } with
  | error e => rfl
  | ok r => cases r <;> rfl

theorem scale_zeros3 (w : ℝ) : scaleArr w zeros3 = zeros3 := by simp [scaleArr, ND.map, zeros3]

/-- Linear velocities are in new units of length per new unit of time. -/
theorem C84_linear_velocity (ext : Ext) (hsq : UnitsLaw ext.squad) (s : State) (a : ℕ) (reference representIn : Option FrameRef) (o : VelArgs)
    (ho : o.outlier = none) (hc : o.cutoff = none) {k : ℝ} (hk : 0 < k) (u : ℝ) :
    (unitsState k 0 u s).lookupLinearVelocity ext a reference representIn o =
      (s.lookupLinearVelocity ext a reference representIn o).map (unitsRet k 0 (u / k)) := by
  simp only [State.lookupLinearVelocity, resolveOr_units, bind, Except.bind]
  cases s.resolveOr a reference with
  | error e => rfl
  | ok ref =>
    simp only
    cases s.resolveOr a representIn with
    | error e => rfl
    | ok rep =>
      simp only [C84_lookup ext.squad hsq s a (.byObj ref) hk 0 u]
      cases s.lookupTransform ext.squad a (.byObj ref) with
      | error e => rfl
      | ok p =>
        obtain ⟨t, r, ts⟩ := p
        cases ts with
        | none =>
          simp only [Except.map, Option.map_none]
          by_cases hs : o.allowStatic = true
          · simp only [hs, if_true, Pure.pure, Except.pure, unitsRet, scale_zeros3, Option.map_none]
          · simp only [hs]; rfl
        | some ts =>
          have hl := linearRows_units hk ext u t ts o ho hc
          simp only [rcL] at hl
          simp only [Except.map, Option.map_some]
          rw [show linearRows ext (t.map (u • ·)) (ts.map (reclock k 0)) o = _ from hl]
          cases linearRows ext t ts o with
          | error e => rfl
          | ok v =>
            have hv := vectorsWithTs_units hsq s ref v rep ts hk u (u / k)
            simp only [rcL] at hv
            simp only [Except.map, hv]
            cases s.vectorsWithTs ext.squad ref v rep { timestamps := stampArg (some ts) } with
            | error e => rfl
            | ok y =>
              simp only [Pure.pure, Except.pure, pyReturn]
              split <;> rfl

/-- Angular velocities do not depend on the unit of length. -/
theorem C84_angular_velocity (ext : Ext) (hsq : UnitsLaw ext.squad) (hd : RateLaw ext) (s : State) (a : ℕ) (reference representIn : Option FrameRef) (o : VelArgs)
    (ho : o.outlier = none) (hc : o.cutoff = none) {k : ℝ} (hk : 0 < k) (u : ℝ) :
    (unitsState k 0 u s).lookupAngularVelocity ext a reference representIn o =
      (s.lookupAngularVelocity ext a reference representIn o).map (unitsRet k 0 (1 / k)) := by
  simp only [State.lookupAngularVelocity, resolveOr_units, bind, Except.bind]
  cases s.resolveOr a reference with
  | error e => rfl
  | ok ref =>
    simp only
    cases s.resolveOr a representIn with
    | error e => rfl
    | ok rep =>
      simp only [C84_lookup ext.squad hsq s a (.byObj ref) hk 0 u]
      cases s.lookupTransform ext.squad a (.byObj ref) with
      | error e => rfl
      | ok p =>
        obtain ⟨t, r, ts⟩ := p
        cases ts with
        | none =>
          simp only [Except.map, Option.map_none]
          by_cases hs : o.allowStatic = true
          · simp only [hs, if_true, Pure.pure, Except.pure, unitsRet, scale_zeros3, Option.map_none]
          · simp only [hs]; rfl
        | some ts =>
          have hl := angularRows_units hk hd r ts o ho hc
          simp only [rcL] at hl
          simp only [Except.map, Option.map_some]
          rw [show angularRows ext r (ts.map (reclock k 0)) o = _ from hl]
          cases angularRows ext r ts o with
          | error e => rfl
          | ok v =>
            have hv := vectorsWithTs_units hsq s a v rep ts hk u (1 / k)
            simp only [rcL] at hv
            simp only [Except.map, hv]
            cases s.vectorsWithTs ext.squad a v rep { timestamps := stampArg (some ts) } with
            | error e => rfl
            | ok y =>
              simp only [Pure.pure, Except.pure, pyReturn]
              split <;> rfl

/-! ### The contracts can be met -/

theorem holdSquad_units : UnitsLaw Ex.holdSquad := by
  intro k c qs xs τ hk
  simp only [Ex.holdSquad]
  congr 1
  induction xs generalizing qs with
  | nil => simp
  | cons x xs ih =>
    cases qs with
    | nil => simp
    | cons q qs =>
      simp only [List.map_cons, List.zip_cons_cons, List.find?_cons, reclock_inj hk]
      by_cases h : x = τ
      · simp only [h, decide_true, Option.map_some]
      · simp only [h, decide_false, Option.map_none]
        exact ih qs

theorem ext_rate : RateLaw Ex.ext := by
  refine ⟨fun k ys xs i hk => ?_, fun k xs _ => ?_⟩
  · have := gradAt_units hk 1 xs ys i
    simp only [one_mul, List.map_id'] at this
    exact this
  · show (if (xs.map (reclock k 0)).length < 2 then _ else _) = _
    rw [List.length_map]; rfl

/-- Meters to millimeters, seconds to nanoseconds since another epoch. -/
example : (unitsState 1000000000 42 1000 Ex.m3).lookupTransform Ex.holdSquad 1 (.byObj 2) =
    (Ex.m3.lookupTransform Ex.holdSquad 1 (.byObj 2)).map fun p => (p.1.map ((1000 : ℝ) • ·), p.2.1, p.2.2.map (List.map (reclock 1000000000 42))) :=
  C84_lookup _ holdSquad_units _ _ _ (by norm_num) _ _

/-- The program that builds the example, with the last frame's translation in millimeters. -/
example : runOps .init ([.registerFrame (some "world") none {} false, .registerFrame (some "u") (some (.byName "world")) Ex.argsU false].map (unitsOp 1 0 1000)) =
    unitsState 1 0 1000 Ex.u2 := C84_program _ _ _ _

/-- The frame that moves two meters per second. -/
example : (unitsState 60 0 100 Ex.u2).lookupLinearVelocity Ex.ext 1 none none {} = (Ex.u2.lookupLinearVelocity Ex.ext 1 none none {}).map (unitsRet 60 0 (100 / 60)) ∧
    (unitsState 60 0 100 Ex.u2).lookupAngularVelocity Ex.ext 1 none none {} = (Ex.u2.lookupAngularVelocity Ex.ext 1 none none {}).map (unitsRet 60 0 (1 / 60)) :=
  ⟨C84_linear_velocity _ holdSquad_units _ _ _ _ _ rfl rfl (by norm_num) _, C84_angular_velocity _ holdSquad_units ext_rate _ _ _ _ _ rfl rfl (by norm_num) _⟩

/-- Points with timestamps and default axes. -/
example (arr ts : ND ℝ) : NotLikeOrientations arr { timestamps := some ts } := .inr (.inl ⟨rfl, rfl⟩)

end RBM.Props
