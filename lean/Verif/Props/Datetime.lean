import Verif.Lemmas.Datetime
import Verif.Props.VelocityTransform
import Verif.Props.CoordSystems
import Verif.Props.ExamplesVelocity

/-!
C89: `datetime64` timestamps. Velocities are per second whenever the timestamps count nanoseconds; counts of another unit are taken for nanoseconds.
-/

namespace RBM.Props

open RBM RBM.Spec

/-! ### Timestamps that are plain numbers -/

/-- Timestamps that are plain numbers: the functions are those of the other properties. -/
theorem C89_plain (ext : Ext) (x : XrOps) (s : State) (a : ℕ) (ref rep : Option FrameRef) (v : VelArgs) (arr : ND ℝ) (dst : FrameRef) (what : String)
    (mf rf : Option FrameRef) (o : TArgs) (outlier cutoff : Option ℝ) (p : PyArr) (dim : Option String) (axis timeAxis : Option ℤ) (ts : TsArg) (mode : String) :
    s.lookupTwistDt ext false a ref rep v = s.lookupTwist ext a ref rep v ∧
    s.lookupLinearVelocityDt ext false a ref rep v = s.lookupLinearVelocity ext a ref rep v ∧
    s.lookupAngularVelocityDt ext false a ref rep v = s.lookupAngularVelocity ext a ref rep v ∧
    s.transformAngularVelocityDt ext false a arr dst what o cutoff = s.transformAngularVelocity ext a arr dst what o cutoff ∧
    s.transformLinearVelocityDt ext false a arr dst what mf rf o outlier cutoff = s.transformLinearVelocity ext a arr dst what mf rf o outlier cutoff ∧
    estimateLinearVelocityDt ext x false p dim axis ts timeAxis outlier cutoff = estimateLinearVelocity ext x p dim axis ts timeAxis outlier cutoff ∧
    estimateAngularVelocityDt ext x false p dim axis ts timeAxis mode outlier cutoff =
      estimateAngularVelocity ext x p dim axis ts timeAxis mode outlier cutoff :=
  ⟨rfl, rfl, rfl, rfl, rfl, rfl, rfl⟩

/-! ### The same frames with `datetime64[ns]` timestamps -/

/-- The program that builds the frames, all its timestamps counted in ticks. -/
theorem C89_program (ops : List Op) (k : ℝ) : runOps .init (ops.map (ticksOp k)) = ticksState k (runOps .init ops) := by
  rw [ticksOp_units, ticksState_units]; exact C84_program ops k 0 1

/-- Poses do not depend on the unit of the timestamps; those of the result are in that unit. -/
theorem C89_lookup (sq : SquadFn) (hsq : UnitsLaw sq) (s : State) (a : ℕ) (dst : FrameRef) {k : ℝ} (hk : 0 < k) :
    (ticksState k s).lookupTransform sq a dst = (s.lookupTransform sq a dst).map fun p => (p.1, p.2.1, p.2.2.map (ticks k)) := lookup_ticks hk hsq s a dst

theorem resolveOr_ticks (k : ℝ) (s : State) (a : ℕ) (r : Option FrameRef) : (ticksState k s).resolveOr a r = s.resolveOr a r := by
  rw [ticksState_units]; exact resolveOr_units k 0 1 s a r

private theorem ns : (0 : ℝ) < 1000000000 := by norm_num

private theorem linearRows_ns (ext : Ext) (t : Arr Vec) (ts : List ℝ) (o : VelArgs) :
    linearRowsDt ext true t (ticks 1000000000 ts) o = linearRows ext t ts o := by
  simp only [linearRowsDt, estimateLinearDt, inSeconds_ticks]; rfl

private theorem angularRows_ns (ext : Ext) (r : Arr Quat) (ts : List ℝ) (o : VelArgs) :
    angularRowsDt ext true r (ticks 1000000000 ts) o = angularRows ext r ts o := by
  simp only [angularRowsDt, estimateAngularDt, inSeconds_ticks]; rfl

/-- Linear velocities of frames with timestamps in nanoseconds are those of the same frames with timestamps in seconds, with every option. -/
theorem C89_linear_velocity (ext : Ext) (hsq : UnitsLaw ext.squad) (s : State) (a : ℕ) (reference representIn : Option FrameRef) (o : VelArgs) :
    (ticksState 1000000000 s).lookupLinearVelocityDt ext true a reference representIn o =
      (s.lookupLinearVelocity ext a reference representIn o).map (ticksRet 1000000000) := by
  simp only [State.lookupLinearVelocityDt, State.lookupLinearVelocity, resolveOr_ticks, bind, Except.bind]
  cases s.resolveOr a reference with
  | error e => rfl
  | ok ref =>
    simp only
    cases s.resolveOr a representIn with
    | error e => rfl
    | ok rep =>
      simp only [lookup_ticks ns hsq]
      cases s.lookupTransform ext.squad a (.byObj ref) with
      | error e => rfl
      | ok p =>
        obtain ⟨t, r, ts⟩ := p
        cases ts with
        | none =>
          simp only [Except.map, Option.map_none]
          by_cases hs : o.allowStatic = true
          · simp only [hs, if_true, Pure.pure, Except.pure, ticksRet, Option.map_none]
          · simp only [hs]; rfl
        | some ts =>
          simp only [Except.map, Option.map_some, linearRows_ns]
          cases linearRows ext t ts o with
          | error e => rfl
          | ok v =>
            have hv := vectorsWithTs_ticks ns hsq s ref v rep (some ts)
            simp only [Option.map_some] at hv
            simp only [hv]
            cases s.vectorsWithTs ext.squad ref v rep { timestamps := stampArg (some ts) } with
            | error e => rfl
            | ok y =>
              simp only [Except.map, Pure.pure, Except.pure, pyReturn]
              split <;> rfl

/-- Angular velocities alike. -/
theorem C89_angular_velocity (ext : Ext) (hsq : UnitsLaw ext.squad) (s : State) (a : ℕ) (reference representIn : Option FrameRef) (o : VelArgs) :
    (ticksState 1000000000 s).lookupAngularVelocityDt ext true a reference representIn o =
      (s.lookupAngularVelocity ext a reference representIn o).map (ticksRet 1000000000) := by
  simp only [State.lookupAngularVelocityDt, State.lookupAngularVelocity, resolveOr_ticks, bind, Except.bind]
  cases s.resolveOr a reference with
  | error e => rfl
  | ok ref =>
    simp only
    cases s.resolveOr a representIn with
    | error e => rfl
    | ok rep =>
      simp only [lookup_ticks ns hsq]
      cases s.lookupTransform ext.squad a (.byObj ref) with
      | error e => rfl
      | ok p =>
        obtain ⟨t, r, ts⟩ := p
        cases ts with
        | none =>
          simp only [Except.map, Option.map_none]
          by_cases hs : o.allowStatic = true
          · simp only [hs, if_true, Pure.pure, Except.pure, ticksRet, Option.map_none]
          · simp only [hs]; rfl
        | some ts =>
          simp only [Except.map, Option.map_some, angularRows_ns]
          cases angularRows ext r ts o with
          | error e => rfl
          | ok v =>
            have hv := vectorsWithTs_ticks ns hsq s a v rep (some ts)
            simp only [Option.map_some] at hv
            simp only [hv]
            cases s.vectorsWithTs ext.squad a v rep { timestamps := stampArg (some ts) } with
            | error e => rfl
            | ok y =>
              simp only [Except.map, Pure.pure, Except.pure, pyReturn]
              split <;> rfl

/-- And twists. -/
theorem C89_twist (ext : Ext) (hsq : UnitsLaw ext.squad) (s : State) (a : ℕ) (reference representIn : Option FrameRef) (o : VelArgs) :
    (ticksState 1000000000 s).lookupTwistDt ext true a reference representIn o =
      (s.lookupTwist ext a reference representIn o).map (ticksTwist 1000000000) := by
  simp only [State.lookupTwistDt, State.lookupTwist, resolveOr_ticks, bind, Except.bind]
  cases s.resolveOr a reference with
  | error e => rfl
  | ok ref =>
    simp only
    cases s.resolveOr a representIn with
    | error e => rfl
    | ok rep =>
      simp only [lookup_ticks ns hsq]
      cases s.lookupTransform ext.squad a (.byObj ref) with
      | error e => rfl
      | ok p =>
        obtain ⟨t, r, ts⟩ := p
        cases ts with
        | none =>
          simp only [Except.map, Option.map_none]
          by_cases hs : o.allowStatic = true
          · simp only [hs, if_true, Pure.pure, Except.pure, ticksTwist, Option.map_none]
          · simp only [hs]; rfl
        | some ts =>
          simp only [Except.map, Option.map_some, linearRows_ns, angularRows_ns]
          cases linearRows ext t ts o with
          | error e => rfl
          | ok v =>
            simp only
            cases angularRows ext r ts { o with outlier := none } with
            | error e => rfl
            | ok w =>
              have hv := vectorsWithTs_ticks ns hsq s ref v rep (some ts)
              have hw := vectorsWithTs_ticks ns hsq s a w rep (some ts)
              simp only [Option.map_some] at hv hw
              simp only [hv, hw]
              cases s.vectorsWithTs ext.squad ref v rep { timestamps := stampArg (some ts) } with
              | error e => rfl
              | ok y =>
                simp only [Except.map]
                cases s.vectorsWithTs ext.squad a w rep { timestamps := stampArg (some ts) } with
                | error e => rfl
                | ok z =>
                  have hm := matchArrays_ticks ns hsq [⟨z.1, z.2⟩, ⟨y.1, y.2⟩]
                  simp only [List.map_cons, List.map_nil] at hm
                  simp only [hm]
                  cases matchArrays ext.squad [⟨z.1, z.2⟩, ⟨y.1, y.2⟩] with
                  | error e => rfl
                  | ok q =>
                    obtain ⟨l, tts⟩ := q
                    simp only [Except.map]
                    match l with
                    | [] => rfl
                    | [_] => rfl
                    | [_, _] =>
                      simp only [Pure.pure, Except.pure]
                      split <;> rfl
                    | _ :: _ :: _ :: _ => rfl

theorem unpackPair_ticks (k : ℝ) (r : Res PyRet) : unpackPair (r.map (ticksRet k)) = (unpackPair r).map fun p => (p.1, p.2.map (ticks k)) := by
  cases r with
  | error e => rfl
  | ok r => cases r <;> rfl

theorem unpackTriple_ticks (k : ℝ) (r : Res TwistRet) :
    unpackTriple (r.map (ticksTwist k)) = (unpackTriple r).map fun p => (p.1, p.2.1, p.2.2.map (ticks k)) := by
  cases r with
  | error e => rfl
  | ok r => cases r <;> rfl

theorem vectors_pair {sq : SquadFn} (hsq : UnitsLaw sq) (s : State) (a : ℕ) (arr : ND ℝ) (dst : FrameRef) (o : TArgs) {k : ℝ} (hk : 0 < k) :
    unpackPair ((ticksState k s).transformVectors sq a arr dst { ticksArgs k o with returnTimestamps := true }) =
      (unpackPair (s.transformVectors sq a arr dst { o with returnTimestamps := true })).map fun p => (p.1, p.2.map (ticks k)) := by
  have h := vectors_ticks hk hsq s a arr dst { o with returnTimestamps := true }
  rw [← unpackPair_ticks, ← h]; rfl

theorem addAngular_ticks {ext : Ext} (hsq : UnitsLaw ext.squad) (s : State) (a : ℕ) (arr : ND ℝ) (dst : FrameRef) (o : TArgs) (ang : ND ℝ)
    (ts : Option (List ℝ)) {k : ℝ} (hk : 0 < k) :
    (ticksState k s).addAngular ext a arr dst (ticksArgs k o) ang (ts.map (ticks k)) = (s.addAngular ext a arr dst o ang ts).map (ticksRet k) := by
  simp only [State.addAngular, vectors_pair hsq s a arr dst o hk, bind, Except.bind]
  cases unpackPair (s.transformVectors ext.squad a arr dst { o with returnTimestamps := true }) with
  | error e => rfl
  | ok p =>
    have hm := matchArrays_ticks hk hsq [⟨p.1, p.2⟩, ⟨ang, ts⟩]
    simp only [List.map_cons, List.map_nil] at hm
    simp only [Except.map, hm]
    cases matchArrays ext.squad [⟨p.1, p.2⟩, ⟨ang, ts⟩] with
    | error e => rfl
    | ok q =>
      obtain ⟨l, tts⟩ := q
      simp only [Except.map]
      match l with
      | [] => rfl
      | [_] => rfl
      | [x, y] =>
        simp only [ticksArgs]
        cases ND.iadd x y with
        | error e => rfl
        | ok z => simp only [Pure.pure, Except.pure, pyReturn]; split <;> rfl
      | _ :: _ :: _ :: _ => rfl

theorem addLinear_ticks {ext : Ext} (hsq : UnitsLaw ext.squad) (s : State) (a : ℕ) (arr : ND ℝ) (dst : FrameRef) (o : TArgs) (lin ang : ND ℝ)
    (lts ats : Option (List ℝ)) (tr : Arr Vec) (tts : Option (List ℝ)) {k : ℝ} (hk : 0 < k) :
    (ticksState k s).addLinear ext a arr dst (ticksArgs k o) lin ang (lts.map (ticks k)) (ats.map (ticks k)) tr (tts.map (ticks k)) =
      (s.addLinear ext a arr dst o lin ang lts ats tr tts).map (ticksRet k) := by
  have hv := vectors_pair hsq s a (ND.ofVecs tr) dst { timestamps := stampArg tts, returnTimestamps := true } hk
  simp only [ticksArgs, ← stampArg_ticks hk] at hv
  simp only [State.addLinear, vectors_pair hsq s a arr dst o hk, hv, bind, Except.bind]
  cases unpackPair (s.transformVectors ext.squad a arr dst { o with returnTimestamps := true }) with
  | error e => rfl
  | ok p =>
    simp only [Except.map]
    cases unpackPair (s.transformVectors ext.squad a (ND.ofVecs tr) dst { timestamps := stampArg tts, returnTimestamps := true }) with
    | error e => rfl
    | ok p' =>
      have hm := matchArrays_ticks hk hsq [⟨p.1, p.2⟩, ⟨lin, lts⟩, ⟨ang, ats⟩, ⟨p'.1, p'.2⟩]
      simp only [List.map_cons, List.map_nil] at hm
      simp only [Except.map, hm]
      cases matchArrays ext.squad [⟨p.1, p.2⟩, ⟨lin, lts⟩, ⟨ang, ats⟩, ⟨p'.1, p'.2⟩] with
      | error e => rfl
      | ok q =>
        obtain ⟨l, tts⟩ := q
        simp only [Except.map]
        match l with
        | [] => rfl
        | [_] => rfl
        | [_, _] => rfl
        | [_, _, _] => rfl
        | [x, y, z, w] =>
          simp only [ticksArgs]
          cases ND.bop (fun x y => x + y) x y with
          | error e => rfl
          | ok b =>
            simp only
            cases npCross z w (-1) with
            | error e => rfl
            | ok c =>
              simp only
              cases ND.bop (fun x y => x + y) b c with
              | error e => rfl
              | ok z => simp only [Pure.pure, Except.pure, pyReturn]; split <;> rfl
        | _ :: _ :: _ :: _ :: _ :: _ => rfl

theorem resolve_ticks (k : ℝ) (s : State) (r : FrameRef) : (ticksState k s).resolve r = s.resolve r := by
  rw [ticksState_units]; exact resolve_units k 0 1 s r

/-- Angular velocities transformed between frames with timestamps in nanoseconds. -/
theorem C89_transform_angular (ext : Ext) (hsq : UnitsLaw ext.squad) (s : State) (a : ℕ) (arr : ND ℝ) (dst : FrameRef) (what : String) (o : TArgs)
    (cutoff : Option ℝ) :
    (ticksState 1000000000 s).transformAngularVelocityDt ext true a arr dst what (ticksArgs 1000000000 o) cutoff =
      (s.transformAngularVelocity ext a arr dst what o cutoff).map (ticksRet 1000000000) := by
  simp only [State.transformAngularVelocityDt, State.transformAngularVelocity, C89_angular_velocity ext hsq, unpackPair_ticks, resolve_ticks, bind, Except.bind]
  by_cases h1 : what = "reference_frame"
  · rw [if_pos h1, if_pos h1]
    cases unpackPair (s.lookupAngularVelocity ext a (some dst) (some dst) { cutoff := cutoff, allowStatic := true, returnTimestamps := true }) with
    | error e => rfl
    | ok p => exact addAngular_ticks hsq s a arr dst o p.1 p.2 ns
  · rw [if_neg h1, if_neg h1]
    by_cases h2 : what = "moving_frame"
    · rw [if_pos h2, if_pos h2]
      cases s.resolve dst with
      | error e => rfl
      | ok b =>
        simp only
        cases unpackPair (s.lookupAngularVelocity ext b (some (.byObj a)) (some dst) { cutoff := cutoff, allowStatic := true, returnTimestamps := true }) with
        | error e => rfl
        | ok p => exact addAngular_ticks hsq s a arr dst o p.1 p.2 ns
    · rw [if_neg h2, if_neg h2]
      by_cases h3 : what = "representation_frame"
      · rw [if_pos h3, if_pos h3]; exact vectors_ticks ns hsq s a arr dst o
      · rw [if_neg h3, if_neg h3]; rfl

/-- Linear velocities transformed between frames with timestamps in nanoseconds. -/
theorem C89_transform_linear (ext : Ext) (hsq : UnitsLaw ext.squad) (s : State) (a : ℕ) (arr : ND ℝ) (dst : FrameRef) (what : String)
    (mf rf : Option FrameRef) (o : TArgs) (outlier cutoff : Option ℝ) :
    (ticksState 1000000000 s).transformLinearVelocityDt ext true a arr dst what mf rf (ticksArgs 1000000000 o) outlier cutoff =
      (s.transformLinearVelocity ext a arr dst what mf rf o outlier cutoff).map (ticksRet 1000000000) := by
  have hr : (ticksState 1000000000 s).resolveOpt mf = s.resolveOpt mf := by cases mf <;> simp only [State.resolveOpt, resolve_ticks]
  simp only [State.transformLinearVelocityDt, State.transformLinearVelocity, C89_twist ext hsq, C89_linear_velocity ext hsq, C89_angular_velocity ext hsq,
    unpackPair_ticks, unpackTriple_ticks, resolve_ticks, hr, lookup_ticks ns hsq, bind, Except.bind]
  by_cases h1 : what = "reference_frame"
  · rw [if_pos h1, if_pos h1]
    cases unpackTriple (s.lookupTwist ext a (some dst) (some dst) { cutoff := cutoff, outlier := outlier, allowStatic := true, returnTimestamps := true }) with
    | error e => rfl
    | ok p =>
      simp only [Except.map]
      cases s.resolveOpt mf with
      | error e => rfl
      | ok m =>
        simp only
        cases s.lookupTransform ext.squad m (.byObj a) with
        | error e => rfl
        | ok q => exact addLinear_ticks hsq s a arr dst o p.1 p.2.1 p.2.2 p.2.2 q.1 q.2.2 ns
  · rw [if_neg h1, if_neg h1]
    by_cases h2 : what = "moving_frame"
    · rw [if_pos h2, if_pos h2]
      cases s.resolve dst with
      | error e => rfl
      | ok b =>
        simp only
        cases unpackPair (s.lookupLinearVelocity ext b (some (.byObj a)) (some (.byObj b))
            { cutoff := cutoff, outlier := outlier, allowStatic := true, returnTimestamps := true }) with
        | error e => rfl
        | ok p =>
          simp only [Except.map]
          cases unpackPair (s.lookupAngularVelocity ext a rf (some (.byObj b)) { cutoff := cutoff, allowStatic := true, returnTimestamps := true }) with
          | error e => rfl
          | ok w =>
            simp only
            cases s.lookupTransform ext.squad b (.byObj a) with
            | error e => rfl
            | ok q => exact addLinear_ticks hsq s a arr (.byObj b) o p.1 w.1 p.2 w.2 q.1 q.2.2 ns
    · rw [if_neg h2, if_neg h2]
      by_cases h3 : what = "representation_frame"
      · rw [if_pos h3, if_pos h3]; exact vectors_ticks ns hsq s a arr dst o
      · rw [if_neg h3, if_neg h3]; rfl

/-! ### The estimators -/

theorem stampList_ns (a : ND ℝ) :
    (stampList (some (a.map ((1000000000 : ℝ) * ·)))).map (inSeconds true) = (stampList (some a)) := by
  simp only [stampList, ND.map]
  match a.shape with
  | [] => rfl
  | [n] =>
    simp only [Except.map, Except.ok.injEq]
    have := inSeconds_ticks ((List.range n).map fun i => a.get [i])
    simp only [ticks, List.map_map] at this
    exact this
  | _ :: _ :: _ => rfl

/-- Plain arrays with timestamps in nanoseconds, with every option. -/
theorem C89_estimates (ext : Ext) (x : XrOps) (arr ts : ND ℝ) (dim : Option String) (axis timeAxis : Option ℤ) (mode : String) (outlier cutoff : Option ℝ) :
    estimateLinearVelocityDt ext x true (.nd arr) dim axis (.arr (ts.map ((1000000000 : ℝ) * ·))) timeAxis outlier cutoff =
      estimateLinearVelocity ext x (.nd arr) dim axis (.arr ts) timeAxis outlier cutoff ∧
    estimateAngularVelocityDt ext x true (.nd arr) dim axis (.arr (ts.map ((1000000000 : ℝ) * ·))) timeAxis mode outlier cutoff =
      estimateAngularVelocity ext x (.nd arr) dim axis (.arr ts) timeAxis mode outlier cutoff := by
  have h := stampList_ns ts
  cases dim with
  | some _ => exact ⟨rfl, rfl⟩
  | none =>
    simp only [estimateLinearVelocityDt, estimateLinearVelocity, estimateAngularVelocityDt, estimateAngularVelocity, maybeUnpack, checkAxes, bind, Except.bind]
    by_cases h0 : arr.ndim = 0
    · simp only [if_pos h0, and_self]
    · simp only [if_neg h0]
      by_cases h1 : orDefault axis (-1) % (arr.ndim : ℤ) = orDefault timeAxis 0 % (arr.ndim : ℤ)
      · simp only [if_pos h1, and_self]
      · simp only [if_neg h1]
        rw [← h]
        cases stampList (some (ts.map ((1000000000 : ℝ) * ·))) <;> exact ⟨rfl, rfl⟩

theorem dictGet_ticks (k : ℝ) (td : String) (m : Meta) : dictGet (ticksMeta k td m).coords td = (dictGet m.coords td).map (ticksCoord k) := by
  simp only [ticksMeta, dictGet]
  induction m.coords with
  | nil => rfl
  | cons c l ih =>
    obtain ⟨n, c⟩ := c
    by_cases h : n = td
    · subst h; simp
    · have : (td == n) = false := by simpa using Ne.symm h
      simp only [List.map_cons, h, if_false, List.lookup_cons, this]
      exact ih

theorem entries_map (f : ℝ → ℝ) (a : ND ℝ) : (a.map f).entries = a.entries.map f := by
  simp only [ND.entries, ND.map, List.map_map]; rfl

theorem ticksCoord_shape (k : ℝ) (c : Coord) : (ticksCoord k c).dims = c.dims ∧ (ticksCoord k c).vals.shape = c.vals.shape := by
  obtain ⟨d, v⟩ := c
  cases v <;> exact ⟨rfl, rfl⟩

theorem mkDArr_ticks (k : ℝ) (td : String) (arr : ND ℝ) (m : Meta) : mkDArr arr (ticksMeta k td m) = (mkDArr arr m).map (ticksDArr k td) := by
  have h : (ticksMeta k td m).coords.all (fun c => decide ((∀ x ∈ c.2.dims, x ∈ m.dims) ∧
      c.2.vals.shape = c.2.dims.map fun x => arr.shape.getD (m.dims.idxOf x) 0)) = m.coords.all (fun c => decide ((∀ x ∈ c.2.dims, x ∈ m.dims) ∧
      c.2.vals.shape = c.2.dims.map fun x => arr.shape.getD (m.dims.idxOf x) 0)) := by
    simp only [ticksMeta]
    induction m.coords with
    | nil => rfl
    | cons c l ih =>
      simp only [List.map_cons, List.all_cons, ih]
      congr 1
      by_cases e : c.1 = td
      · simp only [if_pos e, ticksCoord_shape]
      · simp only [if_neg e]
  simp only [mkDArr, show (ticksMeta k td m).dims = m.dims from rfl, h]
  split
  · rfl
  · split <;> rfl

theorem mkEst_ticks (x : XrOps) (k : ℝ) (td : String) (v : ND (Option ℝ)) (m : Meta) (t : ND ℝ)
    (h : dictGet m.coords td = none ∨ (∃ d a, dictGet m.coords td = some ⟨d, .lab a⟩) ∨ ∃ d, dictGet m.coords td = some ⟨d, .num t⟩) :
    mkEst x v (ticksMeta k td m) (some td) (.arr (t.map (k * ·))) = (mkEst x v m (some td) (.arr t)).map (ticksEst k td) := by
  simp only [mkEst, makeDataArray, dictGet_ticks, bind, Except.bind]
  obtain h | ⟨d, a, h⟩ | ⟨d, h⟩ := h
  · simp only [h]; rfl
  · simp only [h]; rfl
  · simp only [h, Option.map_some, ticksCoord, if_true, mkDArr_ticks]
    cases mkDArr (v.map fun o => o.getD 0) m <;> rfl

theorem dictSet_ticks (k : ℝ) (td nd : String) (labels : List String) (l : List (String × Coord)) :
    dictSet (l.map fun c => if c.1 = td then (c.1, ticksCoord k c.2) else c) nd (labelCoord nd labels) =
      (dictSet l nd (labelCoord nd labels)).map fun c => if c.1 = td then (c.1, ticksCoord k c.2) else c := by
  have hl : ticksCoord k (labelCoord nd labels) = labelCoord nd labels := rfl
  induction l with
  | nil => simp only [List.map_nil, dictSet, List.map_cons, hl, ite_self]
  | cons c l ih =>
    obtain ⟨n, c⟩ := c
    by_cases e : n = td
    · simp only [List.map_cons, if_pos e, dictSet]
      by_cases e' : n = nd
      · simp only [if_pos e', List.map_cons, hl, ite_self]
      · simp only [if_neg e', List.map_cons, if_pos e, ih]
    · simp only [List.map_cons, if_neg e, dictSet]
      by_cases e' : n = nd
      · simp only [if_pos e', List.map_cons, hl, ite_self]
      · simp only [if_neg e', List.map_cons, if_neg e, ih]

theorem filter_ticks (k : ℝ) (td old : String) (l : List (String × Coord)) :
    (l.map fun c => if c.1 = td then (c.1, ticksCoord k c.2) else c).filter (fun c => decide (old ∉ c.2.dims)) =
      (l.filter fun c => decide (old ∉ c.2.dims)).map fun c => if c.1 = td then (c.1, ticksCoord k c.2) else c := by
  induction l with
  | nil => rfl
  | cons c l ih =>
    obtain ⟨n, c⟩ := c
    by_cases e : n = td
    · simp only [List.map_cons, if_pos e, List.filter_cons, ticksCoord_shape, ih]
      by_cases h : old ∈ c.dims
      · simp [h]
      · simp [h, e]
    · simp only [List.map_cons, if_neg e, List.filter_cons, ih]
      by_cases h : old ∈ c.dims
      · simp [h]
      · simp [h, e]

theorem replaceDim_ticks (k : ℝ) (td : String) (m : Meta) (axis : ℤ) (into : String) (n : ℕ) :
    replaceDim (ticksMeta k td m) axis into n = (replaceDim m axis into n).map (ticksMeta k td) := by
  simp only [replaceDim, show (ticksMeta k td m).dims = m.dims from rfl, bind, Except.bind]
  cases tupleGet m.dims axis with
  | error e => rfl
  | ok old =>
    simp only
    cases newDim into n with
    | error e => rfl
    | ok p =>
      simp only [Pure.pure, Except.pure, Except.map, ticksMeta, filter_ticks, dictSet_ticks]

theorem replaceDim_coord {m m' : Meta} {axis : ℤ} {into : String} {n : ℕ} (h : replaceDim m axis into n = .ok m') (hn : (m.coords.map Prod.fst).Nodup)
    {td : String} {d : List String} {t : ND ℝ} (hc : dictGet m.coords td = some ⟨d, .num t⟩) :
    dictGet m'.coords td = none ∨ (∃ d a, dictGet m'.coords td = some ⟨d, .lab a⟩) ∨ ∃ d, dictGet m'.coords td = some ⟨d, .num t⟩ := by
  simp only [replaceDim, bind, Except.bind] at h
  cases ht : tupleGet m.dims axis with
  | error e => rw [ht] at h; cases h
  | ok old =>
    rw [ht] at h
    simp only at h
    cases hd : newDim into n with
    | error e => rw [hd] at h; cases h
    | ok p =>
      rw [hd] at h
      simp only [Pure.pure, Except.pure, Except.ok.injEq] at h
      subst h
      simp only [dictGet_set]
      by_cases e : p.1 = td
      · rw [if_pos e]; exact .inr (.inl ⟨_, _, rfl⟩)
      · rw [if_neg e, dictGet_filter (fun c => decide (old ∉ c.dims)) td _ hn, hc]
        by_cases ho : old ∈ d
        · exact .inl (by simp [Option.filter, ho])
        · exact .inr (.inr ⟨d, by simp [Option.filter, ho]⟩)

/-- DataArrays with a time coordinate in nanoseconds: the same estimates, the coordinate of the result is in nanoseconds. -/
theorem C89_labelled (ext : Ext) (x : XrOps) (d : DArr) (hn : (d.info.coords.map Prod.fst).Nodup) {td : String} (hc : dictGet d.info.coords td ≠ none)
    (dim : Option String) (axis timeAxis : Option ℤ) (mode : String) (outlier cutoff : Option ℝ) :
    estimateLinearVelocityDt ext x true (.da (ticksDArr 1000000000 td d)) dim axis (.name td) timeAxis outlier cutoff =
      (estimateLinearVelocity ext x (.da d) dim axis (.name td) timeAxis outlier cutoff).map (ticksEst 1000000000 td) ∧
    estimateAngularVelocityDt ext x true (.da (ticksDArr 1000000000 td d)) dim axis (.name td) timeAxis mode outlier cutoff =
      (estimateAngularVelocity ext x (.da d) dim axis (.name td) timeAxis mode outlier cutoff).map (ticksEst 1000000000 td) := by
  have hu : unpackAxis (ticksDArr 1000000000 td d) dim axis = unpackAxis d dim axis := rfl
  simp only [estimateLinearVelocityDt, estimateLinearVelocity, estimateAngularVelocityDt, estimateAngularVelocity, maybeUnpack, hu, bind, Except.bind]
  cases unpackAxis d dim axis with
  | error e => exact ⟨rfl, rfl⟩
  | ok p =>
    simp only [unpackTime, show (ticksDArr 1000000000 td d).info.dims = d.info.dims from rfl, bind, Except.bind]
    cases tupleIndex d.info.dims td with
    | error e => exact ⟨rfl, rfl⟩
    | ok i =>
      have hcoord : dictGet (ticksDArr 1000000000 td d).info.coords td = (dictGet d.info.coords td).map (ticksCoord 1000000000) := dictGet_ticks _ _ _
      simp only [DArr.dimCoord, hcoord]
      cases hg : dictGet d.info.coords td with
      | none => exact absurd hg hc
      | some c =>
        obtain ⟨cd, cv⟩ := c
        cases cv with
        | lab a => exact ⟨rfl, rfl⟩
        | num t =>
          simp only [Option.map_some, ticksCoord, Pure.pure, Except.pure, checkAxes, show (ticksDArr 1000000000 td d).data = d.data from rfl]
          by_cases h0 : d.data.ndim = 0
          · simp only [if_pos h0]; exact ⟨rfl, rfl⟩
          · simp only [if_neg h0]
            by_cases h1 : p.1 % (d.data.ndim : ℤ) = (i : ℤ) % (d.data.ndim : ℤ)
            · simp only [if_pos h1]; exact ⟨rfl, rfl⟩
            · have h := stampList_ns t
              simp only [if_neg h1]
              rw [← h]
              cases stampList (some (t.map ((1000000000 : ℝ) * ·))) with
              | error e => exact ⟨rfl, rfl⟩
              | ok ts =>
                simp only [Except.map, estimateLinearDt, estimateAngularDt]
                constructor
                · cases estimateLinear ext d.data (inSeconds true ts) (some (i : ℤ) |>.getD 0) outlier cutoff with
                  | error e => rfl
                  | ok v => exact mkEst_ticks x _ td v d.info t (.inr (.inr ⟨cd, hg⟩))
                · cases estimateAngular ext d.data (inSeconds true ts) p.1 (some (i : ℤ) |>.getD 0) mode outlier cutoff with
                  | error e => rfl
                  | ok v =>
                    have hr := replaceDim_ticks 1000000000 td d.info p.1 "cartesian" 3
                    simp only [show (ticksDArr 1000000000 td d).info = ticksMeta 1000000000 td d.info from rfl, hr]
                    cases hm : replaceDim d.info p.1 "cartesian" 3 with
                    | error e => rfl
                    | ok m => exact mkEst_ticks x _ td v m t (replaceDim_coord hm hn hg)

/-! ### Other units than nanoseconds -/

private theorem kpos {k : ℝ} (hk : 0 < k) : 0 < k / 1000000000 := by positivity

private theorem map_one_arr (t : Arr Vec) : t = t.map ((1 : ℝ) • ·) := (arr_map_one t).symm

private theorem kinv {k : ℝ} : 1 / (k / 1000000000) = 1000000000 / k := by rw [one_div_div]

/-- Frames with `k` ticks per second, `datetime64[us]` for instance: linear velocities are too large by a factor of `1000000000 / k`. -/
theorem C89_other_unit (ext : Ext) (hsq : UnitsLaw ext.squad) (s : State) (a : ℕ) (reference representIn : Option FrameRef) (o : VelArgs)
    (ho : o.outlier = none) (hc : o.cutoff = none) {k : ℝ} (hk : 0 < k) :
    (ticksState k s).lookupLinearVelocityDt ext true a reference representIn o =
      (s.lookupLinearVelocity ext a reference representIn o).map (unitsRet k 0 (1000000000 / k)) := by
  simp only [State.lookupLinearVelocityDt, State.lookupLinearVelocity, resolveOr_ticks, bind, Except.bind]
  cases s.resolveOr a reference with
  | error e => rfl
  | ok ref =>
    simp only
    cases s.resolveOr a representIn with
    | error e => rfl
    | ok rep =>
      simp only [lookup_ticks hk hsq]
      cases s.lookupTransform ext.squad a (.byObj ref) with
      | error e => rfl
      | ok p =>
        obtain ⟨t, r, ts⟩ := p
        cases ts with
        | none =>
          simp only [Except.map, Option.map_none]
          by_cases hs : o.allowStatic = true
          · simp only [hs, if_true, Pure.pure, Except.pure, unitsRet, scale_zeros3, Option.map_none]
          · simp only [hs]; rfl
        | some ts =>
          have hl : linearRowsDt ext true t (ticks k ts) o = (linearRows ext t ts o).map (scaleArr (1000000000 / k)) := by
            have := linearRows_units (kpos hk) ext 1 t ts o ho hc
            rw [arr_map_one, ← ticks_rcL, ← inSeconds_scale, kinv] at this
            exact this
          simp only [Except.map, Option.map_some, hl]
          cases linearRows ext t ts o with
          | error e => rfl
          | ok v =>
            have hv := vectorsWithTs_units hsq s ref v rep ts hk 1 (1000000000 / k)
            rw [← ticksState_units, ← ticks_rcL] at hv
            simp only [Except.map, hv]
            cases s.vectorsWithTs ext.squad ref v rep { timestamps := stampArg (some ts) } with
            | error e => rfl
            | ok y =>
              simp only [Pure.pure, Except.pure, pyReturn]
              split <;> simp only [unitsRet, map_reclock]

/-- Angular velocities alike. -/
theorem C89_other_unit_angular (ext : Ext) (hsq : UnitsLaw ext.squad) (hd : RateLaw ext) (s : State) (a : ℕ) (reference representIn : Option FrameRef)
    (o : VelArgs) (ho : o.outlier = none) (hc : o.cutoff = none) {k : ℝ} (hk : 0 < k) :
    (ticksState k s).lookupAngularVelocityDt ext true a reference representIn o =
      (s.lookupAngularVelocity ext a reference representIn o).map (unitsRet k 0 (1000000000 / k)) := by
  simp only [State.lookupAngularVelocityDt, State.lookupAngularVelocity, resolveOr_ticks, bind, Except.bind]
  cases s.resolveOr a reference with
  | error e => rfl
  | ok ref =>
    simp only
    cases s.resolveOr a representIn with
    | error e => rfl
    | ok rep =>
      simp only [lookup_ticks hk hsq]
      cases s.lookupTransform ext.squad a (.byObj ref) with
      | error e => rfl
      | ok p =>
        obtain ⟨t, r, ts⟩ := p
        cases ts with
        | none =>
          simp only [Except.map, Option.map_none]
          by_cases hs : o.allowStatic = true
          · simp only [hs, if_true, Pure.pure, Except.pure, unitsRet, scale_zeros3, Option.map_none]
          · simp only [hs]; rfl
        | some ts =>
          have hl : angularRowsDt ext true r (ticks k ts) o = (angularRows ext r ts o).map (scaleArr (1000000000 / k)) := by
            have := angularRows_units (kpos hk) hd r ts o ho hc
            rw [← ticks_rcL, ← inSeconds_scale, kinv] at this
            exact this
          simp only [Except.map, Option.map_some, hl]
          cases angularRows ext r ts o with
          | error e => rfl
          | ok v =>
            have hv := vectorsWithTs_units hsq s a v rep ts hk 1 (1000000000 / k)
            rw [← ticksState_units, ← ticks_rcL] at hv
            simp only [Except.map, hv]
            cases s.vectorsWithTs ext.squad a v rep { timestamps := stampArg (some ts) } with
            | error e => rfl
            | ok y =>
              simp only [Pure.pure, Except.pure, pyReturn]
              split <;> simp only [unitsRet, map_reclock]

theorem stampList_ticks (k : ℝ) (a : ND ℝ) :
    (stampList (some (a.map (k * ·)))).map (inSeconds true) = (stampList (some a)).map (ticks (k / 1000000000)) := by
  simp only [stampList, ND.map]
  match a.shape with
  | [] => rfl
  | [n] =>
    simp only [Except.map, Except.ok.injEq]
    have := inSeconds_scale k ((List.range n).map fun i => a.get [i])
    simp only [ticks, List.map_map] at this ⊢
    exact this
  | _ :: _ :: _ => rfl

/-- Plain arrays with `k` ticks per second. -/
theorem C89_other_unit_estimates (ext : Ext) (x : XrOps) (arr ts : ND ℝ) (dim : Option String) (axis timeAxis : Option ℤ) {k : ℝ} (hk : 0 < k) :
    estimateLinearVelocityDt ext x true (.nd arr) dim axis (.arr (ts.map (k * ·))) timeAxis none none =
      (estimateLinearVelocity ext x (.nd arr) dim axis (.arr ts) timeAxis none none).map (scaleEst (1000000000 / k)) := by
  have h := stampList_ticks k ts
  cases dim with
  | some _ => rfl
  | none =>
    simp only [estimateLinearVelocityDt, estimateLinearVelocity, maybeUnpack, checkAxes, bind, Except.bind]
    by_cases h0 : arr.ndim = 0
    · simp only [if_pos h0]; rfl
    · simp only [if_neg h0]
      by_cases h1 : orDefault axis (-1) % (arr.ndim : ℤ) = orDefault timeAxis 0 % (arr.ndim : ℤ)
      · simp only [if_pos h1]; rfl
      · simp only [if_neg h1]
        cases hs : stampList (some (ts.map (k * ·))) with
        | error e =>
          rw [hs] at h
          cases hs' : stampList (some ts) with
          | error e' => rw [hs'] at h; cases h; rfl
          | ok l => rw [hs'] at h; cases h
        | ok l =>
          rw [hs] at h
          cases hs' : stampList (some ts) with
          | error e' => rw [hs'] at h; cases h
          | ok l' =>
            rw [hs'] at h
            simp only [Except.map, Except.ok.injEq] at h
            have hg := npGradient_units (kpos hk) 1 arr l' (orDefault timeAxis 0)
            rw [scaleArr_one, ← ticks_rcL, ← h, kinv] at hg
            simp only [estimateLinearDt, estimateLinear, Option.getD_some, hg, bind, Except.bind]
            cases npGradient arr l' (orDefault timeAxis 0) with
            | error e => rfl
            | ok v =>
              simp only [Except.map]
              cases normAxis (orDefault timeAxis 0) arr.ndim with
              | none => rfl
              | some p => rfl

/-- A coordinate that falls by one meter per second, sampled at 0, 1 and 3 seconds, timestamps of type `datetime64[us]`: the estimate is -1000. -/
theorem C89_other_unit_is_false : ∃ v, estimateLinearVelocityDt Ex.ext exXr true (.nd (Ex.arr2 2 [[1, 5], [4, 4], [16, 2]])) none none
      (.arr ((ofList [0, 1, 3]).map ((1000000 : ℝ) * ·))) none none none = .ok (.nd v) ∧ ∀ k < 3, v.get [k, 1] = some (-1000) := by
  rw [C89_other_unit_estimates Ex.ext exXr _ _ none none none (by norm_num)]
  obtain ⟨a1, a0⟩ := axes2 (arr := Ex.arr2 2 [[1, 5], [4, 4], [16, 2]]) (n := 3) (k := 2) rfl
  obtain ⟨v, v1, v2, v3⟩ := C36_exact (ext := Ex.ext) Ex.ext_filt exXr (Ex.arr2 2 [[1, 5], [4, 4], [16, 2]]) (ts := [0, 1, 3]) a1 a0 (by omega)
    ⟨by decide, rfl, by simp, by simp [StrictlyIncreasing]⟩ none (by intro c hc; cases hc)
  refine ⟨v.map (Option.map ((1000000000 / 1000000 : ℝ) * ·)), by rw [v1]; rfl, fun k hk => ?_⟩
  have := (v3 [k, 1] ⟨hk, by decide, trivial⟩).1 5 (-1) ?_
  · simp only [ND.map, this, Option.map_some, Option.some.injEq]; norm_num
  · refine three_stamps (P := fun i τ => (Ex.arr2 2 [[1, 5], [4, 4], [16, 2]]).get ([k, 1].set 0 i) = 5 + -1 * τ) ?_ ?_ ?_
    all_goals simp [Ex.arr2]
    all_goals norm_num

/-! ### Concrete cases -/

/-- The frame that moves two meters per second, timestamps in nanoseconds. -/
example : (ticksState 1000000000 Ex.u2).lookupLinearVelocityDt Ex.ext true 1 none none {} = (Ex.u2.lookupLinearVelocity Ex.ext 1 none none {}).map (ticksRet 1000000000) ∧
    (ticksState 1000000000 Ex.u2).lookupTwistDt Ex.ext true 1 none none { cutoff := some (1 / 2) } =
      (Ex.u2.lookupTwist Ex.ext 1 none none { cutoff := some (1 / 2) }).map (ticksTwist 1000000000) :=
  ⟨C89_linear_velocity _ holdSquad_units _ _ _ _ _, C89_twist _ holdSquad_units _ _ _ _ _⟩

/-- The program that builds it. -/
example : runOps .init ([.registerFrame (some "world") none {} false, .registerFrame (some "u") (some (.byName "world")) Ex.argsU false].map (ticksOp 1000000000)) =
    ticksState 1000000000 Ex.u2 := C89_program _ _

/-- A labelled array. -/
example : dictGet exTimed.info.coords "time" ≠ none ∧ (exTimed.info.coords.map Prod.fst).Nodup := by
  simp [exTimed, dictGet, List.lookup]

end RBM.Props
