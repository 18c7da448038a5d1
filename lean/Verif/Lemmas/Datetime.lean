import Verif.Lemmas.UnitsVel
import Verif.Lemmas.UnitsOps
import Verif.Model.Datetime
import Verif.Spec.Datetime
import Verif.Props.Units

/-!
Timestamps in ticks: nothing but the timestamps of results changes.
-/

namespace RBM

open Spec Props

variable {k : ℝ}

theorem ticks_rcL (k : ℝ) : ticks k = rcL k 0 := by
  funext l
  simp only [ticks, rcL]
  congr 1
  funext t
  rw [reclock_zero]

theorem map_reclock (k : ℝ) : (List.map (reclock k 0) : List ℝ → List ℝ) = ticks k := (ticks_rcL k).symm

theorem reclock_fun (k : ℝ) : reclock k 0 = (k * ·) := funext fun t => reclock_zero k t

theorem arr_map_one (t : Arr Vec) : t.map ((1 : ℝ) • ·) = t := by cases t <;> simp [Arr.map]

theorem ticksState_units (k : ℝ) (s : State) : ticksState k s = unitsState k 0 1 s := by
  simp only [ticksState, unitsState]
  congr 1
  funext i
  cases s.data i with
  | none => rfl
  | some d =>
    simp only [Option.map_some, unitsData, Option.some.injEq, FrameData.mk.injEq, and_true, ticks_rcL]
    cases d.pose with
    | none => rfl
    | some p => simp only [Option.map_some, arr_map_one]

theorem ticksArgs_units (k : ℝ) (o : TArgs) : ticksArgs k o = unitsArgs k 0 o := by
  simp only [ticksArgs, unitsArgs, reclock_fun]

theorem ticksRet_units (k : ℝ) : ticksRet k = unitsRet k 0 1 := by
  funext r
  cases r with
  | single a => simp only [ticksRet, unitsRet, scaleArr_one]
  | withTs a ts => simp only [ticksRet, unitsRet, scaleArr_one, map_reclock]

theorem ticksOp_units (k : ℝ) : ticksOp k = unitsOp k 0 1 := by
  funext op
  have : ticksFrame k = unitsFrame k 0 1 := by
    funext a
    simp only [ticksFrame, unitsFrame, reclock_fun]
    congr 1
    cases a.translation with
    | none => rfl
    | some t => simp [ND.map]
  cases op <;> simp only [ticksOp, unitsOp, this]

section
variable (hk : 0 < k)
include hk

theorem lookup_ticks {sq : SquadFn} (hsq : UnitsLaw sq) (s : State) (a : ℕ) (dst : FrameRef) :
    (ticksState k s).lookupTransform sq a dst = (s.lookupTransform sq a dst).map fun p => (p.1, p.2.1, p.2.2.map (ticks k)) := by
  rw [ticksState_units, C84_lookup sq hsq s a dst hk 0 1]
  simp only [arr_map_one, map_reclock]

theorem getArray1_clock {sq : SquadFn} (hsq : UnitsLaw sq) {arr : ND ℝ} {ts : Option (List ℝ)} {m : Matcher} (harr : m.arrays = [⟨arr, ts⟩])
    (ts' : Option (List ℝ)) : (rcM k 0 1 1 m).getArray1 sq (ts'.map (rcL k 0)) = m.getArray1 sq ts' := by
  have harr' : (rcM k 0 1 1 m).arrays = [⟨arr, ts.map (rcL k 0)⟩] := by
    simp only [rcM, harr, List.map_cons, List.map_nil, rcA]
    rw [show arr.map (1 * ·) = arr from scaleArr_one _]
  have key := resampleArray_clock hk hsq ⟨arr, ts⟩
  have hts := getTimestamps_units hk (c := 0) 1 1 m true
  cases ts' with
  | none =>
    simp only [Matcher.getArray1, Matcher.getArrays, Option.map_none, hts, harr, harr', bind, Except.bind]
    cases m.getTimestamps true with
    | error e => rfl
    | ok t =>
      simp only [Except.map, List.map_cons, List.map_nil, collect, key]
      cases resampleArray sq ⟨arr, ts⟩ t <;> rfl
  | some ts' =>
    have key := key (some ts')
    simp only [Option.map_some] at key
    simp only [Matcher.getArray1, Matcher.getArrays, Option.map_some, harr, harr', bind, Except.bind, Pure.pure, Except.pure, List.map_cons, List.map_nil, collect, key]
    cases resampleArray sq ⟨arr, ts⟩ (some ts') <;> rfl

theorem vectorsCore_clock {sq : SquadFn} (hsq : UnitsLaw sq) (s : State) (a : ℕ) (arr : ND ℝ) (dst : FrameRef) (o : TArgs) :
    (unitsState k 0 1 s).transformVectorsCore sq a arr dst (unitsArgs k 0 o) =
      (s.transformVectorsCore sq a arr dst o).map fun p => (p.1, p.2.map (rcL k 0)) := by
  have hv := validateInput_units (k := k) (c := 0) 1 arr o.axis 3 o.timestamps o.timeAxis
  rw [scaleArr_one] at hv
  simp only [State.transformVectorsCore, unitsArgs, hv, bind, Except.bind]
  cases validateInput arr o.axis 3 o.timestamps o.timeAxis with
  | error e => rfl
  | ok p =>
    obtain ⟨arr', ts⟩ := p
    have hm := getMatcher_units hk (c := 0) 1 1 s a dst [⟨arr', ts⟩]
    simp only [List.map_cons, List.map_nil, rcA] at hm
    simp only [Except.map]
    rw [show scaleArr 1 arr' = arr'.map (1 * ·) from rfl, hm]
    cases hg : s.getMatcher a dst [⟨arr', ts⟩] with
    | error e => rfl
    | ok m =>
      simp only [Except.map, getTransformation_units hk hsq]
      cases m.getTransformation sq with
      | error e => rfl
      | ok x =>
        obtain ⟨t, r, ts'⟩ := x
        simp only [getArray1_clock hk hsq (getMatcher_arrays hg)]
        cases m.getArray1 sq ts' with
        | error e => rfl
        | ok y =>
          simp only
          cases rotateVectorsF (expandSingletonAxes (ND.ofQuats r) y.ndim) y o.axis <;> rfl

theorem vectors_ticks {sq : SquadFn} (hsq : UnitsLaw sq) (s : State) (a : ℕ) (arr : ND ℝ) (dst : FrameRef) (o : TArgs) :
    (ticksState k s).transformVectors sq a arr dst (ticksArgs k o) = (s.transformVectors sq a arr dst o).map (ticksRet k) := by
  rw [ticksState_units, ticksArgs_units]
  simp only [State.transformVectors, vectorsCore_clock hk hsq, bind, Except.bind]
  cases s.transformVectorsCore sq a arr dst o with
  | error e => rfl
  | ok p =>
    simp only [Except.map, unitsArgs]
    cases undoTimeSwap p.1 o.timeAxis with
    | error e => rfl
    | ok y =>
      simp only [Pure.pure, Except.pure, pyReturn]
      cases o.returnTimestamps <;> simp [ticksRet, ticks_rcL]

theorem stampArg_ticks (ts : Option (List ℝ)) : stampArg (ts.map (ticks k)) = (stampArg ts).map (ND.map (k * ·)) := by
  cases ts with
  | none => rfl
  | some ts =>
    rw [← reclock_fun, Option.map_some, ticks_rcL]
    exact stampArg_units k ts

theorem vectorsWithTs_ticks {sq : SquadFn} (hsq : UnitsLaw sq) (s : State) (a : ℕ) (arr : ND ℝ) (dst : ℕ) (ts : Option (List ℝ)) :
    (ticksState k s).vectorsWithTs sq a arr dst { timestamps := stampArg (ts.map (ticks k)) } =
      (s.vectorsWithTs sq a arr dst { timestamps := stampArg ts }).map fun p => (p.1, p.2.map (ticks k)) := by
  have h := vectors_ticks hk hsq s a arr (.byObj dst) { timestamps := stampArg ts, returnTimestamps := true }
  simp only [ticksArgs, ← stampArg_ticks hk] at h
  simp only [State.vectorsWithTs, h, bind, Except.bind]
  cases s.transformVectors sq a arr (.byObj dst) { timestamps := stampArg ts, returnTimestamps := true } with
  | error e => rfl
  | ok r => cases r <;> rfl

theorem matchArrays_ticks {sq : SquadFn} (hsq : UnitsLaw sq) (as : List MArray) :
    matchArrays sq (as.map fun a => ⟨a.data, a.timestamps.map (ticks k)⟩) = (matchArrays sq as).map fun p => (p.1, p.2.map (ticks k)) := by
  have hA : (fun a : MArray => (⟨a.data, a.timestamps.map (ticks k)⟩ : MArray)) = rcA k 0 1 := by
    funext a
    simp only [rcA, ticks_rcL]
    rw [show a.data.map (1 * ·) = a.data from scaleArr_one _]
  have h := addArrays_units hk (c := 0) 1 1 as Matcher.empty
  have he : rcM k 0 1 1 Matcher.empty = Matcher.empty := rfl
  rw [he] at h
  simp only [matchArrays, hA, h, bind, Except.bind]
  cases addArrays as Matcher.empty with
  | error e => rfl
  | ok m =>
    simp only [Except.map, Matcher.getArrays, getTimestamps_units hk, bind, Except.bind]
    cases m.getTimestamps true with
    | error e => rfl
    | ok ts =>
      simp only [Except.map]
      have key : (rcM k 0 1 1 m).arrays.map (fun a => resampleArray sq a (ts.map (rcL k 0))) = m.arrays.map fun a => resampleArray sq a ts := by
        simp only [rcM, List.map_map]
        apply List.map_congr_left
        intro a _
        have := resampleArray_clock hk hsq a ts
        simp only [Function.comp, ← hA, ticks_rcL]
        exact this
      rw [key, ticks_rcL]
      cases collect (m.arrays.map fun a => resampleArray sq a ts) <;> rfl

end

theorem inSeconds_ticks (ts : List ℝ) : inSeconds true (ticks 1000000000 ts) = ts := by
  simp only [inSeconds, ticks, if_true, List.map_map]
  conv_rhs => rw [← List.map_id ts]
  congr 1
  funext t
  simp

theorem inSeconds_scale (k : ℝ) (ts : List ℝ) : inSeconds true (ticks k ts) = ticks (k / 1000000000) ts := by
  simp only [inSeconds, ticks, if_true, List.map_map]
  congr 1
  funext t
  simp only [Function.comp]
  ring

end RBM
