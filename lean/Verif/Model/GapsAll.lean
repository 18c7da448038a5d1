import Verif.Model.GapsLookup

/-!
`transform_vectors`, `transform_points` and `transform_quaternions` (reference_frames.py:590-776) of numpy arrays with missing (NaN)
entries through frames whose recorded poses have missing entries. `Model/GapsTransform` and `Model/GapsLookup` model the two cases
separately; `Model/Transform` is the case that nothing is missing. A missing number is `none`, and every arithmetic operation with a
missing operand is missing. Simplification: a quaternion with one missing component is missing as a whole (every operation on
quaternions that follows mixes the four components).
-/

noncomputable section

namespace RBM

namespace ND

/-- numpy array of shape `(3,)` / `(n, 3)`, see `ND.ofVecs`. -/
def ofGVecs : Arr GVec → ND (Option ℝ)
  | .one v => ⟨[3], fun idx => v (Fin.ofNat 3 (idx.getD 0 0))⟩
  | .many l => ⟨[l.length, 3], fun idx => l.getD (idx.getD 0 0) (fun _ => none) (Fin.ofNat 3 (idx.getD 1 0))⟩

/-- numpy array of shape `(4,)` / `(n, 4)`, see `ND.ofQuats`. -/
def ofGQuats : Arr (Option Quat) → ND (Option ℝ)
  | .one q => ⟨[4], fun idx => q.map fun q => qcomp q (idx.getD 0 0)⟩
  | .many l => ⟨[l.length, 4], fun idx => (l.getD (idx.getD 0 0) none).map fun q => qcomp q (idx.getD 1 0)⟩

end ND

/-- A quaternion from four numbers that may be missing. -/
def quatGaps : Option ℝ → Option ℝ → Option ℝ → Option ℝ → Option Quat
  | some w, some x, some y, some z => some ⟨w, x, y, z⟩
  | _, _, _, _ => none

/-- `as_quat_array`, see `asQuatArray`. -/
def asQuatArrayGaps (a : ND (Option ℝ)) : Res (ND (Option Quat)) :=
  match a.shape.getLast? with
  | some 4 => .ok ⟨a.shape.dropLast, fun idx => quatGaps (a.get (idx ++ [0])) (a.get (idx ++ [1])) (a.get (idx ++ [2])) (a.get (idx ++ [3]))⟩
  | _ => .error .valueError

/-- `as_float_array`, see `asFloatArray`. -/
def asFloatArrayGaps (q : ND (Option Quat)) : ND (Option ℝ) :=
  ⟨q.shape ++ [4], fun idx => (q.get idx.dropLast).map fun x => qcomp x (idx.getLast?.getD 0)⟩

open Classical in
/-- numpy-quaternion `rotate_vectors(R, v, axis)` (external), see `quatRv`. -/
def quatRvAll (q : ND (Option Quat)) (v : ND (Option ℝ)) (axis : ℤ) : Res (ND (Option ℝ)) :=
  if 3 ∉ v.shape then .error .valueError
  else match normAxis axis v.ndim with
    | none => .error .indexError
    | some p =>
      if v.shape.getD p 0 ≠ 3 then .error .valueError
      else if ∃ idx, Valid q.shape idx ∧ q.get idx = some 0 then .error .zeroDivisionError
      else .ok ⟨q.shape ++ v.shape, fun idx =>
        let iq := idx.take q.ndim
        let iv := idx.drop q.ndim
        match q.get iq with
        | none => none
        | some q => mulVecNan (rotMat q) (v.vecAtGaps p iv) (Fin.ofNat 3 (iv.getD p 0))⟩

/-- One component of a cross product, see `crossNan`. -/
def crossNan2 (r v : Fin 3 → Option ℝ) (k : Fin 3) : Option ℝ :=
  nan2 (fun x y => x - y) (nan2 (fun x y => x * y) (r (k + 1)) (v (k + 2))) (nan2 (fun x y => x * y) (r (k + 2)) (v (k + 1)))

/-- The cross product of `np.cross` (external), see `crossLast`. -/
def crossLastAll (a b : ND (Option ℝ)) : Res (ND (Option ℝ)) :=
  if a.shape.getLast? = some 3 ∧ b.shape.getLast? = some 3 then
    match ND.bshape a.shape.dropLast b.shape.dropLast with
    | none => .error .valueError
    | some sh => .ok ⟨sh ++ [3], fun idx =>
        let i := idx.dropLast
        let va : Fin 3 → Option ℝ := fun k => a.get (ND.bidx a.shape.dropLast (i.drop (i.length - (a.ndim - 1))) ++ [k.val])
        let vb : Fin 3 → Option ℝ := fun k => b.get (ND.bidx b.shape.dropLast (i.drop (i.length - (b.ndim - 1))) ++ [k.val])
        crossNan2 va vb (Fin.ofNat 3 (idx.getLast?.getD 0))⟩
  else .error .valueError

/-- `np.cross(a, b, axisb=axis, axisc=axis)` (external), see `npCross`. -/
def npCrossAll (a b : ND (Option ℝ)) (axis : ℤ) : Res (ND (Option ℝ)) :=
  match normAxis axis b.ndim with
  | none => .error .valueError
  | some pb => match crossLastAll a (b.moveaxis pb (b.ndim - 1)) with
    | .error e => .error e
    | .ok c => match normAxis axis c.ndim with
      | none => .error .valueError
      | some pc => .ok (c.moveaxis (c.ndim - 1) pc)

/-- utils.py:255-261, see `rotateArrayFormula`. -/
def rotateArrayFormulaAll (q : ND (Option Quat)) (v : ND (Option ℝ)) (axis : ℤ) : Res (ND (Option ℝ)) := do
  let r : ND (Option ℝ) := ⟨q.shape ++ [3], fun idx => (q.get idx.dropLast).map fun x => qcomp x (idx.getLast?.getD 0 + 1)⟩
  let s ← (⟨q.shape ++ [1], fun idx => (q.get idx.dropLast).map fun x => x.re⟩ : ND (Option ℝ)).swapaxesZ (-1) axis
  let m ← (⟨q.shape ++ [1], fun idx => (q.get idx.dropLast).map fun x =>
      Real.sqrt (x.re * x.re + x.imI * x.imI + x.imJ * x.imJ + x.imK * x.imK)⟩ : ND (Option ℝ)).swapaxesZ (-1) axis
  let rxv ← npCrossAll r v axis
  let sv ← ND.bop (nan2 fun x y => x * y) s v
  let sum ← ND.bop (nan2 fun x y => x + y) sv rxv
  let c ← npCrossAll r sum axis
  let c2 ← ND.bop (nan2 fun x y => x / y) (c.map fun x => x.map fun x => 2 * x) m
  ND.bop (nan2 fun x y => x + y) v c2

open Classical in
/-- utils.py:197-263 `rotate_vectors(q, v, axis)` for `q` of quaternion dtype, see `rotateVectorsQ`. -/
def rotateVectorsQAll (q : ND (Option Quat)) (v : ND (Option ℝ)) (axis : ℤ := -1) : Res (ND (Option ℝ)) :=
  if q.ndim = 0 then quatRvAll q v axis
  else match normAxis axis v.ndim with
    | none => .error .indexError
    | some p =>
      if v.shape.getD p 0 ≠ 3 then .error .valueError
      else if q.ndim ≠ v.ndim - 1 ∨ nonmatching q.shape (v.shape.eraseIdx p) = true then .error .valueError
      else match rotateArrayFormulaAll q v axis with
        | .error e => .error e
        | .ok r => if ∃ idx, Valid q.shape idx ∧ q.get idx = some 0 then .error .nonfinite else .ok r

/-- utils.py:197-263 `rotate_vectors(q, v, axis)` for a float array `q`, see `rotateVectorsF`. -/
def rotateVectorsFAll (q v : ND (Option ℝ)) (axis : ℤ := -1) : Res (ND (Option ℝ)) := do
  let q' ← q.swapaxesZ (-1) (-1)
  let q'' ← asQuatArrayGaps q'
  rotateVectorsQAll q'' v axis

open Classical in
/-- core.py:80-105 `_resample_array`, see `resampleArray`. -/
def resampleArrayAll (sq : SquadGapsFn) (a : ND (Option ℝ)) (arrTs timestamps : Option (List ℝ)) : Res (ND (Option ℝ)) :=
  match arrTs, timestamps with
  | some _, none => .error .valueError
  | none, none => .ok a
  | none, some ts => .ok (a.tileN1 ts.length)
  | some ats, some ts =>
      match a.shape with
      | [] => .error .indexError
      | n :: rest =>
        if (n :: rest).getLast? = some 4 then
          match asQuatArrayGaps a with
          | .error e => .error e
          | .ok q =>
            if n = 0 ∨ ts = [] then .ok ⟨[0, 4], fun _ => some 0⟩
            else if n < 2 ∨ rest = [] then .error .indexError
            else .ok (asFloatArrayGaps ⟨ts.length :: rest.dropLast, fun idx =>
              sq ((List.range n).map fun i => q.get (i :: idx.drop 1)) ats (ts.getD (idx.getD 0 0) 0)⟩)
        else if ats.length ≠ n then .error .valueError
        else if anyOutside ats ts then .error .valueError
        else match collect (ts.map (interpLoc ats)) with
          | .error e => .error e
          | .ok locs => .ok ⟨ts.length :: rest, fun idx =>
              let loc := locs.getD (idx.getD 0 0) (0, 0)
              let ys := (List.range n).map fun i => a.get (i :: idx.drop 1)
              nan2 (fun lo hi => (ts.getD (idx.getD 0 0) 0 - ats.getD loc.1 0) * ((1 / (ats.getD loc.2 0 - ats.getD loc.1 0)) * (hi - lo)) + lo)
                (ys.getD loc.1 none) (ys.getD loc.2 none)⟩

/-- `matcher = self._get_matcher(into, arrays=[(arr, arr_ts)])`, `t, r, ts = matcher.get_transformation()`,
`arr, _ = matcher.get_arrays(ts)` (reference_frames.py:633-637, 694-698, 757-761; 319-333; core.py:237-315). The matcher looks at the
shape and the timestamps of the array only until it is resampled. -/
def State.matchAllGaps (sq : SquadGapsFn) (s : State) (gd : ℕ → Option GapData) (a : ℕ) (dst : FrameRef) (arr : ND (Option ℝ))
    (arrTs : Option (List ℝ)) : Res (Arr GVec × Arr (Option Quat) × ND (Option ℝ) × Option (List ℝ)) := do
  let (up, down) ← s.walk a dst
  let fs ← addFramesGaps gd false up []
  let fs ← addFramesGaps gd true down fs
  let m ← (⟨fs.map GFrame.stamps, []⟩ : Matcher).addArray ⟨arr.fill, arrTs⟩
  let ts ← m.getTimestamps
  let (t, r) ← transLoopGaps sq ts fs (initTranslationGaps ts, .one (some 1))
  let ts' ← match ts with
    | none => m.getTimestamps
    | some ts => Pure.pure (some ts)
  let arr ← resampleArrayAll sq arr arrTs ts'
  return (t, r, arr, ts)

/-- `if not return_timestamps: return arr else: return arr, ts`, see `pyReturn`. -/
def pyReturnGaps (returnTimestamps : Bool) (a : ND (Option ℝ)) (ts : Option (List ℝ)) : PyRetGaps :=
  if !returnTimestamps then .single a else .withTs a ts

/-- reference_frames.py:590-649 `transform_vectors`, see `State.transformVectors`. -/
def State.transformVectorsAllGaps (sq : SquadGapsFn) (s : State) (gd : ℕ → Option GapData) (a : ℕ) (arr : ND (Option ℝ))
    (dst : FrameRef) (o : TArgs := {}) : Res PyRetGaps := do
  let (arr, arrTs) ← validateInputGaps arr o.axis 3 o.timestamps o.timeAxis
  let (_, r, arr, ts) ← s.matchAllGaps sq gd a dst arr arrTs
  let r := expandSingletonAxes (ND.ofGQuats r) arr.ndim
  let arr ← rotateVectorsFAll r arr o.axis
  let arr ← undoTimeSwapGaps arr o.timeAxis
  return pyReturnGaps o.returnTimestamps arr ts

/-- reference_frames.py:651-712 `transform_points`, see `State.transformPoints`. -/
def State.transformPointsAllGaps (sq : SquadGapsFn) (s : State) (gd : ℕ → Option GapData) (a : ℕ) (arr : ND (Option ℝ))
    (dst : FrameRef) (o : TArgs := {}) : Res PyRetGaps := do
  let (arr, arrTs) ← validateInputGaps arr o.axis 3 o.timestamps o.timeAxis
  let (t, r, arr, ts) ← s.matchAllGaps sq gd a dst arr arrTs
  let t := expandSingletonAxes (ND.ofGVecs t) arr.ndim
  let r := expandSingletonAxes (ND.ofGQuats r) arr.ndim
  let arr ← rotateVectorsFAll r arr o.axis
  let arr ← ND.bop (nan2 fun x y => x + y) arr t
  let arr ← undoTimeSwapGaps arr o.timeAxis
  return pyReturnGaps o.returnTimestamps arr ts

/-- reference_frames.py:714-776 `transform_quaternions`, see `State.transformQuaternions`. -/
def State.transformQuaternionsAllGaps (sq : SquadGapsFn) (s : State) (gd : ℕ → Option GapData) (a : ℕ) (arr : ND (Option ℝ))
    (dst : FrameRef) (o : TArgs := {}) : Res PyRetGaps := do
  let (arr, arrTs) ← validateInputGaps arr o.axis 4 o.timestamps o.timeAxis
  let (_, r, arr, ts) ← s.matchAllGaps sq gd a dst arr arrTs
  let r := expandSingletonAxes (ND.ofGQuats r) arr.ndim
  let arr ← arr.swapaxesZ o.axis (-1)
  let rq ← asQuatArrayGaps r
  let aq ← asQuatArrayGaps arr
  let prod ← ND.bop mulGaps rq aq
  let arr ← (asFloatArrayGaps prod).swapaxesZ (-1) o.axis
  let arr ← undoTimeSwapGaps arr o.timeAxis
  return pyReturnGaps o.returnTimestamps arr ts

end RBM
