import Verif.Model.Gaps

/-!
`transform_vectors` and `transform_points` of numpy arrays with missing (NaN) entries
(reference_frames.py:590-712, core.py:80-105, utils.py:197-263). A missing entry is `none`, and every
arithmetic operation with a missing operand is missing (also a product with zero). The frames have no
missing entries. `Model/Transform` models the same code for arrays without NaN; `C96_no_gaps` shows that the
two agree there.
-/

noncomputable section

namespace RBM

/-- Arithmetic with a known left operand: NaN stays NaN. -/
def nanL (f : ℝ → ℝ → ℝ) (x : ℝ) (y : Option ℝ) : Option ℝ := y.map (f x)

/-- Arithmetic with two operands that may be NaN. -/
def nan2 (f : ℝ → ℝ → ℝ) : Option ℝ → Option ℝ → Option ℝ
  | some x, some y => some (f x y)
  | _, _ => none

/-- One component of the cross product of a known vector and one that may have NaN: each component is
computed from the other two components of the operands. -/
def crossNan (r : Vec) (v : Fin 3 → Option ℝ) (k : Fin 3) : Option ℝ :=
  nan2 (fun x y => x - y) (nanL (fun x y => x * y) (r (k + 1)) (v (k + 2))) (nanL (fun x y => x * y) (r (k + 2)) (v (k + 1)))

/-- One component of the product of a matrix and a vector that may have NaN (`einsum`: all products are
formed and added). -/
def mulVecNan (m : Matrix (Fin 3) (Fin 3) ℝ) (v : Fin 3 → Option ℝ) (k : Fin 3) : Option ℝ :=
  nan2 (fun x y => x + y) (nan2 (fun x y => x + y) (nanL (fun x y => x * y) (m k 0) (v 0)) (nanL (fun x y => x * y) (m k 1) (v 1)))
    (nanL (fun x y => x * y) (m k 2) (v 2))

/-- The vector along the (normalised) axis `p` through index `idx`, see `ND.vecAt`. -/
def ND.vecAtGaps (v : ND (Option ℝ)) (p : ℕ) (idx : List ℕ) : Fin 3 → Option ℝ := fun k => v.get (idx.set p k)

open Classical in
/-- numpy-quaternion `rotate_vectors(R, v, axis)` (external), see `quatRv`. -/
def quatRvGaps (q : ND Quat) (v : ND (Option ℝ)) (axis : ℤ) : Res (ND (Option ℝ)) :=
  if 3 ∉ v.shape then .error .valueError
  else match normAxis axis v.ndim with
    | none => .error .indexError
    | some p =>
      if v.shape.getD p 0 ≠ 3 then .error .valueError
      else if ∃ idx, Valid q.shape idx ∧ q.get idx = 0 then .error .zeroDivisionError
      else .ok ⟨q.shape ++ v.shape, fun idx =>
        let iq := idx.take q.ndim
        let iv := idx.drop q.ndim
        mulVecNan (rotMat (q.get iq)) (v.vecAtGaps p iv) (Fin.ofNat 3 (iv.getD p 0))⟩

/-- The cross product of `np.cross` (external), see `crossLast`. -/
def crossLastGaps (a : ND ℝ) (b : ND (Option ℝ)) : Res (ND (Option ℝ)) :=
  if a.shape.getLast? = some 3 ∧ b.shape.getLast? = some 3 then
    match ND.bshape a.shape.dropLast b.shape.dropLast with
    | none => .error .valueError
    | some sh => .ok ⟨sh ++ [3], fun idx =>
        let i := idx.dropLast
        let va : Vec := fun k => a.get (ND.bidx a.shape.dropLast (i.drop (i.length - (a.ndim - 1))) ++ [k.val])
        let vb : Fin 3 → Option ℝ := fun k => b.get (ND.bidx b.shape.dropLast (i.drop (i.length - (b.ndim - 1))) ++ [k.val])
        crossNan va vb (Fin.ofNat 3 (idx.getLast?.getD 0))⟩
  else .error .valueError

/-- `np.cross(a, b, axisb=axis, axisc=axis)` (external), see `npCross`. -/
def npCrossGaps (a : ND ℝ) (b : ND (Option ℝ)) (axis : ℤ) : Res (ND (Option ℝ)) :=
  match normAxis axis b.ndim with
  | none => .error .valueError
  | some pb => match crossLastGaps a (b.moveaxis pb (b.ndim - 1)) with
    | .error e => .error e
    | .ok c => match normAxis axis c.ndim with
      | none => .error .valueError
      | some pc => .ok (c.moveaxis (c.ndim - 1) pc)

/-- utils.py:255-261, see `rotateArrayFormula`. -/
def rotateArrayFormulaGaps (q : ND Quat) (v : ND (Option ℝ)) (axis : ℤ) : Res (ND (Option ℝ)) := do
  let r : ND ℝ := ⟨q.shape ++ [3], fun idx => qcomp (q.get idx.dropLast) (idx.getLast?.getD 0 + 1)⟩
  let s ← (⟨q.shape ++ [1], fun idx => (q.get idx.dropLast).re⟩ : ND ℝ).swapaxesZ (-1) axis
  let m ← (⟨q.shape ++ [1], fun idx => let x := q.get idx.dropLast
      Real.sqrt (x.re * x.re + x.imI * x.imI + x.imJ * x.imJ + x.imK * x.imK)⟩ : ND ℝ).swapaxesZ (-1) axis
  let rxv ← npCrossGaps r v axis
  let sv ← ND.bop (nanL fun x y => x * y) s v
  let sum ← ND.bop (nan2 fun x y => x + y) sv rxv
  let c ← npCrossGaps r sum axis
  let c2 ← ND.bop (fun (x : Option ℝ) (y : ℝ) => x.map fun x => x / y) (c.map fun x => x.map fun x => 2 * x) m
  ND.bop (nan2 fun x y => x + y) v c2

open Classical in
/-- utils.py:197-263 `rotate_vectors(q, v, axis)` for `q` of quaternion dtype, see `rotateVectorsQ`. -/
def rotateVectorsQGaps (q : ND Quat) (v : ND (Option ℝ)) (axis : ℤ := -1) : Res (ND (Option ℝ)) :=
  if q.ndim = 0 then quatRvGaps q v axis
  else match normAxis axis v.ndim with
    | none => .error .indexError
    | some p =>
      if v.shape.getD p 0 ≠ 3 then .error .valueError
      else if q.ndim ≠ v.ndim - 1 ∨ nonmatching q.shape (v.shape.eraseIdx p) = true then .error .valueError
      else match rotateArrayFormulaGaps q v axis with
        | .error e => .error e
        | .ok r => if ∃ idx, Valid q.shape idx ∧ q.get idx = 0 then .error .nonfinite else .ok r

/-- utils.py:197-263 `rotate_vectors(q, v, axis)` for a float array `q`, see `rotateVectorsF`. -/
def rotateVectorsFGaps (q : ND ℝ) (v : ND (Option ℝ)) (axis : ℤ := -1) : Res (ND (Option ℝ)) := do
  let q' ← q.swapaxesZ (-1) (-1)
  let q'' ← asQuatArray q'
  rotateVectorsQGaps q'' v axis

/-- reference_frames.py:267-291 `_validate_input` (looks at shapes only), see `validateInput`. -/
def validateInputGaps (arr : ND (Option ℝ)) (axis : ℤ) (nAxis : ℕ) (timestamps : Option (ND ℝ)) (timeAxis : Option ℤ) :
    Res (ND (Option ℝ) × Option (List ℝ)) := do
  let k ← pyShape arr.shape axis
  if k ≠ nAxis then throw .valueError
  match timestamps with
  | none => return (arr, none)
  | some ts =>
    match ts.shape with
    | [n] =>
      match timeAxis with
      | none => throw .typeError
      | some ta =>
        let l ← pyShape arr.shape ta
        if l ≠ n then throw .valueError
        let arr ← arr.swapaxesZ 0 ta
        return (arr, some ((List.range n).map fun i => ts.get [i]))
    | _ => throw .valueError

open Classical in
/-- core.py:80-105 `_resample_array`, see `resampleArray`: `slope * (t - x[lo]) + y[lo]` with
`slope = (y[hi] - y[lo]) / (x[hi] - x[lo])` is NaN if one of the two samples used is NaN.
Simplification: `squad` (last axis of length four) of an array with NaN is not modelled (`nonfinite`). -/
def resampleArrayGaps (sq : SquadFn) (a : ND (Option ℝ)) (arrTs timestamps : Option (List ℝ)) : Res (ND (Option ℝ)) :=
  match arrTs, timestamps with
  | some _, none => .error .valueError
  | none, none => .ok a
  | none, some ts => .ok (a.tileN1 ts.length)
  | some ats, some ts =>
      match a.shape with
      | [] => .error .indexError
      | n :: rest =>
        if (n :: rest).getLast? = some 4 then
          if ∃ idx, Valid a.shape idx ∧ a.get idx = none then .error .nonfinite
          else match resampleArray sq ⟨a.fill, some ats⟩ (some ts) with
            | .error e => .error e
            | .ok r => .ok (r.map some)
        else if ats.length ≠ n then .error .valueError
        else if anyOutside ats ts then .error .valueError
        else match collect (ts.map (interpLoc ats)) with
          | .error e => .error e
          | .ok locs => .ok ⟨ts.length :: rest, fun idx =>
              let loc := locs.getD (idx.getD 0 0) (0, 0)
              if a.get (loc.1 :: idx.drop 1) = none ∨ a.get (loc.2 :: idx.drop 1) = none then none
              else some (interpVal ats ((List.range n).map fun i => (a.get (i :: idx.drop 1)).getD 0)
                (ts.getD (idx.getD 0 0) 0) loc)⟩

/-- `arr, _ = matcher.get_arrays(ts)` with one array (core.py:296-315), see `Matcher.getArray1`. The matcher
holds the shape of the array; its entries are passed separately. -/
def Matcher.getArray1Gaps (sq : SquadFn) (m : Matcher) (a : ND (Option ℝ)) (arrTs ts : Option (List ℝ)) : Res (ND (Option ℝ)) := do
  let ts ← match ts with
    | none => m.getTimestamps true
    | some ts => Pure.pure (some ts)
  resampleArrayGaps sq a arrTs ts

/-- `if time_axis is not None: arr = np.swapaxes(arr, 0, time_axis)`, see `undoTimeSwap`. -/
def undoTimeSwapGaps (arr : ND (Option ℝ)) (timeAxis : Option ℤ) : Res (ND (Option ℝ)) :=
  match timeAxis with
  | none => .ok arr
  | some ta => arr.swapaxesZ 0 ta

/-- What a transform function returns, see `PyRet`. -/
inductive PyRetGaps
  | single (a : ND (Option ℝ))
  | withTs (a : ND (Option ℝ)) (ts : Option (List ℝ))

/-- reference_frames.py:590-649 `transform_vectors`, see `State.transformVectors`. The matcher looks at the
shape and the timestamps of the array only (core.py:129-141, 143-235). -/
def State.transformVectorsGaps (sq : SquadFn) (s : State) (a : ℕ) (arr : ND (Option ℝ))
    (dst : FrameRef) (o : TArgs := {}) : Res PyRetGaps := do
  let (arr, arrTs) ← validateInputGaps arr o.axis 3 o.timestamps o.timeAxis
  let m ← s.getMatcher a dst [⟨arr.fill, arrTs⟩]
  let (_, r, ts) ← m.getTransformation sq
  let arr ← m.getArray1Gaps sq arr arrTs ts
  let r := expandSingletonAxes (ND.ofQuats r) arr.ndim
  let arr ← rotateVectorsFGaps r arr o.axis
  let arr ← undoTimeSwapGaps arr o.timeAxis
  if !o.returnTimestamps then return .single arr else return .withTs arr ts

/-- reference_frames.py:651-712 `transform_points`, see `State.transformPoints`. -/
def State.transformPointsGaps (sq : SquadFn) (s : State) (a : ℕ) (arr : ND (Option ℝ))
    (dst : FrameRef) (o : TArgs := {}) : Res PyRetGaps := do
  let (arr, arrTs) ← validateInputGaps arr o.axis 3 o.timestamps o.timeAxis
  let m ← s.getMatcher a dst [⟨arr.fill, arrTs⟩]
  let (t, r, ts) ← m.getTransformation sq
  let arr ← m.getArray1Gaps sq arr arrTs ts
  let t := expandSingletonAxes (ND.ofVecs t) arr.ndim
  let r := expandSingletonAxes (ND.ofQuats r) arr.ndim
  let arr ← rotateVectorsFGaps r arr o.axis
  let arr ← ND.bop (fun (x : Option ℝ) (y : ℝ) => x.map fun x => x + y) arr t
  let arr ← undoTimeSwapGaps arr o.timeAxis
  if !o.returnTimestamps then return .single arr else return .withTs arr ts

end RBM
