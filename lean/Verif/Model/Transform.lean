import Verif.Model.Frames

/-!
`ReferenceFrame.transform_vectors`, `transform_points`, `transform_quaternions`
(reference_frames.py:267-300, 590-776) and the n-dimensional `rotate_vectors` (utils.py:197-263).
-/

noncomputable section

namespace RBM

namespace ND

/-- numpy array of shape `(3,)` / `(n, 3)`. -/
def ofVecs : Arr Vec → ND ℝ
  | .one v => ⟨[3], fun idx => v (Fin.ofNat 3 (idx.getD 0 0))⟩
  | .many l => ⟨[l.length, 3], fun idx => l.getD (idx.getD 0 0) 0 (Fin.ofNat 3 (idx.getD 1 0))⟩

/-- numpy array of shape `(4,)` / `(n, 4)` (`as_float_array(rotation)`, core.py:284). -/
def ofQuats : Arr Quat → ND ℝ
  | .one q => ⟨[4], fun idx => qcomp q (idx.getD 0 0)⟩
  | .many l => ⟨[l.length, 4], fun idx => qcomp (l.getD (idx.getD 0 0) 0) (idx.getD 1 0)⟩

end ND

/-- `shape[axis]` (tuple indexing). -/
def pyShape (sh : List ℕ) (axis : ℤ) : Res ℕ :=
  match normAxis axis sh.length with
  | some i => .ok (sh.getD i 0)
  | none => .error .indexError

/-- The vector of an array along the (normalised) axis `p` through index `idx`. -/
def ND.vecAt (v : ND ℝ) (p : ℕ) (idx : List ℕ) : Vec := fun k => v.get (idx.set p k)

open Classical in
/-- numpy-quaternion `rotate_vectors(R, v, axis)` (external; called from utils.py:243):
`einsum` of the rotation matrices of `R` with the vectors along `axis` of `v`; the result has shape
`R.shape + v.shape`. -/
def quatRv (q : ND Quat) (v : ND ℝ) (axis : ℤ) : Res (ND ℝ) :=
  if 3 ∉ v.shape then .error .valueError
  else match normAxis axis v.ndim with
    | none => .error .indexError
    | some p =>
      if v.shape.getD p 0 ≠ 3 then .error .valueError
      else if ∃ idx, Valid q.shape idx ∧ q.get idx = 0 then .error .zeroDivisionError
      else .ok ⟨q.shape ++ v.shape, fun idx =>
        let iq := idx.take q.ndim
        let iv := idx.drop q.ndim
        rotateMatrixForm (q.get iq) (v.vecAt p iv) (Fin.ofNat 3 (iv.getD p 0))⟩

open Matrix in
/-- The cross product of `np.cross` after the axes have been moved to the end: last axes of length
three, leading axes broadcast (external). -/
def crossLast (a b : ND ℝ) : Res (ND ℝ) :=
  if a.shape.getLast? = some 3 ∧ b.shape.getLast? = some 3 then
    match ND.bshape a.shape.dropLast b.shape.dropLast with
    | none => .error .valueError
    | some sh => .ok ⟨sh ++ [3], fun idx =>
        let i := idx.dropLast
        let va : Vec := fun k => a.get (ND.bidx a.shape.dropLast (i.drop (i.length - (a.ndim - 1))) ++ [k.val])
        let vb : Vec := fun k => b.get (ND.bidx b.shape.dropLast (i.drop (i.length - (b.ndim - 1))) ++ [k.val])
        (va ⨯₃ vb) (Fin.ofNat 3 (idx.getLast?.getD 0))⟩
  else .error .valueError

/-- `np.cross(a, b, axisb=axis, axisc=axis)` (external; `axisa=-1`). -/
def npCross (a b : ND ℝ) (axis : ℤ) : Res (ND ℝ) :=
  match normAxis axis b.ndim with
  | none => .error .valueError
  | some pb => match crossLast a (b.moveaxis pb (b.ndim - 1)) with
    | .error e => .error e
    | .ok c => match normAxis axis c.ndim with
      | none => .error .valueError
      | some pc => .ok (c.moveaxis (c.ndim - 1) pc)

/-- `any(qs != vs for qs, vs in zip(q.shape, v_shape) if qs != 1 and vs != 1)`
(utils.py:248-252). -/
def nonmatching (qsh vsh : List ℕ) : Bool :=
  (List.zip qsh vsh).any fun p => p.1 != 1 && p.2 != 1 && p.1 != p.2

/-- utils.py:255-261: the array formula. Zero quaternions give NaN. -/
def rotateArrayFormula (q : ND Quat) (v : ND ℝ) (axis : ℤ) : Res (ND ℝ) := do
  let r : ND ℝ := ⟨q.shape ++ [3], fun idx => qcomp (q.get idx.dropLast) (idx.getLast?.getD 0 + 1)⟩
  let s ← (⟨q.shape ++ [1], fun idx => (q.get idx.dropLast).re⟩ : ND ℝ).swapaxesZ (-1) axis
  let m ← (⟨q.shape ++ [1], fun idx => let x := q.get idx.dropLast
      Real.sqrt (x.re * x.re + x.imI * x.imI + x.imJ * x.imJ + x.imK * x.imK)⟩ : ND ℝ).swapaxesZ (-1) axis
  let rxv ← npCross r v axis
  let sv ← ND.bop (fun x y => x * y) s v
  let sum ← ND.bop (fun x y => x + y) sv rxv
  let c ← npCross r sum axis
  let c2 ← ND.bop (fun x y => x / y) (c.map fun x => 2 * x) m
  ND.bop (fun x y => x + y) v c2

open Classical in
/-- utils.py:197-263 `rotate_vectors` for `q` of quaternion dtype. -/
def rotateVectorsQ (q : ND Quat) (v : ND ℝ) (axis : ℤ := -1) (oneToOne : Bool := true) :
    Res (ND ℝ) :=
  if oneToOne = false ∨ q.ndim = 0 then quatRv q v axis
  else match normAxis axis v.ndim with
    | none => .error .indexError
    | some p =>
      if v.shape.getD p 0 ≠ 3 then .error .valueError
      else if q.ndim ≠ v.ndim - 1 ∨ nonmatching q.shape (v.shape.eraseIdx p) = true then .error .valueError
      else match rotateArrayFormula q v axis with
        | .error e => .error e
        | .ok r => if ∃ idx, Valid q.shape idx ∧ q.get idx = 0 then .error .nonfinite else .ok r

/-- utils.py:197-263 `rotate_vectors` for a float array `q`. -/
def rotateVectorsF (q : ND ℝ) (v : ND ℝ) (axis : ℤ := -1) (qaxis : ℤ := -1)
    (oneToOne : Bool := true) : Res (ND ℝ) := do
  let q' ← q.swapaxesZ qaxis (-1)
  let q'' ← asQuatArray q'
  rotateVectorsQ q'' v axis oneToOne

/-- reference_frames.py:267-291 `_validate_input`. -/
def validateInput (arr : ND ℝ) (axis : ℤ) (nAxis : ℕ) (timestamps : Option (ND ℝ)) (timeAxis : Option ℤ) :
    Res (ND ℝ × Option (List ℝ)) := do
  let k ← pyShape arr.shape axis
  if k ≠ nAxis then throw .valueError
  match timestamps with
  | none => return (arr, none)
  | some ts =>
    match ts.shape with
    | [n] =>
      match timeAxis with
      | none => throw .typeError
      | some ta =>
        let l ← pyShape arr.shape ta
        if l ≠ n then throw .valueError
        let arr ← arr.swapaxesZ 0 ta
        return (arr, some ((List.range n).map fun i => ts.get [i]))
    | _ => throw .valueError

/-- reference_frames.py:293-300 `_expand_singleton_axes`. -/
def expandSingletonAxes {α} (a : ND α) (ndim : ℕ) : ND α :=
  if a.ndim > 1 then (ND.expandDims1)^[ndim - 2] a else a

/-- `if time_axis is not None: arr = np.swapaxes(arr, 0, time_axis)`
(reference_frames.py:643-644, 706-707, 770-771). -/
def undoTimeSwap (arr : ND ℝ) (timeAxis : Option ℤ) : Res (ND ℝ) :=
  match timeAxis with
  | none => .ok arr
  | some ta => arr.swapaxesZ 0 ta

/-- What a transform function returns. -/
inductive PyRet
  | single (a : ND ℝ)
  | withTs (a : ND ℝ) (ts : Option (List ℝ))

/-- `if not return_timestamps: return arr else: return arr, ts`
(reference_frames.py:646-649 and others). -/
def pyReturn (returnTimestamps : Bool) (a : ND ℝ) (ts : Option (List ℝ)) : PyRet :=
  if !returnTimestamps then .single a else .withTs a ts

/-- Keyword arguments of the transform functions with their defaults. -/
structure TArgs where
  axis : ℤ := -1
  timeAxis : Option ℤ := some 0
  timestamps : Option (ND ℝ) := none
  returnTimestamps : Bool := false

/-- `arr, _ = matcher.get_arrays(ts)` with one array (reference_frames.py:637 and others). -/
def Matcher.getArray1 (sq : SquadFn) (m : Matcher) (ts : Option (List ℝ)) : Res (ND ℝ) := do
  let (arrs, _) ← m.getArrays sq ts
  match arrs with
  | [a] => return a
  | _ => throw .valueError

/-- reference_frames.py:633-641: everything before the time axis is swapped back. -/
def State.transformVectorsCore (sq : SquadFn) (s : State) (a : ℕ) (arr : ND ℝ)
    (dst : FrameRef) (o : TArgs) : Res (ND ℝ × Option (List ℝ)) := do
  let (arr, arrTs) ← validateInput arr o.axis 3 o.timestamps o.timeAxis
  let m ← s.getMatcher a dst [⟨arr, arrTs⟩]
  let (_, r, ts) ← m.getTransformation sq
  let arr ← m.getArray1 sq ts
  let r := expandSingletonAxes (ND.ofQuats r) arr.ndim
  let arr ← rotateVectorsF r arr o.axis
  return (arr, ts)

/-- reference_frames.py:590-649 `transform_vectors`. -/
def State.transformVectors (sq : SquadFn) (s : State) (a : ℕ) (arr : ND ℝ)
    (dst : FrameRef) (o : TArgs := {}) : Res PyRet := do
  let (arr, ts) ← s.transformVectorsCore sq a arr dst o
  let arr ← undoTimeSwap arr o.timeAxis
  return pyReturn o.returnTimestamps arr ts

/-- reference_frames.py:694-704. -/
def State.transformPointsCore (sq : SquadFn) (s : State) (a : ℕ) (arr : ND ℝ)
    (dst : FrameRef) (o : TArgs) : Res (ND ℝ × Option (List ℝ)) := do
  let (arr, arrTs) ← validateInput arr o.axis 3 o.timestamps o.timeAxis
  let m ← s.getMatcher a dst [⟨arr, arrTs⟩]
  let (t, r, ts) ← m.getTransformation sq
  let arr ← m.getArray1 sq ts
  let t := expandSingletonAxes (ND.ofVecs t) arr.ndim
  let r := expandSingletonAxes (ND.ofQuats r) arr.ndim
  let arr ← rotateVectorsF r arr o.axis
  let arr ← ND.bop (fun x y => x + y) arr t
  return (arr, ts)

/-- reference_frames.py:651-712 `transform_points`. -/
def State.transformPoints (sq : SquadFn) (s : State) (a : ℕ) (arr : ND ℝ)
    (dst : FrameRef) (o : TArgs := {}) : Res PyRet := do
  let (arr, ts) ← s.transformPointsCore sq a arr dst o
  let arr ← undoTimeSwap arr o.timeAxis
  return pyReturn o.returnTimestamps arr ts

/-- reference_frames.py:757-768. -/
def State.transformQuaternionsCore (sq : SquadFn) (s : State) (a : ℕ) (arr : ND ℝ)
    (dst : FrameRef) (o : TArgs) : Res (ND ℝ × Option (List ℝ)) := do
  let (arr, arrTs) ← validateInput arr o.axis 4 o.timestamps o.timeAxis
  let m ← s.getMatcher a dst [⟨arr, arrTs⟩]
  let (_, r, ts) ← m.getTransformation sq
  let arr ← m.getArray1 sq ts
  let r := expandSingletonAxes (ND.ofQuats r) arr.ndim
  let arr ← arr.swapaxesZ o.axis (-1)
  let rq ← asQuatArray r
  let aq ← asQuatArray arr
  let prod ← ND.bop (fun x y => x * y) rq aq
  let arr ← (asFloatArray prod).swapaxesZ (-1) o.axis
  return (arr, ts)

/-- reference_frames.py:714-776 `transform_quaternions`. -/
def State.transformQuaternions (sq : SquadFn) (s : State) (a : ℕ) (arr : ND ℝ)
    (dst : FrameRef) (o : TArgs := {}) : Res PyRet := do
  let (arr, ts) ← s.transformQuaternionsCore sq a arr dst o
  let arr ← undoTimeSwap arr o.timeAxis
  return pyReturn o.returnTimestamps arr ts

end RBM
