import Verif.Model.Velocity

/-!
Velocity estimation from arrays with missing (NaN) entries (core.py:728-819, estimators.py:63-233). A missing
entry is `none`. `Model/Velocity` models the same code for arrays without NaN; `C77_no_gaps` and
`C78_no_gaps` show that the two agree there.
-/

noncomputable section

namespace RBM

/-- The values of an array; NaN becomes 0. Used only for entries that are not NaN and for code that looks at
the shape only. -/
def ND.fill (a : ND (Option ℝ)) : ND ℝ := a.map fun o => o.getD 0

/-- core.py:753-756: `nan_idx[i]`: some entry at position `i` of axis `p` is NaN. -/
def NanAt (r : ND (Option ℝ)) (p i : ℕ) : Prop := ∃ idx, Valid r.shape idx ∧ idx.getD p 0 = i ∧ r.get idx = none

open Classical in
/-- core.py:757-759: the positions along axis `p` selected by `~nan_idx`. -/
def validRows (r : ND (Option ℝ)) (p : ℕ) : List ℕ :=
  (List.range (r.shape.getD p 0)).filter fun i => decide (¬ NanAt r p i)

/-- core.py:759-763 `a[valid_idx]`: numpy indexing with a mask along axis `p`. -/
def ND.takeRows {α} (a : ND α) (p : ℕ) (rows : List ℕ) : ND α :=
  ⟨a.shape.set p rows.length, fun idx => a.get (idx.set p (rows.getD (idx.getD p 0) 0))⟩

/-- core.py:764-765: an array of NaN, `angular[valid_idx] = v`. -/
def scatterRows (shape : List ℕ) (p : ℕ) (rows : List ℕ) (v : ND ℝ) : ND (Option ℝ) :=
  ⟨shape, fun idx => if idx.getD p 0 ∈ rows then some (v.get (idx.set p (rows.idxOf (idx.getD p 0)))) else none⟩

open Classical in
/-- The samples that `np.gradient(ys, xs)[i]` is computed from: `gradAt`. -/
def gradNeeds (xs : List ℝ) (i : ℕ) : List ℕ :=
  let n := xs.length
  if i = 0 then [0, 1]
  else if i + 1 = n then [n - 2, n - 1]
  else if ∀ k, k + 1 < n → xs.getD (k + 1) 0 - xs.getD k 0 = xs.getD 1 0 - xs.getD 0 0 then [i - 1, i + 1]
  else [i - 1, i, i + 1]

/-- One entry of `np.gradient` of values with NaN. -/
def gradAtGaps (xs : List ℝ) (ys : List (Option ℝ)) (i : ℕ) : Option ℝ :=
  if ∃ k ∈ gradNeeds xs i, ys.getD k none = none then none
  else some (gradAt xs (ys.map fun o => o.getD 0) i)

open Classical in
/-- `np.gradient(a, xs, axis=axis)` of an array with NaN, see `npGradient`. -/
def npGradientGaps (a : ND (Option ℝ)) (xs : List ℝ) (axis : ℤ) : Res (ND (Option ℝ)) :=
  match normAxis axis a.ndim with
  | none => .error .valueError
  | some p =>
    if xs.length ≠ a.shape.getD p 0 then .error .valueError
    else if xs.length < 2 then .error .indexError
    else if gradDegenerate xs then .error .nonfinite
    else .ok ⟨a.shape, fun idx => gradAtGaps xs (a.lane p idx) (idx.getD p 0)⟩

open Classical in
/-- core.py:806/780: norm of the second difference, NaN if one of the three rows has a NaN. -/
def secondDiffGaps (a : ND (Option ℝ)) (i : ℕ) : Option ℝ :=
  if ∃ j m, j < a.shape.getD 1 0 ∧ i ≤ m ∧ m ≤ i + 2 ∧ a.get [m, j] = none then none else some (secondDiff a.fill i)

/-- Sum of numbers that may be NaN. -/
def addNan : Option ℝ → Option ℝ → Option ℝ
  | some x, some y => some (x + y)
  | _, _ => none

/-- core.py:807/784: `np.hstack((d, 0.0, 0.0)) + np.hstack((0.0, d, 0.0))`, see `jumpStat`. -/
def jumpStatGaps (d : ℕ → Option ℝ) (n i : ℕ) : Option ℝ :=
  addNan (if i + 2 < n then d i else some 0) (if 1 ≤ i ∧ i + 1 < n then d (i - 1) else some 0)

/-- `x <= thresh` of numpy: false for NaN. -/
def LeNan (x : Option ℝ) (th : ℝ) : Prop := ∃ y, x = some y ∧ y ≤ th

/-- One query of `interp1d(xs, ys, bounds_error=False)`, NaN if one of the two samples used is NaN. -/
def interpFillGaps (xs : List ℝ) (ys : List (Option ℝ)) (t : ℝ) : Option ℝ :=
  match interpLoc xs t with
  | .ok loc =>
    if ys.getD loc.1 none = none ∨ ys.getD loc.2 none = none then none
    else some (interpVal xs (ys.map fun o => o.getD 0) t loc)
  | .error _ => none

open Classical in
/-- core.py:808-813 and 785-790, see `removeOutliers`. -/
def removeOutliersGaps (v : ND (Option ℝ)) (ts : List ℝ) (d : ℕ → Option ℝ) (thresh : ℝ) : Res (ND (Option ℝ)) :=
  let keep := (List.range ts.length).filter fun i => decide (LeNan (jumpStatGaps d ts.length i) thresh)
  if keep = [] then .error .valueError
  else .ok ⟨v.shape, fun idx =>
    interpFillGaps (keep.map fun i => ts.getD i 0) (keep.map fun i => v.get (idx.set 0 i)) (ts.getD (idx.getD 0 0) 0)⟩

/-- core.py:804-813 / 779-790, see `maybeOutliers`. -/
def maybeOutliersGaps (v : ND (Option ℝ)) (ts : List ℝ) (d : ℕ → Option ℝ) (p : ℕ) : Option ℝ → Res (ND (Option ℝ))
  | none => .ok v
  | some th =>
    if v.ndim ≠ 2 then .error .valueError
    else if p ≠ 0 then .error .indexError
    else removeOutliersGaps v ts d th

/-- core.py:797-819 `_estimate_linear_velocity` of an array with NaN. -/
def estimateLinearGaps (ext : Ext) (tr : ND (Option ℝ)) (ts : List ℝ) (timeAxis : ℤ := 0) (outlier cutoff : Option ℝ := none) :
    Res (ND (Option ℝ)) := do
  let v ← npGradientGaps tr ts timeAxis
  match normAxis timeAxis tr.ndim with
  | none => throw .valueError
  | some p =>
    let v ← maybeOutliersGaps v ts (secondDiffGaps tr) p outlier
    maybeFilter ext v p cutoff

/-- `as_rotation_vector(as_quat_array(r))` (external): NaN if one of the four components is NaN. -/
def rotVecsGaps (r : ND (Option ℝ)) : ND (Option ℝ) :=
  ⟨r.shape.dropLast ++ [3], fun idx =>
    if ∃ c ∈ [0, 1, 2, 3], r.get (idx.dropLast ++ [c]) = none then none else some ((rotVecs r.fill).get idx)⟩

/-- core.py:752-770: the estimate before outlier handling, see `rawAngular`. -/
def rawAngularGaps (ext : Ext) (r : ND (Option ℝ)) (ts : List ℝ) (p : ℕ) (mode : String) : Res (ND (Option ℝ)) :=
  if mode = "quaternion" then
    if ts.length ≠ r.shape.getD p 0 then .error .indexError
    else
      let rows := validRows r p
      let tv := rows.map fun i => ts.getD i 0
      match ext.derivErr tv with
      | some e => .error e
      | none =>
        if r.shape.getLast? ≠ some 4 then .error .valueError
        else .ok (scatterRows (r.shape.dropLast ++ [3]) p rows (angularFromDerivative ext (r.takeRows p rows).fill tv p))
  else if mode = "rotation_vector" then
    if r.shape.getLast? ≠ some 4 then .error .valueError else npGradientGaps (rotVecsGaps r) ts p
  else .error .valueError

/-- core.py:728-794 `_estimate_angular_velocity` of an array with NaN, see `estimateAngular`. -/
def estimateAngularGaps (ext : Ext) (rot : ND (Option ℝ)) (ts : List ℝ) (axis : ℤ := -1) (timeAxis : ℤ := 0)
    (mode : String := "quaternion") (outlier cutoff : Option ℝ := none) : Res (ND (Option ℝ)) :=
  if rot.ndim < 2 then .error .valueError
  else do
    let (ax, p) := angularAxes rot.ndim axis timeAxis
    let r := rot.swapaxes ax (rot.ndim - 1)
    let v ← rawAngularGaps ext r ts p mode
    let v ← maybeOutliersGaps v ts (secondDiffGaps (rotVecsGaps r)) p outlier
    let v ← maybeFilter ext v p cutoff
    return v.swapaxes ax (v.ndim - 1)

/-- estimators.py:63-145 `estimate_linear_velocity` of a numpy array with NaN (`_maybe_unpack_dataarray` looks
at the shape only). -/
def estimateLinearVelocityGaps (ext : Ext) (arr : ND (Option ℝ)) (dim : Option String := none) (axis : Option ℤ := none)
    (timestamps : TsArg := .none) (timeAxis : Option ℤ := none) (outlier cutoff : Option ℝ := none) : Res (ND (Option ℝ)) := do
  let u ← maybeUnpack (.nd arr.fill) dim axis timeAxis timestamps
  let ts ← match u.ts with
    | .arr a => stampList (some a)
    | _ => stampList none
  estimateLinearGaps ext arr ts (u.timeAxis.getD 0) outlier cutoff

/-- estimators.py:148-233 `estimate_angular_velocity` of a numpy array with NaN. -/
def estimateAngularVelocityGaps (ext : Ext) (arr : ND (Option ℝ)) (dim : Option String := none) (axis : Option ℤ := none)
    (timestamps : TsArg := .none) (timeAxis : Option ℤ := none) (mode : String := "quaternion")
    (outlier cutoff : Option ℝ := none) : Res (ND (Option ℝ)) := do
  let u ← maybeUnpack (.nd arr.fill) dim axis timeAxis timestamps
  let ts ← match u.ts with
    | .arr a => stampList (some a)
    | _ => stampList none
  estimateAngularGaps ext arr ts u.axis (u.timeAxis.getD 0) mode outlier cutoff

end RBM
