import Verif.Model.ND

/-!
`TransformMatcher` (core.py:25-315).
-/

namespace RBM

/-! ### scipy `interp1d` (linear) -/

/-- `np.searchsorted(x, t)` (side left) for a sorted `x`: number of entries `< t`. -/
noncomputable def searchLeft (xs : List ℝ) (t : ℝ) : ℕ := by
  classical exact (xs.filter (fun x => decide (x < t))).length

/-- `scipy.interpolate.interp1d._check_bounds` and `_call_linear`: bracket `(lo, hi)` used for
query time `t`. `lo = -1` wraps around for a single sample. -/
noncomputable def interpLoc (xs : List ℝ) (t : ℝ) : Res (ℕ × ℕ) := by
  classical exact
  let n := xs.length
  if n = 0 then .error .valueError
  else if t < xs.getD 0 0 ∨ xs.getD (n - 1) 0 < t then .error .valueError
  else
    let hi := min (max (searchLeft xs t) 1) (n - 1)
    let lo := if hi = 0 then n - 1 else hi - 1
    if xs.getD hi 0 = xs.getD lo 0 then .error .nonfinite else .ok (lo, hi)

/-- `slope * (x_new - x_lo) + y_lo`. -/
noncomputable def interpVal {V} [AddCommGroup V] [Module ℝ V] (xs : List ℝ) (ys : List V) (t : ℝ)
    (loc : ℕ × ℕ) : V :=
  (t - xs.getD loc.1 0) • ((1 / (xs.getD loc.2 0 - xs.getD loc.1 0)) •
    (ys.getD loc.2 0 - ys.getD loc.1 0)) + ys.getD loc.1 0

/-- One query of `interp1d(xs, ys, axis=0)`. -/
noncomputable def interpAt {V} [AddCommGroup V] [Module ℝ V] (xs : List ℝ) (ys : List V) (t : ℝ) :
    Res V :=
  if xs.length ≠ ys.length then .error .valueError
  else match interpLoc xs t with
    | .error e => .error e
    | .ok loc => .ok (interpVal xs ys t loc)

/-- Collect the results of a list of queries (first error wins). -/
def collect {α} : List (Res α) → Res (List α)
  | [] => .ok []
  | x :: xs =>
    match x with
    | .error e => .error e
    | .ok a => match collect xs with
      | .error e => .error e
      | .ok as => .ok (a :: as)

/-- Is any query outside the closed range of the data (scipy raises `ValueError`)? -/
noncomputable def anyOutside (xs ts : List ℝ) : Prop :=
  ∃ t ∈ ts, t < xs.getD 0 0 ∨ xs.getD (xs.length - 1) 0 < t

/-- `interp1d(xs, ys, axis=0)(ts)`. Bounds are checked for all queries before evaluation. -/
noncomputable def interp1d {V} [AddCommGroup V] [Module ℝ V] (xs : List ℝ) (ys : List V)
    (ts : List ℝ) : Res (List V) := by
  classical exact
  if xs.length ≠ ys.length then .error .valueError
  else if anyOutside xs ts then .error .valueError
  else collect (ts.map (interpAt xs ys))

/-! ### numpy-quaternion `squad` (external) -/

/-- `squad` evaluated at one output time; external, hence a parameter of the model. -/
abbrev SquadFn := List Quat → List ℝ → ℝ → Quat

/-- `squad(R_in, t_in, t_out)`: empty input or output gives an empty result; a single sample
raises `IndexError` (it accesses `R_in[-2]`). -/
def squad (sq : SquadFn) (qs : List Quat) (xs ts : List ℝ) : Res (List Quat) :=
  if qs = [] ∨ ts = [] then .ok []
  else if qs.length < 2 then .error .indexError
  else .ok (ts.map (sq qs xs))

/-! ### TransformMatcher -/

/-- core.py:18-21 `Frame`. -/
structure MFrame where
  translation : Arr Vec
  rotation : Arr Quat
  timestamps : Option (List ℝ)
  discrete : Bool
  inverse : Bool

/-- core.py:22 `Array`. -/
structure MArray where
  data : ND ℝ
  timestamps : Option (List ℝ)

/-- core.py:25-31. -/
structure Matcher where
  frames : List MFrame
  arrays : List MArray

/-- core.py:29-31. -/
def Matcher.empty : Matcher := ⟨[], []⟩

/-- `shape[0]` of a translation array. -/
def firstLen : Arr Vec → ℕ
  | .one _ => 3
  | .many l => l.length

/-- `np.any(np.diff(ts) < 0)`. -/
def anyDecrease : List ℝ → Prop
  | a :: b :: l => b - a < 0 ∨ anyDecrease (b :: l)
  | _ => False

/-- core.py:33-43 `_check_timestamps`. -/
noncomputable def checkTimestamps (timestamps : Option (List ℝ)) (shape0 : ℕ) : Res Unit := by
  classical exact
  match timestamps with
  | none => .ok ()
  | some ts =>
      if anyDecrease ts then .error .valueError
      else if ts.length ≠ shape0 then .error .valueError
      else .ok ()

/-- `np.tile(data, (n, 1))` for row arrays. -/
def tileRows {α} (n : ℕ) : Arr α → List α
  | .one a => List.replicate n a
  | .many l => (List.replicate n l).flatten

/-- core.py:58-61 / 62-64: `np.tile(rows[0], (n, 1))` and then, for every event,
`out[timestamps >= ts, :] = row`. -/
noncomputable def discreteRows {α} (rows : List α) (events ts : List ℝ) : Res (List α) := by
  classical exact
  match rows with
  | [] => .error .indexError
  | r0 :: _ => .ok <|
      (List.zip rows events).foldl
        (fun out ev => List.zipWith (fun o τ => if τ ≥ ev.2 then ev.1 else o) out ts)
        (List.replicate ts.length r0)

/-- core.py:45-78 `_transform_from_frame`. A timestamped frame with one-dimensional translation
(not constructible, see `initArrays`) is reported as `valueError`. -/
noncomputable def transformFromFrame (sq : SquadFn) (f : MFrame) (timestamps : Option (List ℝ)) :
    Res (Arr Vec × Arr Quat) :=
  match f.timestamps, timestamps with
  | some _, none => .error .valueError
  | none, none => .ok (f.translation, f.rotation)
  | none, some ts =>
      .ok (.many (tileRows ts.length f.translation), .many (tileRows ts.length f.rotation))
  | some fts, some ts =>
      match f.translation, f.rotation with
      | .many tr, .many ro =>
          if f.discrete then
            match discreteRows tr fts ts with
            | .error e => .error e
            | .ok t => match discreteRows ro fts ts with
              | .error e => .error e
              | .ok r => .ok (.many t, .many r)
          else
            match interp1d fts tr ts with
            | .error e => .error e
            | .ok t => match squad sq ro fts ts with
              | .error e => .error e
              | .ok r => .ok (.many t, .many r)
      | _, _ => .error .valueError

/-- core.py:80-105 `_resample_array`. -/
noncomputable def resampleArray (sq : SquadFn) (a : MArray) (timestamps : Option (List ℝ)) :
    Res (ND ℝ) := by
  classical exact
  match a.timestamps, timestamps with
  | some _, none => .error .valueError
  | none, none => .ok a.data
  | none, some ts => .ok (a.data.tileN1 ts.length)
  | some ats, some ts =>
      match a.data.shape with
      | [] => .error .indexError
      | n :: rest =>
        if (n :: rest).getLast? = some 4 then
          -- squad over axis 0 of `as_quat_array(data)`
          match asQuatArray a.data with
          | .error e => .error e
          | .ok q =>
            if n = 0 ∨ ts = [] then .ok ⟨[0, 4], fun _ => 0⟩
            -- a single quaternion: `R_in[1:]` is empty, or (no other axis) not indexable at all
            else if n < 2 ∨ rest = [] then .error .indexError
            else .ok (asFloatArray ⟨ts.length :: rest.dropLast, fun idx =>
              sq ((List.range n).map fun i => q.get (i :: idx.drop 1)) ats
                (ts.getD (idx.getD 0 0) 0)⟩)
        else if ats.length ≠ n then .error .valueError
        else if anyOutside ats ts then .error .valueError
        else match collect (ts.map (interpLoc ats)) with
          | .error e => .error e
          | .ok locs => .ok ⟨ts.length :: rest, fun idx =>
              interpVal ats ((List.range n).map fun i => a.data.get (i :: idx.drop 1))
                (ts.getD (idx.getD 0 0) 0) (locs.getD (idx.getD 0 0) (0, 0))⟩

/-- core.py:107-127 `add_reference_frame`. -/
noncomputable def Matcher.addFrame (m : Matcher) (f : MFrame) : Res Matcher :=
  match checkTimestamps f.timestamps (firstLen f.translation) with
  | .error e => .error e
  | .ok _ => .ok { m with frames := m.frames ++ [f] }

/-- core.py:129-141 `add_array`; a zero-dimensional array has no `shape[0]`. -/
noncomputable def Matcher.addArray (m : Matcher) (a : MArray) : Res Matcher :=
  match a.timestamps, a.data.shape with
  | none, _ => .ok { m with arrays := m.arrays ++ [a] }
  | some _, [] => .error .indexError
  | some ts, n :: _ =>
      match checkTimestamps (some ts) n with
      | .error e => .error e
      | .ok _ => .ok { m with arrays := m.arrays ++ [a] }

/-- The timestamp lists that define the range: continuous frames, then arrays
(core.py:155-160, 162-167). -/
def Matcher.continuous (m : Matcher) : List (List ℝ) :=
  (m.frames.filterMap fun f => if f.discrete then none else f.timestamps) ++
    m.arrays.filterMap (·.timestamps)

/-- `timestamps[0]` / `timestamps[-1]` over all lists; an empty list raises `IndexError`. -/
def firstStamps : List (List ℝ) → Res (List ℝ)
  | [] => .ok []
  | [] :: _ => .error .indexError
  | (a :: _) :: ls => match firstStamps ls with
    | .error e => .error e
    | .ok r => .ok (a :: r)

/-- see `firstStamps`. -/
def lastStamps : List (List ℝ) → Res (List ℝ)
  | [] => .ok []
  | [] :: _ => .error .indexError
  | (a :: l) :: ls => match lastStamps ls with
    | .error e => .error e
    | .ok r => .ok ((a :: l).getLast (by simp) :: r)

/-- `np.max` of a non-empty list / `None`. -/
noncomputable def npMax : List ℝ → Option ℝ
  | [] => none
  | a :: l => some (l.foldl max a)

/-- `np.min` of a non-empty list / `None`. -/
noncomputable def npMin : List ℝ → Option ℝ
  | [] => none
  | a :: l => some (l.foldl min a)

/-- core.py:143-173 `get_range`. -/
noncomputable def Matcher.getRange (m : Matcher) : Res (Option ℝ × Option ℝ) :=
  match firstStamps m.continuous with
  | .error e => .error e
  | .ok fs => match lastStamps m.continuous with
    | .error e => .error e
    | .ok ls => .ok (npMax fs, npMin ls)

/-- `np.unique`: insert into a strictly sorted list. -/
noncomputable def insertUnique (a : ℝ) : List ℝ → List ℝ
  | [] => [a]
  | b :: l => by
      classical exact if a < b then a :: b :: l else if a = b then b :: l else b :: insertUnique a l

/-- `np.unique`. -/
noncomputable def npUnique (l : List ℝ) : List ℝ := l.foldr insertUnique []

/-- `(ts >= first) & (ts <= last)` selection; `None` stands for ∓inf (core.py:196-199). -/
noncomputable def selectRange (range : Option ℝ × Option ℝ) (ts : List ℝ) : List ℝ := by
  classical exact (ts.filter
    (fun t => decide ((∀ f, range.1 = some f → f ≤ t) ∧ (∀ l, range.2 = some l → t ≤ l))))

/-- core.py:175-235 `get_timestamps`. -/
noncomputable def Matcher.getTimestamps (m : Matcher) (arraysFirst : Bool := true) :
    Res (Option (List ℝ)) :=
  match m.getRange with
  | .error e => .error e
  | .ok range =>
    let arrays := m.arrays.filterMap (·.timestamps)
    let discrete := m.frames.filterMap fun f => if f.discrete then f.timestamps else none
    let continuous := m.frames.filterMap fun f => if f.discrete then none else f.timestamps
    let elements := if arraysFirst then arrays ++ continuous else continuous ++ arrays
    match elements with
    | ts :: _ => .ok (some (selectRange range ts))
    | [] => match discrete with
      | [] => .ok none
      | ds => .ok (some (npUnique ds.flatten))

/-- Loop body of core.py:267-282. -/
noncomputable def transStep (sq : SquadFn) (timestamps : Option (List ℝ)) (f : MFrame)
    (acc : Arr Vec × Arr Quat) : Res (Arr Vec × Arr Quat) := do
  let (t, r) ← transformFromFrame sq f timestamps
  if f.inverse then
    let ri ← qinvArr r
    let d ← Arr.bzip (fun a b => a - b) acc.1 t
    let t' ← rotateVectors ri d
    let r' ← Arr.bzip (fun a b => a * b) ri acc.2
    return (t', r')
  else
    let d ← rotateVectors r acc.1
    let t' ← Arr.bzip (fun a b => a + b) d t
    let r' ← Arr.bzip (fun a b => a * b) r acc.2
    return (t', r')

/-- core.py:267-282. -/
noncomputable def transLoop (sq : SquadFn) (timestamps : Option (List ℝ)) :
    List MFrame → Arr Vec × Arr Quat → Res (Arr Vec × Arr Quat)
  | [], acc => .ok acc
  | f :: fs, acc => match transStep sq timestamps f acc with
    | .error e => .error e
    | .ok acc' => transLoop sq timestamps fs acc'

/-- core.py:263-264: initial translation. -/
def initTranslation (timestamps : Option (List ℝ)) : Arr Vec :=
  match timestamps with
  | none => .one 0
  | some _ => .many [0]

/-- core.py:237-284 `get_transformation`. -/
noncomputable def Matcher.getTransformation (sq : SquadFn) (m : Matcher)
    (timestamps : Option (List ℝ) := none) (arraysFirst : Bool := true) :
    Res (Arr Vec × Arr Quat × Option (List ℝ)) := do
  let ts ← match timestamps with
    | none => m.getTimestamps arraysFirst
    | some ts => pure (some ts)
  let (t, r) ← transLoop sq ts m.frames (initTranslation ts, .one 1)
  return (t, r, ts)

/-- core.py:286-315 `get_arrays`. -/
noncomputable def Matcher.getArrays (sq : SquadFn) (m : Matcher)
    (timestamps : Option (List ℝ) := none) (arraysFirst : Bool := true) :
    Res (List (ND ℝ) × Option (List ℝ)) := do
  let ts ← match timestamps with
    | none => m.getTimestamps arraysFirst
    | some ts => pure (some ts)
  let arrs ← collect (m.arrays.map fun a => resampleArray sq a ts)
  return (arrs, ts)

end RBM
