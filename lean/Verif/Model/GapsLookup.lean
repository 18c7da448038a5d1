import Verif.Model.GapsTransform

/-!
`lookup_transform` through frames whose recorded poses have missing (NaN) entries
(core.py:45-78, 107-127, 237-284, reference_frames.py:319-333, 562-588). A missing number is `none`; every arithmetic operation
with a missing operand is missing. `Model/Matcher` and `Model/Frames` model the same code for complete recordings.
Simplification: an orientation with a NaN in one component is missing as a whole (every operation on orientations that follows
mixes the four components).
-/

noncomputable section

namespace RBM

/-- A row of a translation array. -/
abbrev GVec := Fin 3 → Option ℝ

/-- A row all entries of which are known. -/
def GVec.known (v : GVec) : Option Vec :=
  match v 0, v 1, v 2 with
  | some x, some y, some z => some ![x, y, z]
  | _, _, _ => none

/-- The data of a frame (`translation`, `rotation`, `timestamps`, `discrete`), see `FrameData`. -/
structure GapData where
  pose : Option (Arr GVec × Arr (Option Quat))
  timestamps : Option (List ℝ)
  discrete : Bool

/-- core.py:18-21 `Frame`, see `MFrame`. -/
structure GFrame where
  translation : Arr GVec
  rotation : Arr (Option Quat)
  timestamps : Option (List ℝ)
  discrete : Bool
  inverse : Bool

/-- `squad` evaluated at one output time for orientations some of which are missing; external, hence a parameter of the model. -/
abbrev SquadGapsFn := List (Option Quat) → List ℝ → ℝ → Option Quat

/-- A rotated vector: every component is computed from all components of the vector and of the orientation. -/
def rotGaps (f : Quat → Vec → Vec) (q : Option Quat) (v : GVec) : GVec :=
  match q, v.known with
  | some q, some v => fun k => some (f q v k)
  | _, _ => fun _ => none

/-- `a - b`, `a + b` for rows. -/
def subGaps (v w : GVec) : GVec := fun k => nan2 (fun x y => x - y) (v k) (w k)
def addGaps (v w : GVec) : GVec := fun k => nan2 (fun x y => x + y) (v k) (w k)

/-- Products of quaternions. -/
def mulGaps : Option Quat → Option Quat → Option Quat
  | some p, some q => some (p * q)
  | _, _ => none

open Classical in
/-- utils.py:197-263 `rotate_vectors(q, v)`, see `rotateVectors`. -/
def rotateVectorsGaps : Arr (Option Quat) → Arr GVec → Res (Arr GVec)
  | .one q, v => if q = some 0 then .error .zeroDivisionError else .ok (v.map (rotGaps rotateMatrixForm q))
  | .many _, .one _ => .error .valueError
  | .many qs, .many vs =>
      match Arr.bzip (rotGaps rotateCrossForm) (.many qs) (.many vs) with
      | .error e => .error e
      | .ok r => if some 0 ∈ qs then .error .nonfinite else .ok r

open Classical in
/-- `1 / as_quat_array(r)` in core.py:272-275, see `qinvArr`. -/
def qinvArrGaps : Arr (Option Quat) → Res (Arr (Option Quat))
  | .one q => if q = some 0 then .error .nonfinite else .ok (.one (q.map fun q => q⁻¹))
  | .many qs => if some 0 ∈ qs then .error .nonfinite else .ok (.many (qs.map fun q => q.map fun q => q⁻¹))

/-- One component of `slope * (x_new - x_lo) + y_lo`, see `interpVal`. -/
def interpValGaps (xs : List ℝ) (ys : List GVec) (t : ℝ) (loc : ℕ × ℕ) : GVec := fun k =>
  nan2 (fun lo hi => (t - xs.getD loc.1 0) * ((1 / (xs.getD loc.2 0 - xs.getD loc.1 0)) * (hi - lo)) + lo)
    (ys.getD loc.1 (fun _ => none) k) (ys.getD loc.2 (fun _ => none) k)

open Classical in
/-- `interp1d(xs, ys, axis=0)(ts)`, see `interp1d`. -/
def interp1dGaps (xs : List ℝ) (ys : List GVec) (ts : List ℝ) : Res (List GVec) :=
  if xs.length ≠ ys.length then .error .valueError
  else if anyOutside xs ts then .error .valueError
  else collect (ts.map fun t => match interpLoc xs t with
    | .error e => .error e
    | .ok loc => .ok (interpValGaps xs ys t loc))

/-- `squad(R_in, t_in, t_out)`, see `squad`. -/
def squadGaps (sq : SquadGapsFn) (qs : List (Option Quat)) (xs ts : List ℝ) : Res (List (Option Quat)) :=
  if qs = [] ∨ ts = [] then .ok []
  else if qs.length < 2 then .error .indexError
  else .ok (ts.map (sq qs xs))

/-- core.py:45-78 `_transform_from_frame`, see `transformFromFrame`. -/
def transformFromFrameGaps (sq : SquadGapsFn) (f : GFrame) (timestamps : Option (List ℝ)) : Res (Arr GVec × Arr (Option Quat)) :=
  match f.timestamps, timestamps with
  | some _, none => .error .valueError
  | none, none => .ok (f.translation, f.rotation)
  | none, some ts => .ok (.many (tileRows ts.length f.translation), .many (tileRows ts.length f.rotation))
  | some fts, some ts =>
      match f.translation, f.rotation with
      | .many tr, .many ro =>
          if f.discrete then
            match discreteRows tr fts ts with
            | .error e => .error e
            | .ok t => match discreteRows ro fts ts with
              | .error e => .error e
              | .ok r => .ok (.many t, .many r)
          else
            match interp1dGaps fts tr ts with
            | .error e => .error e
            | .ok t => match squadGaps sq ro fts ts with
              | .error e => .error e
              | .ok r => .ok (.many t, .many r)
      | _, _ => .error .valueError

/-- Loop body of core.py:267-282, see `transStep`. -/
def transStepGaps (sq : SquadGapsFn) (timestamps : Option (List ℝ)) (f : GFrame) (acc : Arr GVec × Arr (Option Quat)) :
    Res (Arr GVec × Arr (Option Quat)) := do
  let (t, r) ← transformFromFrameGaps sq f timestamps
  if f.inverse then
    let ri ← qinvArrGaps r
    let d ← Arr.bzip subGaps acc.1 t
    let t' ← rotateVectorsGaps ri d
    let r' ← Arr.bzip mulGaps ri acc.2
    return (t', r')
  else
    let d ← rotateVectorsGaps r acc.1
    let t' ← Arr.bzip addGaps d t
    let r' ← Arr.bzip mulGaps r acc.2
    return (t', r')

/-- core.py:267-282, see `transLoop`. -/
def transLoopGaps (sq : SquadGapsFn) (timestamps : Option (List ℝ)) :
    List GFrame → Arr GVec × Arr (Option Quat) → Res (Arr GVec × Arr (Option Quat))
  | [], acc => .ok acc
  | f :: fs, acc => match transStepGaps sq timestamps f acc with
    | .error e => .error e
    | .ok acc' => transLoopGaps sq timestamps fs acc'

/-- core.py:263-264: initial translation. -/
def initTranslationGaps (timestamps : Option (List ℝ)) : Arr GVec :=
  match timestamps with
  | none => .one fun _ => some 0
  | some _ => .many [fun _ => some 0]

/-- `shape[0]` of a translation array. -/
def firstLenGaps : Arr GVec → ℕ
  | .one _ => 3
  | .many l => l.length

/-- core.py:107-127 `add_reference_frame` as called in the loops of reference_frames.py:324-327, see `State.addFrames`. -/
def addFramesGaps (gd : ℕ → Option GapData) (inverse : Bool) : List ℕ → List GFrame → Res (List GFrame)
  | [], fs => .ok fs
  | i :: is, fs => match gd i with
    | none => .error .attributeError
    | some d => match d.pose with
      | none => .error .attributeError
      | some (t, r) => match checkTimestamps d.timestamps (firstLenGaps t) with
        | .error e => .error e
        | .ok _ => addFramesGaps gd inverse is (fs ++ [⟨t, r, d.timestamps, d.discrete, inverse⟩])

/-- The matcher as far as the choice of the timestamps (core.py:143-235) looks at it. -/
def GFrame.stamps (f : GFrame) : MFrame := ⟨.one 0, .one 0, f.timestamps, f.discrete, f.inverse⟩

/-- reference_frames.py:562-588 `lookup_transform`, see `State.lookupTransform`: `s` are the registered frames, `gd i` is the
recording of frame `i` (in place of `s.data i`). -/
def State.lookupTransformGaps (sq : SquadGapsFn) (s : State) (gd : ℕ → Option GapData) (a : ℕ) (dst : FrameRef) :
    Res (Arr GVec × Arr (Option Quat) × Option (List ℝ)) := do
  let (up, down) ← s.walk a dst
  let fs ← addFramesGaps gd false up []
  let fs ← addFramesGaps gd true down fs
  let ts ← (⟨fs.map GFrame.stamps, []⟩ : Matcher).getTimestamps
  let (t, r) ← transLoopGaps sq ts fs (initTranslationGaps ts, .one (some 1))
  return (t, r, ts)

end RBM
