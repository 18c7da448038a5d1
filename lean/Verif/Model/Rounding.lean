import Verif.Model.Transform

/-!
What `TransformMatcher` does with timestamps that are not exactly representable as floats
(core.py:33-141): nanosecond timestamps (`datetime64[ns]`, `int64`) are stored exactly, and selected
and compared exactly, but converted with `.astype(float)` before they are checked for monotonicity
and before frames and arrays are interpolated. The functions below are those of `Model/Matcher`,
`Model/Frames` and `Model/Transform` with that conversion, a parameter `fl`, put where the code has
it. (The arithmetic of the interpolation itself remains exact.)
-/

noncomputable section

namespace RBM

/-- `timestamps.astype(float)`. -/
def roundStamps (fl : ℝ → ℝ) (ts : Option (List ℝ)) : Option (List ℝ) := ts.map (List.map fl)

/-- core.py:33-43 `_check_timestamps`: the check is made on the converted timestamps (37). -/
def checkTimestampsFl (fl : ℝ → ℝ) (timestamps : Option (List ℝ)) (shape0 : ℕ) : Res Unit :=
  checkTimestamps (roundStamps fl timestamps) shape0

/-- core.py:45-78 `_transform_from_frame`: events of discrete frames are compared exactly (60, 63),
everything else is interpolated over converted timestamps (67-77). -/
def transformFromFrameFl (fl : ℝ → ℝ) (sq : SquadFn) (f : MFrame) (timestamps : Option (List ℝ)) :
    Res (Arr Vec × Arr Quat) :=
  if f.discrete then transformFromFrame sq f timestamps
  else transformFromFrame sq { f with timestamps := roundStamps fl f.timestamps } (roundStamps fl timestamps)

/-- core.py:80-105 `_resample_array` with the conversions of lines 97-98 and 104-105. -/
def resampleArrayFl (fl : ℝ → ℝ) (sq : SquadFn) (a : MArray) (timestamps : Option (List ℝ)) : Res (ND ℝ) :=
  resampleArray sq { a with timestamps := roundStamps fl a.timestamps } (roundStamps fl timestamps)

/-- core.py:107-127 `add_reference_frame`: the exact timestamps are stored. -/
def Matcher.addFrameFl (fl : ℝ → ℝ) (m : Matcher) (f : MFrame) : Res Matcher :=
  match checkTimestampsFl fl f.timestamps (firstLen f.translation) with
  | .error e => .error e
  | .ok _ => .ok { m with frames := m.frames ++ [f] }

/-- core.py:129-141 `add_array`: the exact timestamps are stored. -/
def Matcher.addArrayFl (fl : ℝ → ℝ) (m : Matcher) (a : MArray) : Res Matcher :=
  match a.timestamps, a.data.shape with
  | none, _ => .ok { m with arrays := m.arrays ++ [a] }
  | some _, [] => .error .indexError
  | some ts, n :: _ =>
      match checkTimestampsFl fl (some ts) n with
      | .error e => .error e
      | .ok _ => .ok { m with arrays := m.arrays ++ [a] }

/-- Loop body of core.py:267-282. -/
def transStepFl (fl : ℝ → ℝ) (sq : SquadFn) (timestamps : Option (List ℝ)) (f : MFrame)
    (acc : Arr Vec × Arr Quat) : Res (Arr Vec × Arr Quat) := do
  let (t, r) ← transformFromFrameFl fl sq f timestamps
  if f.inverse then
    let ri ← qinvArr r
    let d ← Arr.bzip (fun a b => a - b) acc.1 t
    let t' ← rotateVectors ri d
    let r' ← Arr.bzip (fun a b => a * b) ri acc.2
    return (t', r')
  else
    let d ← rotateVectors r acc.1
    let t' ← Arr.bzip (fun a b => a + b) d t
    let r' ← Arr.bzip (fun a b => a * b) r acc.2
    return (t', r')

/-- core.py:267-282. -/
def transLoopFl (fl : ℝ → ℝ) (sq : SquadFn) (timestamps : Option (List ℝ)) :
    List MFrame → Arr Vec × Arr Quat → Res (Arr Vec × Arr Quat)
  | [], acc => .ok acc
  | f :: fs, acc => match transStepFl fl sq timestamps f acc with
    | .error e => .error e
    | .ok acc' => transLoopFl fl sq timestamps fs acc'

/-- core.py:237-284 `get_transformation`; `get_timestamps` selects and returns exact timestamps. -/
def Matcher.getTransformationFl (fl : ℝ → ℝ) (sq : SquadFn) (m : Matcher) :
    Res (Arr Vec × Arr Quat × Option (List ℝ)) := do
  let ts ← m.getTimestamps true
  let (t, r) ← transLoopFl fl sq ts m.frames (initTranslation ts, .one 1)
  return (t, r, ts)

/-- core.py:286-315 `get_arrays` with one array, `arr, _ = matcher.get_arrays(ts)`
(reference_frames.py:637 and others); see `Matcher.getArray1`. -/
def Matcher.getArray1Fl (fl : ℝ → ℝ) (sq : SquadFn) (m : Matcher) (timestamps : Option (List ℝ)) :
    Res (ND ℝ) := do
  let ts ← match timestamps with
    | none => m.getTimestamps true
    | some ts => Pure.pure (some ts)
  let arrs ← collect (m.arrays.map fun a => resampleArrayFl fl sq a ts)
  match arrs with
  | [a] => return a
  | _ => throw .valueError

/-- core.py:107-127 as called from reference_frames.py:324-327; see `State.addFrame`. -/
def State.addFrameFl (fl : ℝ → ℝ) (s : State) (m : Matcher) (i : ℕ) (inverse : Bool) : Res Matcher :=
  match s.data i with
  | none => .error .attributeError
  | some d => match d.pose with
    | none => .error .attributeError
    | some (t, r) => m.addFrameFl fl ⟨t, r, d.timestamps, d.discrete, inverse⟩

/-- The loops of reference_frames.py:324-327. -/
def State.addFramesFl (fl : ℝ → ℝ) (s : State) (inverse : Bool) : List ℕ → Matcher → Res Matcher
  | [], m => .ok m
  | i :: is, m => match s.addFrameFl fl m i inverse with
    | .error e => .error e
    | .ok m' => s.addFramesFl fl inverse is m'

/-- The loop of reference_frames.py:329-331. -/
def addArraysFl (fl : ℝ → ℝ) : List MArray → Matcher → Res Matcher
  | [], m => .ok m
  | a :: as, m => match m.addArrayFl fl a with
    | .error e => .error e
    | .ok m' => addArraysFl fl as m'

/-- reference_frames.py:319-333 `_get_matcher`. -/
def State.getMatcherFl (fl : ℝ → ℝ) (s : State) (a : ℕ) (dst : FrameRef) (arrays : List MArray) :
    Res Matcher := do
  let (up, down) ← s.walk a dst
  let m ← s.addFramesFl fl false up Matcher.empty
  let m ← s.addFramesFl fl true down m
  addArraysFl fl arrays m

/-- reference_frames.py:562-588 `ReferenceFrame.lookup_transform`. -/
def State.lookupTransformFl (fl : ℝ → ℝ) (sq : SquadFn) (s : State) (a : ℕ) (dst : FrameRef) :
    Res (Arr Vec × Arr Quat × Option (List ℝ)) := do
  let m ← s.getMatcherFl fl a dst []
  m.getTransformationFl fl sq

/-- reference_frames.py:590-649 `transform_vectors`. -/
def State.transformVectorsFl (fl : ℝ → ℝ) (sq : SquadFn) (s : State) (a : ℕ) (arr : ND ℝ)
    (dst : FrameRef) (o : TArgs := {}) : Res PyRet := do
  let (arr, arrTs) ← validateInput arr o.axis 3 o.timestamps o.timeAxis
  let m ← s.getMatcherFl fl a dst [⟨arr, arrTs⟩]
  let (_, r, ts) ← m.getTransformationFl fl sq
  let arr ← m.getArray1Fl fl sq ts
  let r := expandSingletonAxes (ND.ofQuats r) arr.ndim
  let arr ← rotateVectorsF r arr o.axis
  let arr ← undoTimeSwap arr o.timeAxis
  return pyReturn o.returnTimestamps arr ts

/-- reference_frames.py:651-712 `transform_points`. -/
def State.transformPointsFl (fl : ℝ → ℝ) (sq : SquadFn) (s : State) (a : ℕ) (arr : ND ℝ)
    (dst : FrameRef) (o : TArgs := {}) : Res PyRet := do
  let (arr, arrTs) ← validateInput arr o.axis 3 o.timestamps o.timeAxis
  let m ← s.getMatcherFl fl a dst [⟨arr, arrTs⟩]
  let (t, r, ts) ← m.getTransformationFl fl sq
  let arr ← m.getArray1Fl fl sq ts
  let t := expandSingletonAxes (ND.ofVecs t) arr.ndim
  let r := expandSingletonAxes (ND.ofQuats r) arr.ndim
  let arr ← rotateVectorsF r arr o.axis
  let arr ← ND.bop (fun x y => x + y) arr t
  let arr ← undoTimeSwap arr o.timeAxis
  return pyReturn o.returnTimestamps arr ts

/-- reference_frames.py:714-776 `transform_quaternions`. -/
def State.transformQuaternionsFl (fl : ℝ → ℝ) (sq : SquadFn) (s : State) (a : ℕ) (arr : ND ℝ)
    (dst : FrameRef) (o : TArgs := {}) : Res PyRet := do
  let (arr, arrTs) ← validateInput arr o.axis 4 o.timestamps o.timeAxis
  let m ← s.getMatcherFl fl a dst [⟨arr, arrTs⟩]
  let (_, r, ts) ← m.getTransformationFl fl sq
  let arr ← m.getArray1Fl fl sq ts
  let r := expandSingletonAxes (ND.ofQuats r) arr.ndim
  let arr ← arr.swapaxesZ o.axis (-1)
  let rq ← asQuatArray r
  let aq ← asQuatArray arr
  let prod ← ND.bop (fun x y => x * y) rq aq
  let arr ← (asFloatArray prod).swapaxesZ (-1) o.axis
  let arr ← undoTimeSwap arr o.timeAxis
  return pyReturn o.returnTimestamps arr ts

end RBM
