import Verif.Model.Transform

/-!
The array memory behind the frames: which functions copy arrays, which keep references to them and
which write into them (`reference_frames.py`, `core.py`, numpy). The other files treat arrays as
values; here a numpy array is a reference to a buffer in memory, `np.asarray` of an array is the
array itself, `np.swapaxes` is a view, operations that compute something allocate, and
`a[...] = b` writes in place.
-/

noncomputable section

namespace RBM.Heap

open RBM

/-! ### memory -/

/-- The memory: buffers numbered in order of allocation, each with cells addressed by the indices of
the array that was allocated. -/
structure Mem where
  cells : List (List ℕ → ℝ)

/-- Number of buffers. -/
def Mem.size (m : Mem) : ℕ := m.cells.length

/-- Contents of a buffer. -/
def Mem.buffer (m : Mem) (b : ℕ) : List ℕ → ℝ := m.cells.getD b fun _ => 0

/-- A numpy array object: a buffer, the shape, and which cell each entry is stored in (views). -/
structure NdRef where
  buf : ℕ
  shape : List ℕ
  index : List ℕ → List ℕ

/-- The values of an array. -/
def Mem.read (m : Mem) (r : NdRef) : ND ℝ := ⟨r.shape, fun idx => m.buffer r.buf (r.index idx)⟩

open Classical in
/-- `r[...] = c`: the cells of the entries of `r` are overwritten. -/
def Mem.write (m : Mem) (r : NdRef) (c : List ℕ → ℝ) : Mem :=
  ⟨m.cells.set r.buf fun j =>
    if h : ∃ idx, Valid r.shape idx ∧ r.index idx = j then c h.choose else m.buffer r.buf j⟩

/-- Programs that allocate and write arrays; an exception does not undo what was written. -/
def HP (α : Type) := Mem → Res α × Mem

instance : Monad HP where
  pure a := fun m => (.ok a, m)
  bind p f := fun m => match p m with
    | (.ok a, m') => f a m'
    | (.error e, m') => (.error e, m')

/-- Computations that do not touch the memory. -/
def lift {α} (x : Res α) : HP α := fun m => (x, m)

/-- numpy functions that return a new array. -/
def new (c : ND ℝ) : HP NdRef := fun m => (.ok ⟨m.size, c.shape, id⟩, ⟨m.cells ++ [c.get]⟩)

/-- Reading an array. -/
def get (r : NdRef) : HP (ND ℝ) := fun m => (.ok (m.read r), m)

/-- In-place assignment. -/
def put (r : NdRef) (c : List ℕ → ℝ) : HP Unit := fun m => (.ok (), m.write r c)

/-- An array argument: an array, or a (nested) list or tuple of numbers. -/
inductive ArrayLike
  | array (r : NdRef)
  | nested (c : ND ℝ)

/-- `np.asarray`: arrays are not copied. -/
def asarray : ArrayLike → HP NdRef
  | .array r => pure r
  | .nested c => new c

/-- `np.swapaxes`: a view. -/
def swapRef (r : NdRef) (i j : ℤ) : HP NdRef :=
  match normAxis i r.shape.length, normAxis j r.shape.length with
  | some i, some j => pure ⟨r.buf, swapL i j r.shape, fun idx => r.index (swapL i j idx)⟩
  | _, _ => lift (.error .valueError)

/-! ### arrays of frames -/

/-- A translation array `(3,)` / `(n, 3)` by rows. -/
def vecsOf (c : ND ℝ) : Arr Vec :=
  match c.shape with
  | [n, _] => .many (vecRows c n)
  | _ => .one fun i => c.get [i]

/-- A rotation array `(4,)` / `(n, 4)` by rows. -/
def quatsOf (c : ND ℝ) : Arr Quat :=
  match c.shape with
  | [n, _] => .many (quatRows c n)
  | _ => .one ⟨c.get [0], c.get [1], c.get [2], c.get [3]⟩

/-- Timestamps by entries. -/
def stampList (c : ND ℝ) : List ℝ := (List.range (c.shape.getD 0 0)).map fun k => c.get [k]

/-- A one-dimensional array. -/
def stampArray (l : List ℝ) : ND ℝ := ⟨[l.length], fun idx => l.getD (idx.getD 0 0) 0⟩

/-- The attributes of a `ReferenceFrame` (reference_frames.py:182-196). -/
structure HFrame where
  pose : Option (NdRef × NdRef)
  timestamps : Option NdRef
  discrete : Bool

/-- The values of the attributes. -/
def HFrame.read (m : Mem) (f : HFrame) : FrameData :=
  ⟨f.pose.map fun p => (vecsOf (m.read p.1), quatsOf (m.read p.2)),
    f.timestamps.map fun r => stampList (m.read r), f.discrete⟩

/-- Arguments of `ReferenceFrame(...)`. -/
structure HArgs where
  translation : Option ArrayLike := none
  rotation : Option ArrayLike := none
  timestamps : Option ArrayLike := none
  inverse : Bool := false
  discrete : Bool := false

/-- reference_frames.py:219-224. -/
def initTimestampsH : Option ArrayLike → HP (Option NdRef)
  | none => pure none
  | some a => do
    let r ← asarray a
    match r.shape with
    | [_] => pure (some r)
    | _ => lift (.error .valueError)

/-- `t_shape` / `r_shape` (reference_frames.py:224-228). -/
def rowShape (ts : Option NdRef) (k : ℕ) : List ℕ :=
  match ts with
  | none => [k]
  | some r => [r.shape.getD 0 0, k]

/-- reference_frames.py:229-237. -/
def initTranslationH (ts : Option NdRef) : Option ArrayLike → HP NdRef
  | none => new ⟨rowShape ts 3, fun _ => 0⟩
  | some a => do
    let r ← asarray a
    if r.shape = rowShape ts 3 then pure r else lift (.error .valueError)

/-- reference_frames.py:239-248; `rotation[..., 0] = 1.0` writes into the new array. -/
def initRotationH (ts : Option NdRef) : Option ArrayLike → HP NdRef
  | none => do
    let r ← new ⟨rowShape ts 4, fun _ => 0⟩
    let c ← get r
    put r fun idx => if idx.getLast?.getD 0 = 0 then 1 else c.get idx
    pure r
  | some a => do
    let r ← asarray a
    if r.shape = rowShape ts 4 then pure r else lift (.error .valueError)

/-- reference_frames.py:216-254 `_init_arrays`. -/
def initArraysH (args : HArgs) : HP (NdRef × NdRef × Option NdRef) := do
  let ts ← initTimestampsH args.timestamps
  let t ← initTranslationH ts args.translation
  let r ← initRotationH ts args.rotation
  if args.inverse then
    let rc ← get r
    let q ← lift (qinvArr (quatsOf rc))
    let r' ← new (ND.ofQuats q)
    let tc ← get t
    let v ← lift (rotateVectors q (vecsOf tc))
    let t' ← new (ND.ofVecs (v.map fun v => -v))
    pure (t', r', ts)
  else
    pure (t, r, ts)

/-! ### the matcher -/

/-- core.py:18-21 `Frame`. -/
structure HMFrame where
  translation : NdRef
  rotation : NdRef
  timestamps : Option NdRef
  discrete : Bool
  inverse : Bool

/-- The values of a `Frame`. -/
def HMFrame.read (m : Mem) (f : HMFrame) : MFrame :=
  ⟨vecsOf (m.read f.translation), quatsOf (m.read f.rotation), f.timestamps.map fun r => stampList (m.read r),
    f.discrete, f.inverse⟩

/-- core.py:22 `Array`. -/
structure HMArray where
  data : NdRef
  timestamps : Option NdRef

/-- The values of an `Array`. -/
def HMArray.read (m : Mem) (a : HMArray) : MArray :=
  ⟨m.read a.data, a.timestamps.map fun r => stampList (m.read r)⟩

/-- core.py:25-31. -/
structure HMatcher where
  frames : List HMFrame
  arrays : List HMArray

/-- The values of the matcher. -/
def HMatcher.read (m : Mem) (x : HMatcher) : Matcher := ⟨x.frames.map (HMFrame.read m), x.arrays.map (HMArray.read m)⟩

/-- core.py:175-235 `get_timestamps`: boolean indexing, `np.concatenate` and `np.unique` make copies. -/
def getTimestampsH (x : HMatcher) : HP (Option NdRef) := fun m =>
  match (x.read m).getTimestamps true with
  | .error e => (.error e, m)
  | .ok none => (.ok none, m)
  | .ok (some ts) => (do let r ← new (stampArray ts); pure (some r)) m

/-- core.py:58-61: `translation = np.tile(row, (n, 1))`, then `translation[timestamps >= ts, :] = t`
for every event. -/
def discreteLoopV (ts : List ℝ) (out : NdRef) : List (Vec × ℝ) → HP Unit
  | [] => pure ()
  | (v, ev) :: es => do
    let c ← get out
    put out fun idx => open Classical in
      if ts.getD (idx.getD 0 0) 0 ≥ ev then v (Fin.ofNat 3 (idx.getD 1 0)) else c.get idx
    discreteLoopV ts out es

/-- core.py:62-64. -/
def discreteLoopQ (ts : List ℝ) (out : NdRef) : List (Quat × ℝ) → HP Unit
  | [] => pure ()
  | (q, ev) :: es => do
    let c ← get out
    put out fun idx => open Classical in
      if ts.getD (idx.getD 0 0) 0 ≥ ev then qcomp q (idx.getD 1 0) else c.get idx
    discreteLoopQ ts out es

/-- core.py:58-61. -/
def discreteV (rows : List Vec) (events ts : List ℝ) : HP NdRef :=
  match rows with
  | [] => lift (.error .indexError)
  | r0 :: _ => do
    let out ← new (ND.ofVecs (.many (List.replicate ts.length r0)))
    discreteLoopV ts out (List.zip rows events)
    pure out

/-- core.py:62-64. -/
def discreteQ (rows : List Quat) (events ts : List ℝ) : HP NdRef :=
  match rows with
  | [] => lift (.error .indexError)
  | r0 :: _ => do
    let out ← new (ND.ofQuats (.many (List.replicate ts.length r0)))
    discreteLoopQ ts out (List.zip rows events)
    pure out

/-- core.py:45-78 `_transform_from_frame`: without timestamps the arrays of the frame themselves are
returned. -/
def transformFromFrameH (sq : SquadFn) (f : HMFrame) (timestamps : Option (List ℝ)) : HP (NdRef × NdRef) := fun m =>
  let x := f.read m
  (match x.timestamps, timestamps with
  | some _, none => lift (.error .valueError)
  | none, none => pure (f.translation, f.rotation)
  | none, some ts => do
      let t ← new (ND.ofVecs (.many (tileRows ts.length x.translation)))
      let r ← new (ND.ofQuats (.many (tileRows ts.length x.rotation)))
      pure (t, r)
  | some fts, some ts =>
      match x.translation, x.rotation with
      | .many tr, .many ro =>
          if f.discrete then do
            let t ← discreteV tr fts ts
            let r ← discreteQ ro fts ts
            pure (t, r)
          else do
            let tv ← lift (interp1d fts tr ts)
            let t ← new (ND.ofVecs (.many tv))
            let rv ← lift (squad sq ro fts ts)
            let r ← new (ND.ofQuats (.many rv))
            pure (t, r)
      | _, _ => lift (.error .valueError)) m

/-- core.py:272-282: new arrays from the accumulated ones and those of one frame. -/
def combineStep (inverse : Bool) (acc tr : Arr Vec × Arr Quat) : Res (Arr Vec × Arr Quat) :=
  if inverse then do
    let ri ← qinvArr tr.2
    let d ← Arr.bzip (fun a b => a - b) acc.1 tr.1
    let t' ← rotateVectors ri d
    let r' ← Arr.bzip (fun a b => a * b) ri acc.2
    return (t', r')
  else do
    let d ← rotateVectors tr.2 acc.1
    let t' ← Arr.bzip (fun a b => a + b) d tr.1
    let r' ← Arr.bzip (fun a b => a * b) tr.2 acc.2
    return (t', r')

/-- core.py:267-282. -/
def transLoopH (sq : SquadFn) (timestamps : Option (List ℝ)) : List HMFrame → NdRef × NdRef → HP (NdRef × NdRef)
  | [], acc => pure acc
  | f :: fs, acc => do
    let (t, r) ← transformFromFrameH sq f timestamps
    let at' ← get acc.1
    let ar ← get acc.2
    let tc ← get t
    let rc ← get r
    let p ← lift (combineStep f.inverse (vecsOf at', quatsOf ar) (vecsOf tc, quatsOf rc))
    let t' ← new (ND.ofVecs p.1)
    let r' ← new (ND.ofQuats p.2)
    transLoopH sq timestamps fs (t', r')

/-- core.py:237-284 `get_transformation`. -/
def getTransformationH (sq : SquadFn) (x : HMatcher) : HP (NdRef × NdRef × Option NdRef) := do
  let ts ← getTimestampsH x
  let tl ← (fun m => (.ok (ts.map fun r => stampList (m.read r)), m) : HP (Option (List ℝ)))
  let t0 ← new (ND.ofVecs (initTranslation tl))
  let r0 ← new (ND.ofQuats (.one 1))
  let (t, r) ← transLoopH sq tl x.frames (t0, r0)
  pure (t, r, ts)

/-- core.py:80-105 `_resample_array`: without timestamps the array itself is returned. -/
def resampleArrayH (sq : SquadFn) (a : HMArray) (timestamps : Option (List ℝ)) : HP NdRef := fun m =>
  match a.timestamps, timestamps with
  | none, none => (.ok a.data, m)
  | _, _ => (do let c ← lift (resampleArray sq (a.read m) timestamps); new c) m

/-! ### the process -/

/-- The process: memory, names and tree and registry (`st`, whose `data` is not used), and the
attributes of the frame objects. -/
structure HState where
  mem : Mem
  st : State
  obj : ℕ → Option HFrame

/-- Fresh interpreter. -/
def HState.init : HState := ⟨⟨[]⟩, State.init, fun _ => none⟩

/-- The frames as values. -/
def HState.view (s : HState) : State := { s.st with data := fun i => (s.obj i).map (HFrame.read s.mem) }

/-- reference_frames.py:256-265 `_verify_root`. -/
def verifyRootH (args : HArgs) : Res Unit :=
  if args.translation.isSome then .error .valueError
  else if args.rotation.isSome then .error .valueError
  else if args.timestamps.isSome then .error .valueError
  else .ok ()

/-- reference_frames.py:137-201 `ReferenceFrame.__init__`. -/
def HState.construct (s : HState) (name : Option String) (parent : Option FrameRef) (args : HArgs) : HState × Res ℕ :=
  let i := s.st.size
  let st1 := s.st.alloc name
  let obj1 := Function.update s.obj i none
  match parent with
  | none =>
      match verifyRootH args with
      | .error e => (⟨s.mem, st1, obj1⟩, .error e)
      | .ok _ => if args.discrete then (⟨s.mem, st1, obj1⟩, .error .valueError)
                 else (⟨s.mem, st1, Function.update s.obj i (some ⟨none, none, false⟩)⟩, .ok i)
  | some ref =>
      match s.st.resolve ref with
      | .error e => (⟨s.mem, st1, obj1⟩, .error e)
      | .ok p => match st1.setParent i (some p) with
        | (st2, .error e) => (⟨s.mem, st2, obj1⟩, .error e)
        | (st2, .ok _) => match initArraysH args s.mem with
          | (.error e, m) => (⟨m, st2, obj1⟩, .error e)
          | (.ok (t, r, ts), m) =>
              if args.discrete ∧ ts.isNone then (⟨m, st2, obj1⟩, .error .valueError)
              else (⟨m, st2, Function.update s.obj i (some ⟨some (t, r), ts, args.discrete⟩)⟩, .ok i)

/-- reference_frames.py:57-115 `register_frame`. -/
def HState.registerFrame (s : HState) (name : Option String) (parent : Option FrameRef) (args : HArgs)
    (update : Bool) : HState × Res Unit :=
  match s.construct name parent args with
  | (s', .error e) => (s', .error e)
  | (s', .ok i) => match s'.st.register i update with
    | (st, r) => (⟨s'.mem, st, s'.obj⟩, r)

/-- reference_frames.py:324-327 with core.py:107-127; see `State.addFrame`. -/
def addFrameH (s : HState) (x : HMatcher) (i : ℕ) (inverse : Bool) : HP HMatcher := fun m =>
  match s.obj i with
  | none => (.error .attributeError, m)
  | some f => match f.pose with
    | none => (.error .attributeError, m)
    | some (t, r) =>
      match checkTimestamps (f.timestamps.map fun r => stampList (m.read r)) (firstLen (vecsOf (m.read t))) with
      | .error e => (.error e, m)
      | .ok _ => (.ok { x with frames := x.frames ++ [⟨t, r, f.timestamps, f.discrete, inverse⟩] }, m)

/-- The loops of reference_frames.py:324-327. -/
def addFramesH (s : HState) (inverse : Bool) : List ℕ → HMatcher → HP HMatcher
  | [], x => pure x
  | i :: is, x => do
    let x' ← addFrameH s x i inverse
    addFramesH s inverse is x'

/-- core.py:129-141 `add_array`: the array itself is stored. -/
def addArrayH (x : HMatcher) (a : HMArray) : HP HMatcher := fun m =>
  match a.timestamps.map fun r => stampList (m.read r), a.data.shape with
  | none, _ => (.ok { x with arrays := x.arrays ++ [a] }, m)
  | some _, [] => (.error .indexError, m)
  | some ts, n :: _ => match checkTimestamps (some ts) n with
    | .error e => (.error e, m)
    | .ok _ => (.ok { x with arrays := x.arrays ++ [a] }, m)

/-- The loop of reference_frames.py:329-331. -/
def addArraysH : List HMArray → HMatcher → HP HMatcher
  | [], x => pure x
  | a :: as, x => do
    let x' ← addArrayH x a
    addArraysH as x'

/-- reference_frames.py:319-333 `_get_matcher`. -/
def getMatcherH (s : HState) (a : ℕ) (dst : FrameRef) (arrays : List HMArray) : HP HMatcher := do
  let (up, down) ← lift (s.st.walk a dst)
  let x ← addFramesH s false up ⟨[], []⟩
  let x ← addFramesH s true down x
  addArraysH arrays x

/-- reference_frames.py:562-588 `lookup_transform`. -/
def lookupTransformH (sq : SquadFn) (s : HState) (a : ℕ) (dst : FrameRef) : HP (NdRef × NdRef × Option NdRef) := do
  let x ← getMatcherH s a dst []
  getTransformationH sq x

/-- Keyword arguments of the transform functions. -/
structure HTArgs where
  axis : ℤ := -1
  timeAxis : Option ℤ := some 0
  timestamps : Option ArrayLike := none
  returnTimestamps : Bool := false

/-- What a transform function returns. -/
inductive HRet
  | single (a : NdRef)
  | withTs (a : NdRef) (ts : Option NdRef)

/-- The values of what is returned. -/
def HRet.read (m : Mem) : HRet → PyRet
  | .single a => .single (m.read a)
  | .withTs a ts => .withTs (m.read a) (ts.map fun r => stampList (m.read r))

/-- reference_frames.py:267-291 `_validate_input`. -/
def validateInputH (arr : ArrayLike) (axis : ℤ) (nAxis : ℕ) (timestamps : Option ArrayLike) (timeAxis : Option ℤ) :
    HP HMArray := do
  let arr ← asarray arr
  let k ← lift (pyShape arr.shape axis)
  if k ≠ nAxis then lift (.error .valueError)
  else match timestamps with
    | none => pure ⟨arr, none⟩
    | some ts => do
      let ts ← asarray ts
      match ts.shape with
      | [n] => match timeAxis with
        | none => lift (.error .typeError)
        | some ta => do
          let l ← lift (pyShape arr.shape ta)
          if l ≠ n then lift (.error .valueError)
          else do
            let arr ← swapRef arr 0 ta
            pure ⟨arr, some ts⟩
      | _ => lift (.error .valueError)

/-- `arr, _ = matcher.get_arrays(ts)` with one array (core.py:286-315). -/
def getArray1H (sq : SquadFn) (x : HMatcher) (ts : Option NdRef) : HP NdRef := do
  let ts ← match ts with
    | none => getTimestampsH x
    | some ts => pure (some ts)
  match x.arrays with
  | [a] => fun m => resampleArrayH sq a (ts.map fun r => stampList (m.read r)) m
  | _ => lift (.error .valueError)

/-- reference_frames.py:643-649 and others: the time axis is swapped back (a view). -/
def finishH (o : HTArgs) (arr : NdRef) (ts : Option NdRef) : HP HRet := do
  let arr ← match o.timeAxis with
    | none => pure arr
    | some ta => swapRef arr 0 ta
  pure (if !o.returnTimestamps then .single arr else .withTs arr ts)

/-- reference_frames.py:590-649 `transform_vectors`. -/
def transformVectorsH (sq : SquadFn) (s : HState) (a : ℕ) (arr : ArrayLike) (dst : FrameRef) (o : HTArgs) : HP HRet := do
  let inp ← validateInputH arr o.axis 3 o.timestamps o.timeAxis
  let x ← getMatcherH s a dst [inp]
  let (_, r, ts) ← getTransformationH sq x
  let arr ← getArray1H sq x ts
  let rc ← get r
  let ac ← get arr
  let c ← lift (rotateVectorsF (expandSingletonAxes rc ac.ndim) ac o.axis)
  let out ← new c
  finishH o out ts

/-- reference_frames.py:651-712 `transform_points`. -/
def transformPointsH (sq : SquadFn) (s : HState) (a : ℕ) (arr : ArrayLike) (dst : FrameRef) (o : HTArgs) : HP HRet := do
  let inp ← validateInputH arr o.axis 3 o.timestamps o.timeAxis
  let x ← getMatcherH s a dst [inp]
  let (t, r, ts) ← getTransformationH sq x
  let arr ← getArray1H sq x ts
  let tc ← get t
  let rc ← get r
  let ac ← get arr
  let c ← lift (rotateVectorsF (expandSingletonAxes rc ac.ndim) ac o.axis)
  let rot ← new c
  let rotc ← get rot
  let d ← lift (ND.bop (fun x y => x + y) rotc (expandSingletonAxes tc ac.ndim))
  let out ← new d
  finishH o out ts

/-- reference_frames.py:714-776 `transform_quaternions`. -/
def transformQuaternionsH (sq : SquadFn) (s : HState) (a : ℕ) (arr : ArrayLike) (dst : FrameRef) (o : HTArgs) :
    HP HRet := do
  let inp ← validateInputH arr o.axis 4 o.timestamps o.timeAxis
  let x ← getMatcherH s a dst [inp]
  let (_, r, ts) ← getTransformationH sq x
  let arr ← getArray1H sq x ts
  let rc ← get r
  let sw ← swapRef arr o.axis (-1)
  let swc ← get sw
  let rq ← lift (asQuatArray (expandSingletonAxes rc arr.shape.length))
  let aq ← lift (asQuatArray swc)
  let prod ← lift (ND.bop (fun x y => x * y) rq aq)
  let p ← new (asFloatArray prod)
  let out ← swapRef p (-1) o.axis
  finishH o out ts

/-! ### sessions -/

/-- What a program does with arrays, frames and the functions of the library. -/
inductive HOp
  | array (c : ND ℝ)                                        -- arr = np.array(...)
  | write (r : NdRef) (c : List ℕ → ℝ)                      -- arr[...] = ...
  | register (name : Option String) (parent : Option FrameRef) (args : HArgs) (update : Bool)
  | setParent (i : ℕ) (v : Option ℕ)                        -- rf.parent = v
  | deregister (n : String)                                 -- deregister_frame(n)
  | clear                                                   -- clear_registry()
  | lookup (a : ℕ) (dst : FrameRef)
  | vectors (a : ℕ) (arr : ArrayLike) (dst : FrameRef) (o : HTArgs)
  | points (a : ℕ) (arr : ArrayLike) (dst : FrameRef) (o : HTArgs)
  | quaternions (a : ℕ) (arr : ArrayLike) (dst : FrameRef) (o : HTArgs)

/-- One step of the program. -/
def HState.step (sq : SquadFn) (s : HState) : HOp → HState
  | .array c => { s with mem := (new c s.mem).2 }
  | .write r c => { s with mem := s.mem.write r c }
  | .register n p a u => (s.registerFrame n p a u).1
  | .setParent i v => { s with st := (s.st.setParent i v).1 }
  | .deregister n => { s with st := (s.st.deregister (some n)).1 }
  | .clear => { s with st := { s.st with reg := [] } }
  | .lookup a dst => { s with mem := (lookupTransformH sq s a dst s.mem).2 }
  | .vectors a arr dst o => { s with mem := (transformVectorsH sq s a arr dst o s.mem).2 }
  | .points a arr dst o => { s with mem := (transformPointsH sq s a arr dst o s.mem).2 }
  | .quaternions a arr dst o => { s with mem := (transformQuaternionsH sq s a arr dst o s.mem).2 }

/-- A whole program. -/
def HState.run (sq : SquadFn) (s : HState) : List HOp → HState
  | [] => s
  | o :: os => (s.step sq o).run sq os

end RBM.Heap
