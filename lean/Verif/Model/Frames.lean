import Verif.Model.Matcher

/-!
Reference frame objects, the anytree forest, the registry and frame lookups
(reference_frames.py, core.py:336-353, anytree).
-/

namespace RBM

/-! ### Constructor arguments (reference_frames.py:216-265) -/

/-- Arguments of `ReferenceFrame(...)` besides name and parent. -/
structure FrameArgs where
  translation : Option (ND ℝ) := none
  rotation : Option (ND ℝ) := none
  timestamps : Option (ND ℝ) := none
  inverse : Bool := false
  discrete : Bool := false

/-- Rows of a `(n, 3)` array. -/
def vecRows (a : ND ℝ) (n : ℕ) : List Vec := (List.range n).map fun k => fun i => a.get [k, i]

/-- Rows of a `(n, 4)` array as quaternions. -/
def quatRows (a : ND ℝ) (n : ℕ) : List Quat :=
  (List.range n).map fun k => ⟨a.get [k, 0], a.get [k, 1], a.get [k, 2], a.get [k, 3]⟩

/-- reference_frames.py:219-224 (timestamps part of `_init_arrays`): number of timestamps and
their values, `none` if static. -/
def initTimestamps : Option (ND ℝ) → Res (Option (List ℝ))
  | none => .ok none
  | some a => match a.shape with
    | [n] => .ok (some ((List.range n).map fun k => a.get [k]))
    | _ => .error .valueError

/-- reference_frames.py:229-237. -/
def initTranslationArg (ts : Option (List ℝ)) : Option (ND ℝ) → Res (Arr Vec)
  | none => .ok (match ts with
      | none => .one 0
      | some l => .many (List.replicate l.length 0))
  | some a => match ts with
      | none => if a.shape = [3] then .ok (.one fun i => a.get [i]) else .error .valueError
      | some l => if a.shape = [l.length, 3] then .ok (.many (vecRows a l.length))
                  else .error .valueError

/-- reference_frames.py:239-248. -/
def initRotationArg (ts : Option (List ℝ)) : Option (ND ℝ) → Res (Arr Quat)
  | none => .ok (match ts with
      | none => .one 1
      | some l => .many (List.replicate l.length 1))
  | some a => match ts with
      | none => if a.shape = [4] then .ok (.one ⟨a.get [0], a.get [1], a.get [2], a.get [3]⟩)
                else .error .valueError
      | some l => if a.shape = [l.length, 4] then .ok (.many (quatRows a l.length))
                  else .error .valueError

/-- reference_frames.py:216-254 `_init_arrays`. -/
noncomputable def initArrays (args : FrameArgs) : Res (Arr Vec × Arr Quat × Option (List ℝ)) := do
  let ts ← initTimestamps args.timestamps
  let t ← initTranslationArg ts args.translation
  let r ← initRotationArg ts args.rotation
  if args.inverse then
    let r' ← qinvArr r
    let t' ← rotateVectors r' t
    return (t'.map fun v => -v, r', ts)
  else
    return (t, r, ts)

/-- reference_frames.py:256-265 `_verify_root`. -/
def verifyRoot (args : FrameArgs) : Res Unit :=
  if args.translation.isSome then .error .valueError
  else if args.rotation.isSome then .error .valueError
  else if args.timestamps.isSome then .error .valueError
  else .ok ()

/-! ### Objects -/

/-- The attributes `translation`, `rotation` (`none`: both are `None`, i.e. constructed without
parent), `timestamps`, `discrete` of a completely constructed `ReferenceFrame`. -/
structure FrameData where
  pose : Option (Arr Vec × Arr Quat)
  timestamps : Option (List ℝ)
  discrete : Bool

/-- The Python process: objects are numbered in order of allocation. `data i = none` means that
the constructor of object `i` failed before setting all attributes. `reg` is the module level
dictionary `_registry` (reference_frames.py:15). Attributes are assumed not to be reassigned by
the user, except `parent`. -/
structure State where
  size : ℕ
  name : ℕ → Option String
  parent : ℕ → Option ℕ
  children : ℕ → List ℕ
  data : ℕ → Option FrameData
  reg : List (String × ℕ)

/-- Fresh interpreter: no frames, empty registry (reference_frames.py:15). -/
def State.init : State := ⟨0, fun _ => none, fun _ => none, fun _ => [], fun _ => none, []⟩

/-! ### Python dictionary -/

/-- `d.get(k)`. -/
def dictGet {α : Type _} (d : List (String × α)) (k : String) : Option α := d.lookup k

/-- `d[k] = v`. -/
def dictSet {α : Type _} (d : List (String × α)) (k : String) (v : α) : List (String × α) :=
  match d with
  | [] => [(k, v)]
  | (k', v') :: d => if k' = k then (k, v) :: d else (k', v') :: dictSet d k v

/-- `d.pop(k)` for a present key. -/
def dictPop (d : List (String × ℕ)) (k : String) : List (String × ℕ) :=
  d.filter (fun e => decide (e.1 ≠ k))

/-! ### anytree -/

/-- anytree `NodeMixin.iter_path_reverse`: the node, its parent, ... up to the root. The first
argument bounds the number of steps (with a cyclic forest anytree would not terminate). -/
def chainUp (parent : ℕ → Option ℕ) : ℕ → ℕ → List ℕ
  | 0, _ => []
  | f + 1, i => i :: match parent i with
    | none => []
    | some p => chainUp parent f p

/-- anytree `iter_path_reverse` in a given state. -/
def State.pathReverse (s : State) (i : ℕ) : List ℕ := chainUp s.parent s.size i

/-- anytree `NodeMixin.path`: from the root down to the node. -/
def State.path (s : State) (i : ℕ) : List ℕ := (s.pathReverse i).reverse

/-- anytree `NodeMixin.__detach`. -/
def State.detach (s : State) (i : ℕ) : State × Res Unit :=
  match s.parent i with
  | none => (s, .ok ())
  | some p =>
      if i ∈ s.children p then
        ({ s with
            children := Function.update s.children p ((s.children p).filter (fun c => decide (c ≠ i))),
            parent := Function.update s.parent i none }, .ok ())
      else (s, .error .assertionError)

/-- anytree `NodeMixin.__attach`. -/
def State.attach (s : State) (i : ℕ) : Option ℕ → State × Res Unit
  | none => (s, .ok ())
  | some p =>
      if i ∈ s.children p then (s, .error .assertionError)
      else ({ s with
            children := Function.update s.children p (s.children p ++ [i]),
            parent := Function.update s.parent i (some p) }, .ok ())

/-- anytree `NodeMixin.__check_loop`. -/
def State.checkLoop (s : State) (i : ℕ) : Option ℕ → Res Unit
  | none => .ok ()
  | some p => if p = i then .error .loopError
              else if i ∈ s.pathReverse p then .error .loopError else .ok ()

/-- anytree `NodeMixin.parent` setter. -/
def State.setParent (s : State) (i : ℕ) (v : Option ℕ) : State × Res Unit :=
  if s.parent i = v then (s, .ok ())
  else match s.checkLoop i v with
    | .error e => (s, .error e)
    | .ok _ => match s.detach i with
      | (s', .error e) => (s', .error e)
      | (s', .ok _) => s'.attach i v

/-- anytree `Walker.__calc_common` -/
def calcCommon (p q : List ℕ) : List ℕ :=
  (List.zip p q).filterMap fun e => if e.1 = e.2 then some e.1 else none

/-- anytree `Walker.walk` on the two root paths: `(up, down)`. -/
def walkPaths (start stop : List ℕ) : Res (List ℕ × List ℕ) :=
  if start.head? ≠ stop.head? then .error .walkError
  else
    let n := (calcCommon start stop).length
    .ok ((start.drop n).reverse, stop.drop n)

/-! ### Name resolution -/

/-- A frame argument: a name, a frame object, or anything else. -/
inductive FrameRef
  | byName (n : String)
  | byObj (i : ℕ)
  | other
  deriving DecidableEq

/-- core.py:336-353 `_resolve_rf`. -/
def State.resolve (s : State) : FrameRef → Res ℕ
  | .byObj i => .ok i
  | .byName n => match dictGet s.reg n with
    | some i => .ok i
    | none => .error .valueError
  | .other => .error .typeError

/-! ### Construction and registration -/

/-- Allocation of a new object and `self.name = name` (reference_frames.py:177-180). -/
def State.alloc (s : State) (name : Option String) : State :=
  { s with size := s.size + 1, name := Function.update s.name s.size name,
           parent := Function.update s.parent s.size none,
           children := Function.update s.children s.size [],
           data := Function.update s.data s.size none }

/-- Store the attributes of object `i`. -/
def State.setData (s : State) (i : ℕ) (d : FrameData) : State :=
  { s with data := Function.update s.data i (some d) }

/-- reference_frames.py:137-201 `ReferenceFrame.__init__`; on success returns the new object. -/
noncomputable def State.construct (s : State) (name : Option String) (parent : Option FrameRef)
    (args : FrameArgs) : State × Res ℕ :=
  let i := s.size
  let s1 := s.alloc name
  match parent with
  | none =>
      match verifyRoot args with
      | .error e => (s1, .error e)
      | .ok _ => if args.discrete then (s1, .error .valueError)
                 else (s1.setData i ⟨none, none, false⟩, .ok i)
  | some ref =>
      match s.resolve ref with
      | .error e => (s1, .error e)
      | .ok p => match s1.setParent i (some p) with
        | (s2, .error e) => (s2, .error e)
        | (s2, .ok _) => match initArrays args with
          | .error e => (s2, .error e)
          | .ok (t, r, ts) =>
              if args.discrete ∧ ts = none then (s2, .error .valueError)
              else (s2.setData i ⟨some (t, r), ts, args.discrete⟩, .ok i)

/-- reference_frames.py:18-32 `_register`. -/
def State.register (s : State) (i : ℕ) (update : Bool) : State × Res Unit :=
  match s.name i with
  | none => (s, .error .valueError)
  | some n => match dictGet s.reg n with
    | none => ({ s with reg := dictSet s.reg n i }, .ok ())
    | some old =>
        if update then
          match s.setParent old none with
          | (s', .error e) => (s', .error e)
          | (s', .ok _) => ({ s' with reg := dictSet s'.reg n i }, .ok ())
        else (s, .error .valueError)

/-- reference_frames.py:35-42 `_deregister`; `none` is `_deregister(None)`, which fails in the
string concatenation of the error message. -/
def State.deregister (s : State) : Option String → State × Res Unit
  | none => (s, .error .typeError)
  | some n => match dictGet s.reg n with
    | none => (s, .error .valueError)
    | some _ => ({ s with reg := dictPop s.reg n }, .ok ())

/-- reference_frames.py:57-115 `register_frame`. -/
noncomputable def State.registerFrame (s : State) (name : Option String) (parent : Option FrameRef)
    (args : FrameArgs) (update : Bool) : State × Res Unit :=
  match s.construct name parent args with
  | (s', .error e) => (s', .error e)
  | (s', .ok i) => s'.register i update

/-- reference_frames.py:203-206 `__del__`. -/
def State.del (s : State) (i : ℕ) : State × Res Unit :=
  match s.name i with
  | none => (s, .ok ())
  | some n => if dictGet s.reg n = some i then s.deregister (some n) else (s, .ok ())

/-- Everything a user can do to the registry and the forest. -/
inductive Op
  | construct (name : Option String) (parent : Option FrameRef) (args : FrameArgs)
  | registerFrame (name : Option String) (parent : Option FrameRef) (args : FrameArgs)
      (update : Bool)
  | register (i : ℕ) (update : Bool)          -- rf.register(update)
  | deregisterFrame (n : String)              -- deregister_frame(name)
  | deregister (i : ℕ)                        -- rf.deregister()
  | clear                                     -- clear_registry()
  | setParent (i : ℕ) (v : Option ℕ)          -- rf.parent = v
  | del (i : ℕ)                               -- garbage collection of rf

/-- An operation only mentions existing objects. -/
def Op.Refers (s : State) : Op → Prop
  | .construct _ (some (.byObj i)) _ => i < s.size
  | .registerFrame _ (some (.byObj i)) _ _ => i < s.size
  | .register i _ => i < s.size
  | .deregister i => i < s.size
  | .setParent i v => i < s.size ∧ ∀ p, v = some p → p < s.size
  | .del i => i < s.size
  | _ => True

/-- One operation (reference_frames.py:57-131, 1323-1336). -/
noncomputable def State.step (s : State) : Op → State × Res Unit
  | .construct n p a => match s.construct n p a with
      | (s', .ok _) => (s', .ok ())
      | (s', .error e) => (s', .error e)
  | .registerFrame n p a u => s.registerFrame n p a u
  | .register i u => s.register i u
  | .deregisterFrame n => s.deregister (some n)
  | .deregister i => s.deregister (s.name i)
  | .clear => ({ s with reg := [] }, .ok ())
  | .setParent i v => s.setParent i v
  | .del i => s.del i

/-! ### Lookups -/

/-- reference_frames.py:312-317 `_walk`. -/
def State.walk (s : State) (a : ℕ) (dst : FrameRef) : Res (List ℕ × List ℕ) :=
  match s.resolve dst with
  | .error e => .error e
  | .ok b => walkPaths (s.path a) (s.path b)

/-- core.py:107-127 as called from reference_frames.py:324-327: half-built frames and frames
without translation raise `AttributeError`. -/
noncomputable def State.addFrame (s : State) (m : Matcher) (i : ℕ) (inverse : Bool) : Res Matcher :=
  match s.data i with
  | none => .error .attributeError
  | some d => match d.pose with
    | none => .error .attributeError
    | some (t, r) => m.addFrame ⟨t, r, d.timestamps, d.discrete, inverse⟩

/-- The loops of reference_frames.py:324-327. -/
noncomputable def State.addFrames (s : State) (inverse : Bool) : List ℕ → Matcher → Res Matcher
  | [], m => .ok m
  | i :: is, m => match s.addFrame m i inverse with
    | .error e => .error e
    | .ok m' => s.addFrames inverse is m'

/-- The loop of reference_frames.py:329-331. -/
noncomputable def addArrays : List MArray → Matcher → Res Matcher
  | [], m => .ok m
  | a :: as, m => match m.addArray a with
    | .error e => .error e
    | .ok m' => addArrays as m'

/-- reference_frames.py:319-333 `_get_matcher`. -/
noncomputable def State.getMatcher (s : State) (a : ℕ) (dst : FrameRef) (arrays : List MArray) :
    Res Matcher := do
  let (up, down) ← s.walk a dst
  let m ← s.addFrames false up Matcher.empty
  let m ← s.addFrames true down m
  addArrays arrays m

/-- reference_frames.py:562-588 `ReferenceFrame.lookup_transform` (and its deprecated alias
`get_transformation`, 544-560). -/
noncomputable def State.lookupTransform (sq : SquadFn) (s : State) (a : ℕ) (dst : FrameRef) :
    Res (Arr Vec × Arr Quat × Option (List ℝ)) := do
  let m ← s.getMatcher a dst []
  m.getTransformation sq

end RBM
