import Verif.Model.Heap

/-!
Vocabulary for statements about array memory.
-/

namespace RBM.Spec

open RBM.Heap

/-- Every array of `m` still exists in `m'`, with the same values. -/
def Unchanged (m m' : Mem) : Prop := ∀ r : NdRef, r.buf < m.size → r.buf < m'.size ∧ m'.read r = m.read r

/-- The array exists in `m'` and shares memory with no array of `m`. -/
def Separate (m : Mem) (r : NdRef) (m' : Mem) : Prop := m.size ≤ r.buf ∧ r.buf < m'.size

/-- No two of these arrays share memory. -/
def Disjoint (rs : List NdRef) : Prop := rs.Pairwise fun a b => a.buf ≠ b.buf

/-- The values of an argument. -/
noncomputable def valueOf (m : Mem) : ArrayLike → ND ℝ
  | .array r => m.read r
  | .nested c => c

/-- An argument is a list or an existing array. -/
def Exists (m : Mem) : ArrayLike → Prop
  | .array r => r.buf < m.size
  | .nested _ => True

/-- All arrays among the arguments of `ReferenceFrame` exist. -/
def ArgsExist (m : Mem) (a : HArgs) : Prop :=
  (∀ x, a.translation = some x → Exists m x) ∧ (∀ x, a.rotation = some x → Exists m x) ∧ ∀ x, a.timestamps = some x → Exists m x

/-- The arguments of `ReferenceFrame` as values. -/
noncomputable def argValues (m : Mem) (a : HArgs) : FrameArgs :=
  ⟨a.translation.map (valueOf m), a.rotation.map (valueOf m), a.timestamps.map (valueOf m), a.inverse, a.discrete⟩

/-- The keyword arguments of a transform function as values. -/
noncomputable def optionValues (m : Mem) (o : HTArgs) : TArgs :=
  ⟨o.axis, o.timeAxis, o.timestamps.map (valueOf m), o.returnTimestamps⟩

/-- A step mentions existing arrays only. -/
def Refers (m : Mem) : HOp → Prop
  | .write r _ => r.buf < m.size
  | .register _ _ args _ => ArgsExist m args
  | .vectors _ arr _ o => Exists m arr ∧ ∀ x, o.timestamps = some x → Exists m x
  | .points _ arr _ o => Exists m arr ∧ ∀ x, o.timestamps = some x → Exists m x
  | .quaternions _ arr _ o => Exists m arr ∧ ∀ x, o.timestamps = some x → Exists m x
  | _ => True

/-- Every step of the program mentions existing arrays only. -/
def Runnable (sq : SquadFn) (s : HState) : List HOp → Prop
  | [] => True
  | o :: os => Refers s.mem o ∧ Runnable sq (s.step sq o) os

/-- A state of a Python process. -/
def Occurs (sq : SquadFn) (s : HState) : Prop := ∃ ops, Runnable sq HState.init ops ∧ HState.init.run sq ops = s

/-- The step overwrites entries of an array that uses buffer `b`. -/
def WritesTo (b : ℕ) : HOp → Prop
  | .write r _ => r.buf = b
  | _ => False

/-- Frame object `i` keeps an array that uses buffer `b`. -/
def Uses (s : HState) (i b : ℕ) : Prop :=
  ∃ f, s.obj i = some f ∧ ((∃ t r, f.pose = some (t, r) ∧ (b = t.buf ∨ b = r.buf)) ∨ ∃ x, f.timestamps = some x ∧ b = x.buf)

/-- The corresponding step on values (C01–C86), if the step concerns the frames. -/
noncomputable def asOp (m : Mem) : HOp → Option Op
  | .register n p args u => some (.registerFrame n p (argValues m args) u)
  | .setParent i v => some (.setParent i v)
  | .deregister n => some (.deregisterFrame n)
  | .clear => some .clear
  | _ => none

/-- A step mentions existing frame objects only. -/
def NamesFrames (s : HState) (o : HOp) : Prop := ∀ op, asOp s.mem o = some op → op.Refers s.st

/-- A program that never overwrites arrays. -/
def NoWrites (sq : SquadFn) (s : HState) : List HOp → Prop
  | [] => True
  | o :: os => (∀ b, ¬WritesTo b o) ∧ NamesFrames s o ∧ NoWrites sq (s.step sq o) os

/-- What a lookup returns: new arrays with these values. -/
def ReturnsTransform (m : Mem) (out : Res (NdRef × NdRef × Option NdRef) × Mem) (v : Res (Arr Vec × Arr Quat × Option (List ℝ))) : Prop :=
  (∀ e, v = .error e → out.1 = .error e) ∧
  ∀ t q ts, v = .ok (t, q, ts) → ∃ rt rq rts, out.1 = .ok (rt, rq, rts) ∧
    out.2.read rt = ND.ofVecs t ∧ out.2.read rq = ND.ofQuats q ∧ rts.map (fun x => out.2.read x) = ts.map stampArray ∧
    Separate m rt out.2 ∧ Separate m rq out.2 ∧ (∀ x, rts = some x → Separate m x out.2) ∧ Disjoint (rt :: rq :: rts.toList)

/-- What a transform function returns: new arrays with these values. -/
def ReturnsArray (m : Mem) (out : Res HRet × Mem) (v : Res PyRet) : Prop :=
  (∀ e, v = .error e → out.1 = .error e) ∧
  (∀ c, v = .ok (.single c) → ∃ r, out.1 = .ok (.single r) ∧ out.2.read r = c ∧ Separate m r out.2) ∧
  ∀ c ts, v = .ok (.withTs c ts) → ∃ r rts, out.1 = .ok (.withTs r rts) ∧ out.2.read r = c ∧
    rts.map (fun x => out.2.read x) = ts.map stampArray ∧ Separate m r out.2 ∧ (∀ x, rts = some x → Separate m x out.2) ∧
    Disjoint (r :: rts.toList)

end RBM.Spec
