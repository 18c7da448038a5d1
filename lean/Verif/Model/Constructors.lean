import Verif.Model.Lookups
import Verif.Model.Estimators

/-!
Alternative constructors of `ReferenceFrame` (reference_frames.py:335-542).
-/

noncomputable section

namespace RBM

/-- The numbers of a coordinate. Labels as timestamps are not modelled (here a TypeError). -/
def Coord.numbers (c : Coord) : Res (ND ℝ) :=
  match c.vals with
  | .num a => .ok a
  | .lab _ => .error .typeError

/-- The array `0 .. n-1`; entries outside of the shape do not matter. -/
def counting (n : ℕ) : ND ℝ := ⟨[n], fun idx => if idx.getD 0 0 < n then ((idx.getD 0 0 : ℕ) : ℝ) else 0⟩

/-- `da[name].data` (xarray, external): a coordinate, or `0 .. n-1` for a dimension without coordinate. -/
def DArr.item (d : DArr) (name : String) : Res (ND ℝ) :=
  match dictGet d.info.coords name with
  | some c => c.numbers
  | none => if name ∈ d.info.dims then .ok (counting (d.data.shape.getD (d.info.dims.idxOf name) 0)) else .error .keyError

/-- The variables of `vars` that have the coordinate or dimension `name`. -/
def itemOfVars (vars : List (String × DArr)) (name : String) : Res (ND ℝ) :=
  match vars with
  | [] => .error .keyError
  | v :: vs => match dictGet v.2.info.coords name with
    | some c => c.numbers
    | none => if name ∈ v.2.info.dims then v.2.item name else itemOfVars vs name

/-- `ds[name].data` (xarray, external): a variable, a coordinate, or `0 .. n-1` for a dimension without coordinate. -/
def DSet.item (d : DSet) (name : String) : Res (ND ℝ) :=
  match d.var name with
  | some v => .ok v.data
  | none => itemOfVars d.vars name

/-- reference_frames.py:335-397 `ReferenceFrame.from_dataset`. -/
def State.fromDataset (s : State) (ds : DSet) (translation rotation timestamps : String) (parent : Option FrameRef) (name : Option String := none)
    (inverse discrete : Bool := false) : State × Res ℕ :=
  match ds.item translation with
  | .error e => (s, .error e)
  | .ok t => match ds.item rotation with
    | .error e => (s, .error e)
    | .ok r => match ds.item timestamps with
      | .error e => (s, .error e)
      | .ok ts => s.construct name parent ⟨some t, some r, some ts, inverse, discrete⟩

/-- reference_frames.py:399-450 `ReferenceFrame.from_translation_dataarray`. -/
def State.fromTranslationDataArray (s : State) (da : DArr) (timestamps : String) (parent : Option FrameRef) (name : Option String := none)
    (inverse discrete : Bool := false) : State × Res ℕ :=
  match da.item timestamps with
  | .error e => (s, .error e)
  | .ok ts => s.construct name parent ⟨some da.data, none, some ts, inverse, discrete⟩

/-- reference_frames.py:452-503 `ReferenceFrame.from_rotation_dataarray`. -/
def State.fromRotationDataArray (s : State) (da : DArr) (timestamps : String) (parent : Option FrameRef) (name : Option String := none)
    (inverse discrete : Bool := false) : State × Res ℕ :=
  match da.item timestamps with
  | .error e => (s, .error e)
  | .ok ts => s.construct name parent ⟨none, some da.data, some ts, inverse, discrete⟩

/-- `as_float_array` of one quaternion. -/
def quatArr (q : Quat) : ND ℝ := ⟨[4], fun idx => qcomp q (idx.getD 0 0)⟩

/-- reference_frames.py:505-542 `ReferenceFrame.from_rotation_matrix`; `from_rotation_matrix` is external. -/
def State.fromRotationMatrix (ext : FitExt) (s : State) (mat : ND ℝ) (parent : Option FrameRef) (name : Option String := none) (inverse : Bool := false) :
    State × Res ℕ :=
  if mat.shape ≠ [3, 3] then (s, .error .valueError)
  else s.construct name parent ⟨none, some (quatArr (ext.quatOf fun i j => mat.get [i, j])), none, inverse, false⟩

end RBM
