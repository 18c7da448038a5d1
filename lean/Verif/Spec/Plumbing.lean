import Verif.Model.Plumbing
import Verif.Spec.Transform

/-!
DataArrays as the user sees them.
-/

namespace RBM.Spec

open RBM

/-- What xarray guarantees for every DataArray: dimension names are distinct and match the data, every
coordinate is defined on dimensions of the array and has matching lengths. -/
structure DArr.Ok (d : DArr) : Prop where
  ndim : d.info.dims.length = d.data.ndim
  nodup : d.info.dims.Nodup
  coordDims : ∀ c ∈ d.info.coords, ∀ x ∈ c.2.dims, x ∈ d.info.dims
  coordShape : ∀ c ∈ d.info.coords, c.2.vals.shape = c.2.dims.map fun x => d.data.shape.getD (d.info.dims.idxOf x) 0
  keys : (d.info.coords.map Prod.fst).Nodup
  /-- A coordinate named like a dimension is one dimensional along it. -/
  index : ∀ n c, dictGet d.info.coords n = some c → n ∈ d.info.dims → c.dims = [n]

/-- Position of a dimension. -/
def DimAt (d : DArr) (dim : String) (p : ℕ) : Prop := d.info.dims[p]? = some dim

/-- Resampling a coordinate along a dimension keeps its dimensions and changes the length of this
dimension only. -/
structure XrLaw (x : XrOps) : Prop where
  interp_dims : ∀ c td ts, (x.interp c td ts).dims = c.dims
  sel_dims : ∀ c td ts, (x.sel c td ts).dims = c.dims
  interp_shape : ∀ c td (ts : List ℝ), c.vals.shape.length = c.dims.length →
    (x.interp c td ts).vals.shape = List.zipWith (fun d (n : ℕ) => if d = td then ts.length else n) c.dims c.vals.shape
  sel_shape : ∀ c td (ts : List ℝ), c.vals.shape.length = c.dims.length →
    (x.sel c td ts).vals.shape = List.zipWith (fun d (n : ℕ) => if d = td then ts.length else n) c.dims c.vals.shape

/-- The numeric values of a one dimensional coordinate. -/
def HasStamps (d : DArr) (dim : String) (ts : List ℝ) : Prop :=
  ∃ c a, dictGet d.info.coords dim = some c ∧ c.dims = [dim] ∧ c.vals = .num a ∧ a.shape = [ts.length] ∧
    ∀ i (h : i < ts.length), a.get [i] = ts[i]

/-- The name of a frame as recorded in the attributes. -/
def Attr (d : DArr) (key : String) (v : Option String) : Prop := dictGet d.info.attrs key = some v

/-- A DataArray with spatial dimension `dim` (position `p`) and time dimension `td` (position `q`)
whose coordinate are the strictly increasing timestamps `ats`. -/
structure TimedDA (d : DArr) (dim td : String) (p q : ℕ) (ats : List ℝ) : Prop where
  ok : DArr.Ok d
  space : DimAt d dim p
  time : DimAt d td q
  coord : dictGet d.info.coords td = some ⟨[td], .num (ofList ats)⟩
  timed : TimedArray d.data q ats

/-- `out` is labelled like `d`, except for new timestamps and the new frame: same dimensions in the
same order, same name; coordinates that do not depend on time are kept, the time coordinate are the
timestamps `ts`; the attribute `what` and the representation frame are `target`, other attributes are
kept. -/
structure Labelled (d out : DArr) (td : String) (ts : List ℝ) (what : String) (target : Option String) : Prop where
  dims : out.info.dims = d.info.dims
  name : out.info.name = d.info.name
  stamps : HasStamps out td ts
  coords : ∀ k, k ≠ td → (∀ c ∈ d.info.coords, c.1 = k → td ∉ c.2.dims) → dictGet out.info.coords k = dictGet d.info.coords k
  frame : Attr out what target
  repr : Attr out "representation_frame" target
  attrs : ∀ k, k ≠ what → k ≠ "representation_frame" → dictGet out.info.attrs k = dictGet d.info.attrs k

/-- The source frame of a transformation: given as argument, or by the attribute `what` of the array. -/
def SourceFrame (s : State) (d : DArr) (outof : Option FrameRef) (what : String) (a : ℕ) : Prop :=
  (∃ f, outof = some f ∧ s.resolve f = .ok a) ∨
  (outof = none ∧ ∃ n, Attr d what (some n) ∧ s.resolve (.byName n) = .ok a)

end RBM.Spec
