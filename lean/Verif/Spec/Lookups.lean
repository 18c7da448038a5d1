import Verif.Model.Lookups
import Verif.Spec.Velocity

/-!
What the datasets returned by the lookup functions look like.
-/

namespace RBM.Spec

open RBM

/-- Shape of an array with `k` entries per timestamp, or only `k` entries without timestamps. -/
def sampleShape (k : ℕ) : Option (List ℝ) → List ℕ
  | some l => [l.length, k]
  | none => [k]

/-- The data array `d` has one entry per label of its axis `axis`: for every timestamp, or only one set of entries if there are no timestamps. -/
structure Recorded (d : DArr) (name axis : String) (labels : List String) (ts : Option (List ℝ)) : Prop where
  ok : DArr.Ok d
  name : d.info.name = some name
  dims : d.info.dims = match ts with
    | some _ => ["time", axis]
    | none => [axis]
  shape : d.data.shape = sampleShape labels.length ts
  stamps : ∀ l, ts = some l → dictGet d.info.coords "time" = some ⟨["time"], .num (ofList l)⟩
  labels : dictGet d.info.coords axis = some (labelCoord axis labels)

/-- The arrays of positions and orientations have the pose `P` at their sample time `τ` (constant ones have it at all times). -/
def PoseSampleAt (pos ori : ND ℝ) (ts : Option (List ℝ)) (τ : ℝ) (P : Pose) : Prop :=
  match ts with
  | none => P = ⟨vec3 pos 0 [0], quat4 ori 0 [0]⟩
  | some ts => ∃ k : ℕ, ts[k]? = some τ ∧ P = ⟨vec3 pos 1 [k, 0], quat4 ori 1 [k, 0]⟩

/-- The orientation at `τ` in an array of one orientation, or of one orientation per timestamp. -/
def QuatSampleAt (w : ND ℝ) (ts : Option (List ℝ)) (τ : ℝ) (q : Quat) : Prop :=
  match ts with
  | none => q = quat4 w 0 [0]
  | some ts => ∃ k : ℕ, ts[k]? = some τ ∧ q = quat4 w 1 [k, 0]

/-- Both frame labels of `d` name the frame `f`. -/
def LabelledWith (d : DArr) (f : Option String) : Prop := Attr d "representation_frame" f ∧ Attr d "reference_frame" f

end RBM.Spec

namespace RBM.Spec

open RBM

/-- `out` is labelled like `d` for a new frame; if the result has timestamps, there is a new first dimension "time" with these. -/
structure LabelledNewTime (d out : DArr) (ts : Option (List ℝ)) (what : String) (target : Option String) : Prop where
  dims : out.info.dims = match ts with
    | some _ => "time" :: d.info.dims
    | none => d.info.dims
  name : out.info.name = d.info.name
  stamps : ∀ l, ts = some l → HasStamps out "time" l
  coords : ∀ k, k ≠ "time" → dictGet out.info.coords k = dictGet d.info.coords k
  frame : Attr out what target
  repr : Attr out "representation_frame" target
  attrs : ∀ k, k ≠ what → k ≠ "representation_frame" → dictGet out.info.attrs k = dictGet d.info.attrs k

end RBM.Spec

namespace RBM.Spec

open RBM

/-- The frame argument `x` is given (`None` and the empty string are not). -/
def Given (x : Option FrameRef) (f : FrameRef) : Prop := x = some f ∧ f ≠ .byName ""

/-- The frames of a velocity lookup: the moving frame, the reference frame (default: its parent) and the frame in which the velocity is represented
(default: the reference frame). -/
def VelocityOf (s : State) (frame : FrameRef) (reference representIn : Option FrameRef) (a ref rep : ℕ) : Prop :=
  s.resolve frame = .ok a ∧
  ((∃ f, Given reference f ∧ s.resolve f = .ok ref) ∨ ((¬ ∃ f, Given reference f) ∧ s.parent a = some ref)) ∧
  ((∃ f, Given representIn f ∧ s.resolve f = .ok rep) ∨ ((¬ ∃ f, Given representIn f) ∧ rep = ref))

/-- `d` records a velocity: three components per timestamp, labelled with the three frames. -/
structure RecordedVelocity (d : DArr) (motion units : String) (ts : List ℝ) (moving reference representIn : Option String) : Prop where
  recorded : Recorded d motion "cartesian_axis" ["x", "y", "z"] (some ts)
  moving : Attr d "moving_frame" moving
  reference : Attr d "reference_frame" reference
  repr : Attr d "representation_frame" representIn
  motion : Attr d "motion_type" (some motion)
  units : Attr d "units" (some units)

end RBM.Spec
