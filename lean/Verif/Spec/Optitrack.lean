import Verif.Model.Optitrack
import Verif.Spec.Euler

/-!
What an OptiTrack file says.
-/

namespace RBM.Spec

open RBM

/-- The header row says `key, value` (at even positions, with one value only). -/
def HeaderSays (f : OptiFile) (key value : String) : Prop :=
  (∃ i : ℕ, f.header[2 * i]? = some key ∧ f.header[2 * i + 1]? = some value) ∧
  ∀ (i : ℕ) w, f.header[2 * i]? = some key → f.header[2 * i + 1]? = some w → w = value

/-- The header row says nothing about `key`. -/
def HeaderSilent (f : OptiFile) (key : String) : Prop := ∀ (i : ℕ) w, f.header[2 * i]? = some key → f.header[2 * i + 1]? ≠ some w

/-- Metres per unit of length. -/
noncomputable def metresPer (u : String) : Option ℝ :=
  if u = "Meters" then some 1 else if u = "Centimeters" then some (1 / 100) else if u = "Millimeters" then some (1 / 1000) else none

/-- The three columns X, Y, Z of a rigid body for one motion type, with one entry per row. -/
def BodyHas (f : OptiFile) (name motion : String) (x y z : List ℝ) : Prop :=
  (f.columns.filter fun c => decide (c.kind = "Rigid Body" ∧ c.body = name ∧ c.motion = motion)) =
    [⟨"Rigid Body", name, motion, "X", x⟩, ⟨"Rigid Body", name, motion, "Y", y⟩, ⟨"Rigid Body", name, motion, "Z", z⟩] ∧
  x.length = f.seconds.length ∧ y.length = f.seconds.length ∧ z.length = f.seconds.length

/-- The file has rotations and positions for all its rigid bodies, and at least one rigid body. -/
structure GoodFile (f : OptiFile) : Prop where
  body : ∃ c ∈ f.columns, c.kind = "Rigid Body"
  all : ∀ c ∈ f.columns, c.kind = "Rigid Body" → (∃ x y z, BodyHas f c.body "Rotation" x y z) ∧ ∃ x y z, BodyHas f c.body "Position" x y z

/-- The letters of the rotation type: a permutation of X, Y, Z (which is the default). -/
def RotationType (f : OptiFile) (a b c : Char) : Prop :=
  [a, b, c].Perm ['X', 'Y', 'Z'] ∧ (HeaderSays f "Rotation Type" (String.ofList [a, b, c]) ∨ (HeaderSilent f "Rotation Type" ∧ a = 'X' ∧ b = 'Y' ∧ c = 'Z'))

/-- Rotation about the axis named by a letter, by the angle of this axis in degrees. -/
noncomputable def aboutAxis (x y z : ℝ) (l : Char) : Vec → Vec :=
  if l = 'X' then rotX (x * Real.pi / 180) else if l = 'Y' then rotY (y * Real.pi / 180) else rotZ (z * Real.pi / 180)

/-- The recorded pose of a rigid body in row `k`: the position in metres and a unit quaternion that rotates about the axes `a b c`. -/
structure RecordedPose (f : OptiFile) (name : String) (metres : ℝ) (a b c : Char) (k : ℕ) (p : Vec) (q : Quat) : Prop where
  position : ∀ x y z, BodyHas f name "Position" x y z → p = ![metres * x.getD k 0, metres * y.getD k 0, metres * z.getD k 0]
  unit : IsUnitQ q
  rotation : ∀ x y z, BodyHas f name "Rotation" x y z → ∀ v, rot q v =
    aboutAxis (x.getD k 0) (y.getD k 0) (z.getD k 0) a (aboutAxis (x.getD k 0) (y.getD k 0) (z.getD k 0) b (aboutAxis (x.getD k 0) (y.getD k 0) (z.getD k 0) c v))

end RBM.Spec
