import Verif.Spec.Rigid
import Verif.Model.ND
import Mathlib.Analysis.SpecialFunctions.Trigonometric.Basic

/-!
Elementary rotations about the coordinate axes.
-/

noncomputable section

namespace RBM.Spec

open RBM Real

/-- Rotation of a vector by the angle `θ` about the x, y and z axis. -/
def rotX (θ : ℝ) (v : Vec) : Vec := ![v 0, cos θ * v 1 - sin θ * v 2, sin θ * v 1 + cos θ * v 2]
def rotY (θ : ℝ) (v : Vec) : Vec := ![cos θ * v 0 + sin θ * v 2, v 1, - sin θ * v 0 + cos θ * v 2]
def rotZ (θ : ℝ) (v : Vec) : Vec := ![cos θ * v 0 - sin θ * v 1, sin θ * v 0 + cos θ * v 1, v 2]

/-- The rotation named by a letter of the `order` argument: roll about x, pitch about y, yaw about z. -/
def elementary (roll pitch yaw : ℝ) (c : Char) : Vec → Vec :=
  if c = 'r' then rotX roll else if c = 'p' then rotY pitch else rotZ yaw

/-- A quaternion represents the rotation about x, y, z in the order of the letters `a b c`. -/
def IsEuler (q : Quat) (r p y : ℝ) (a b c : Char) : Prop :=
  IsUnitQ q ∧ ∀ v, rot q v = elementary r p y a (elementary r p y b (elementary r p y c v))

/-- The angle at one position; an angle that is not given counts as zero. -/
def angleAt (a : Option (ND ℝ)) (idx : List ℕ) : ℝ := match a with
  | none => 0
  | some a => a.get idx

/-- The argument, if given, is an array of shape `sh`. -/
def ShapeIs (sh : List ℕ) (a : Option (ND ℝ)) : Prop := ∀ x, a = some x → x.shape = sh

/-- The first three letters of `order` are a permutation of r, p, y. -/
def OrderOk (order : List Char) : Prop := (order.take 3).Perm ['r', 'p', 'y']

end RBM.Spec
