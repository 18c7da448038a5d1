import Verif.Model.Basic

/-!
Textbook specification of rotations and rigid motions, independent of the formulas in the code.
-/

namespace RBM.Spec

open RBM

/-- The pure quaternion of a vector. -/
def pure (v : Vec) : Quat := ⟨0, v 0, v 1, v 2⟩

/-- Textbook: the rotation of `v` by `q` is the vector part of `q v q⁻¹`. -/
noncomputable def rot (q : Quat) (v : Vec) : Vec :=
  ![(q * pure v * q⁻¹).imI, (q * pure v * q⁻¹).imJ, (q * pure v * q⁻¹).imK]

/-- A pose (position and orientation of a frame in another one). -/
structure Pose where
  t : Vec
  r : Quat

/-- Coordinates in the outer frame of the point with coordinates `p` in a frame of that pose. -/
noncomputable def Pose.act (P : Pose) (p : Vec) : Vec := rot P.r p + P.t

/-- Euclidean inner product and distance on triples. -/
def dot (v w : Vec) : ℝ := v 0 * w 0 + v 1 * w 1 + v 2 * w 2
noncomputable def dist (v w : Vec) : ℝ := Real.sqrt (dot (v - w) (v - w))

/-- Cross product, written out. -/
def cross (v w : Vec) : Vec :=
  ![v 1 * w 2 - v 2 * w 1, v 2 * w 0 - v 0 * w 2, v 0 * w 1 - v 1 * w 0]

/-- Squared norm of a quaternion, and being a unit quaternion. -/
def nsq (q : Quat) : ℝ := q.re ^ 2 + q.imI ^ 2 + q.imJ ^ 2 + q.imK ^ 2
def IsUnitQ (q : Quat) : Prop := nsq q = 1

end RBM.Spec
