import Verif.Model.Plotting
import Verif.Spec.Transform

/-!
What a plot shows.
-/

namespace RBM.Spec

open RBM RBM.Plot

/-- The range is not empty. -/
def Lims.Proper (l : Lims) : Prop := l.x.1 < l.x.2 ∧ l.y.1 < l.y.2 ∧ l.z.1 < l.z.2

/-- The point is inside the limits. -/
def Visible (l : Lims) (v : Vec) : Prop := (l.x.1 ≤ v 0 ∧ v 0 ≤ l.x.2) ∧ (l.y.1 ≤ v 1 ∧ v 1 ≤ l.y.2) ∧ (l.z.1 ≤ v 2 ∧ v 2 ≤ l.z.2)

/-- The three axes have the same scale. -/
def EqualScale (l : Lims) : Prop := l.x.2 - l.x.1 = l.y.2 - l.y.1 ∧ l.y.2 - l.y.1 = l.z.2 - l.z.1

/-- Everything visible with the limits `l` is visible with the limits `l'`. -/
def Shows (l' l : Lims) : Prop := ∀ v, Visible l v → Visible l' v

/-- matplotlib: autoscaling shows all points, with limits that are not empty; no limits are ever empty. -/
structure MplLaw (m : Mpl) : Prop where
  scale : ∀ pts, Lims.Proper (m.scale pts) ∧ ∀ v ∈ pts, Visible (m.scale pts) v
  expand : ∀ c, (m.expand c).1 < (m.expand c).2 ∧ (m.expand c).1 ≤ c ∧ c ≤ (m.expand c).2

/-- The points of an array of shape (3,) or (N, 3). -/
inductive Points (arr : ND ℝ) : List Vec → Prop
  | one : arr.shape = [3] → Points arr [vec3 arr 0 [0]]
  | many (n : ℕ) : arr.shape = [n, 3] → Points arr ((List.range n).map fun k => vec3 arr 1 [k, 0])

/-- The three arrows of a frame with the pose `A`: from its origin along its axes. -/
noncomputable def FrameArrows (A : Pose) (len : ℝ) : List Arrow :=
  [⟨A.act 0, A.act ![len, 0, 0], "r"⟩, ⟨A.act 0, A.act ![0, len, 0], "g"⟩, ⟨A.act 0, A.act ![0, 0, len], "b"⟩]

/-- The start and the end of an arrow. -/
def arrowEnds (a : Arrow) : List Vec := [a.start, a.stop]

/-- What every call that plots a frame with the pose `A` does: three arrows from the origin of the frame along its axes are added; the axes get the same
scale; along the x axis, all arrows and everything visible before is visible. Arrows that fit into the previous limits are visible. -/
def PlotsFrame (ax : Axes3) (res : Axes3 × Res (List Arrow)) (A : Pose) (len : ℝ) : Prop :=
  res.2 = .ok (FrameArrows A len) ∧ res.1.arrows = ax.arrows ++ FrameArrows A len ∧ EqualScale res.1.lims ∧ Lims.Proper res.1.lims ∧
    (∀ ar ∈ FrameArrows A len, ∀ v ∈ arrowEnds ar, res.1.lims.x.1 ≤ v 0 ∧ v 0 ≤ res.1.lims.x.2) ∧
    (res.1.lims.x.1 ≤ ax.lims.x.1 ∧ ax.lims.x.2 ≤ res.1.lims.x.2) ∧
    ((∀ ar ∈ FrameArrows A len, ∀ v ∈ arrowEnds ar, ax.lims.z.1 ≤ v 1 ∧ v 1 ≤ ax.lims.z.2 ∧ ax.lims.z.1 ≤ v 2 ∧ v 2 ≤ ax.lims.z.2) →
      ∀ ar ∈ FrameArrows A len, ∀ v ∈ arrowEnds ar, Visible res.1.lims v)

/-- The quaternions of an array of shape (4,) or (N, 4). -/
inductive Orientations (arr : ND ℝ) : List Quat → Prop
  | one : arr.shape = [4] → Orientations arr [quat4 arr 0 [0]]
  | many (n : ℕ) : arr.shape = [n, 4] → Orientations arr ((List.range n).map fun k => quat4 arr 1 [k, 0])

/-- The base points for `n` vectors: the origin, or those of an array with as many points. -/
inductive BasePoints (n : ℕ) : Option (ND ℝ) → List Vec → Prop
  | origin : BasePoints n none (List.replicate n 0)
  | given {b : ND ℝ} {bs : List Vec} : Points b bs → bs.length = n → BasePoints n (some b) bs

/-- What plotting the vectors `vs` at the base points `bs` does to the axes. -/
def PlotsVectors (ax ax' : Axes3) (color : Option String) (length : ℝ) (arrows : List (Vec × Vec)) : Prop :=
  ax'.quivers = ax.quivers ++ [(color, length, arrows)] ∧ EqualScale ax'.lims ∧ Lims.Proper ax'.lims ∧
    (ax.auto = true → ∀ p ∈ arrows, Visible ax'.lims p.1 ∧ Visible ax'.lims (p.1 + length • p.2))

end RBM.Spec
