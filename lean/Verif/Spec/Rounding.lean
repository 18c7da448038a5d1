import Verif.Spec.Transform

/-!
What a lookup means when times are rounded by `fl` before frames are interpolated: the frames that
are interpolated were recorded at rounded times and are evaluated at rounded times. Everything else
(which timestamps are returned, when discrete frames switch) is exact.
-/

namespace RBM.Spec

open RBM

/-- The frame recorded at rounded times. -/
def roundedData (fl : ℝ → ℝ) (d : FrameData) : FrameData := { d with timestamps := d.timestamps.map (List.map fl) }

/-- The pose of frame `i` at time `τ` with rounded times: discrete frames switch at the exact times,
the others are interpolated at the rounded time between samples at rounded times. -/
def RoundedPoseOf (fl : ℝ → ℝ) (sq : SquadFn) (s : State) (τ : ℝ) (i : ℕ) (P : Pose) : Prop :=
  ∃ d, s.data i = some d ∧
    if d.discrete = true then IsPoseAt sq d τ P else IsPoseAt sq (roundedData fl d) (fl τ) P

/-- `A` is the transformation from `a` to `b` at time `τ` with rounded times (`IsTransformAt` with
`RoundedPoseOf` instead of `PoseOf`). -/
def RoundedTransformAt (fl : ℝ → ℝ) (sq : SquadFn) (s : State) (a b : ℕ) (τ : ℝ) (A : Pose) : Prop :=
  ∃ c, NearestCommon s a b c ∧
    (∀ p, ∃ P, InAncestor s.parent (RoundedPoseOf fl sq s τ) c a p P ∧
      InAncestor s.parent (RoundedPoseOf fl sq s τ) c b (A.act p) P) ∧
    (∀ q, ∃ Q, OrientInAncestor s.parent (RoundedPoseOf fl sq s τ) c a q Q ∧
      OrientInAncestor s.parent (RoundedPoseOf fl sq s τ) c b (A.r * q) Q)

/-- Rounding leaves the timestamps of frame `i` different from each other if it is interpolated. -/
def StaysApart (fl : ℝ → ℝ) (s : State) (i : ℕ) : Prop :=
  ∀ ev, stampsOf s false i = some ev → StrictlyIncreasing (ev.map fl)

/-- All timestamps of frames are represented exactly. -/
def ExactStamps (fl : ℝ → ℝ) (s : State) : Prop :=
  ∀ i d ts, s.data i = some d → d.timestamps = some ts → ∀ t ∈ ts, fl t = t

end RBM.Spec
