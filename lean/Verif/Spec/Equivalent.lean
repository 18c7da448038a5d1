import Verif.Spec.Motion

/-!
Two frame trees that describe the same rigid bodies: fixed mounting frames merged into the frames
they carry, or another choice of coordinates in a common ancestor.
-/

namespace RBM.Spec

open RBM

/-- `d'` is `d` with the fixed rigid motion `G` applied to every stored position and orientation. -/
inductive MovedBy (G : Pose) : FrameData → FrameData → Prop
  | static {t r disc} : MovedBy G ⟨some (.one t, .one r), none, disc⟩
      ⟨some (.one (G.act t), .one (G.r * r)), none, disc⟩
  | timed {tr ro ev disc} : MovedBy G ⟨some (.many tr, .many ro), some ev, disc⟩
      ⟨some (.many (tr.map G.act), .many (ro.map fun q => G.r * q)), some ev, disc⟩

/-- Contract of `quaternion.squad` that is assumed where stated: turning all samples by the same
rotation turns the interpolated values by that rotation. -/
def SquadTurns (sq : SquadFn) : Prop :=
  ∀ (g : Quat) (qs : List Quat) (xs : List ℝ) (τ : ℝ), IsUnitQ g → qs.length = xs.length → 2 ≤ xs.length →
    StrictlyIncreasing xs → (∀ q ∈ qs, IsUnitQ q) → InRange xs τ →
    sq (qs.map fun q => g * q) xs τ = g * sq qs xs τ

/-- `s'` is the tree `s` without the frame `f`, whose pose in its parent `g` is fixed: what was
attached to `f` is attached to `g` instead, with the pose it had there. Frame `i` of `s` is called
`φ i` in `s'`. -/
structure Merged (s s' : State) (φ : ℕ → ℕ) (f g : ℕ) (P : Pose) : Prop where
  parent : s.parent f = some g
  pose : StaticPoseOf s f P
  unit : IsUnitQ P.r
  frame : ∀ i, i < s.size → i ≠ f → φ i < s'.size
  inj : ∀ i j, i < s.size → j < s.size → i ≠ f → j ≠ f → φ i = φ j → i = j
  child : ∀ i, s.parent i = some f → s'.parent (φ i) = some (φ g) ∧
    ∃ d d', s.data i = some d ∧ s'.data (φ i) = some d' ∧ MovedBy P d d'
  other : ∀ i, i < s.size → i ≠ f → s.parent i ≠ some f →
    s'.parent (φ i) = (s.parent i).map φ ∧ s'.data (φ i) = s.data i

/-- `s'` is the tree `s` with other coordinates chosen in frame `w`: every frame attached to `w`
has its pose moved by the same rigid motion `G`. -/
structure Recoordinated (s s' : State) (w : ℕ) (G : Pose) : Prop where
  unit : IsUnitQ G.r
  size : s'.size = s.size
  parent : s'.parent = s.parent
  child : ∀ i, s.parent i = some w → ∃ d d', s.data i = some d ∧ s'.data i = some d' ∧ MovedBy G d d'
  other : ∀ i, s.parent i ≠ some w → s'.data i = s.data i

/-- The outcome `res'` of a lookup is the outcome `res` with `F` applied to the transformation, for
each timestamp. -/
def MappedBy (F : Pose → Pose) (res res' : Res (Arr Vec × Arr Quat × Option (List ℝ))) : Prop :=
  (∃ A : Pose, res = .ok (.one A.t, .one A.r, none) ∧ res' = .ok (.one (F A).t, .one (F A).r, none)) ∨
  ∃ (ts : List ℝ) (T : ℝ → Pose), res = .ok (.many (ts.map fun τ => (T τ).t), .many (ts.map fun τ => (T τ).r), some ts) ∧
    res' = .ok (.many (ts.map fun τ => (F (T τ)).t), .many (ts.map fun τ => (F (T τ)).r), some ts)

end RBM.Spec
