import Verif.Spec.Motion

/-!
Which samples of a recording matter for a given time.
-/

namespace RBM.Spec

open RBM

/-- Among samples taken at times `xs`, sample `k` matters for time `τ`: it was taken at `τ` or, if none was
taken at `τ`, it is one of the `n` last samples before `τ` or one of the `n` first samples after `τ`. -/
def Matters (xs : List ℝ) (n : ℕ) (τ : ℝ) (k : ℕ) : Prop :=
  ∃ x, xs[k]? = some x ∧ (x = τ ∨ (τ ∉ xs ∧
    ((x < τ ∧ ∀ y, xs[k + n]? = some y → τ < y) ∨ (τ < x ∧ ∀ j y, j + n = k → xs[j]? = some y → y < τ))))

/-- Contract of `quaternion.squad` that is assumed where stated: the value between two samples is computed
from these two and their two neighbours (the control points of an interval use one more sample on either side). -/
def SquadNear (sq : SquadFn) : Prop :=
  ∀ (qs qs' : List Quat) (xs : List ℝ) (τ : ℝ), qs.length = xs.length → qs'.length = xs.length → 2 ≤ xs.length →
    StrictlyIncreasing xs → (∀ q ∈ qs, IsUnitQ q) → (∀ q ∈ qs', IsUnitQ q) → InRange xs τ → τ ∉ xs →
    (∀ k, Matters xs 2 τ k → qs[k]? = qs'[k]?) → sq qs xs τ = sq qs' xs τ

/-- Two recordings of a frame, with the same timestamps, agree in the samples that matter for `τ`: for a
discrete frame the event in force at `τ`; for a continuous frame the positions next to `τ` and the
orientations up to two samples away. -/
inductive AgreeNear (τ : ℝ) : FrameData → FrameData → Prop
  | static {t r disc} : AgreeNear τ ⟨some (.one t, .one r), none, disc⟩ ⟨some (.one t, .one r), none, disc⟩
  | discrete {tr ro tr' ro' ev} : (∀ k, IsCurrentEvent ev τ k → tr[k]? = tr'[k]? ∧ ro[k]? = ro'[k]?) →
      AgreeNear τ ⟨some (.many tr, .many ro), some ev, true⟩ ⟨some (.many tr', .many ro'), some ev, true⟩
  | continuous {tr ro tr' ro' ev} : (∀ k, Matters ev 1 τ k → tr[k]? = tr'[k]?) →
      (∀ k, Matters ev 2 τ k → ro[k]? = ro'[k]?) →
      AgreeNear τ ⟨some (.many tr, .many ro), some ev, false⟩ ⟨some (.many tr', .many ro'), some ev, false⟩

/-- `s'` is the tree `s` with other recordings in some of the frames, taken at the same times. -/
structure Rerecorded (s s' : State) : Prop where
  size : s'.size = s.size
  parent : s'.parent = s.parent
  stamps : ∀ i disc, stampsOf s' disc i = stampsOf s disc i

/-- `d'` is the continuous recording `d` with another position and orientation in sample `j`, which was taken at the
`j`-th of the times `ev`. -/
inductive Replaced (ev : List ℝ) (j : ℕ) : FrameData → FrameData → Prop
  | mk {tr ro} (t : Vec) (r : Quat) : Replaced ev j ⟨some (.many tr, .many ro), some ev, false⟩
      ⟨some (.many (tr.set j t), .many (ro.set j r)), some ev, false⟩

/-- Only the position changes. -/
inductive ReplacedPosition (ev : List ℝ) (j : ℕ) : FrameData → FrameData → Prop
  | mk {tr ro} (t : Vec) : ReplacedPosition ev j ⟨some (.many tr, .many ro), some ev, false⟩
      ⟨some (.many (tr.set j t), .many ro), some ev, false⟩

end RBM.Spec
