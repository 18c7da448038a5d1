import Verif.Spec.Motion
import Verif.Model.GapsLookup

/-!
Recordings of frames with missing entries, and what a lookup through them may say.
-/

namespace RBM.Spec

open RBM

/-- The known entries of the row are those of the vector `v`; the known orientation is `q`. -/
def Fits (g : GVec) (v : Vec) : Prop := ∀ k x, g k = some x → v k = x
def FitsQ (g : Option Quat) (q : Quat) : Prop := ∀ x, g = some x → q = x

/-- Two arrays of the same shape, related row by row. -/
inductive Rows {α β : Type} (R : α → β → Prop) : Arr α → Arr β → Prop
  | one {a b} : R a b → Rows R (.one a) (.one b)
  | many {l l'} : List.Forall₂ R l l' → Rows R (.many l) (.many l')

/-- `d` completes the recording `g`: it has the same timestamps and the known entries of `g`, and some number in place of every
missing entry. -/
inductive CompletesData : GapData → FrameData → Prop
  | none {ts disc} : CompletesData ⟨none, ts, disc⟩ ⟨none, ts, disc⟩
  | some {tg rg t r ts disc} : Rows Fits tg t → Rows FitsQ rg r → CompletesData ⟨some (tg, rg), ts, disc⟩ ⟨some (t, r), ts, disc⟩

/-- `s'` is the tree `s` with a complete recording in every frame, which completes the recording `gd` of the frame. -/
structure CompletesTree (s : State) (gd : ℕ → Option GapData) (s' : State) : Prop where
  tree : ∃ data, s' = { s with data := data }
  data : ∀ i, (gd i = none ∧ s'.data i = none) ∨ ∃ g d, gd i = some g ∧ s'.data i = some d ∧ CompletesData g d

/-- Among samples taken at times `xs`, sample `k` is close to time `τ`: at most `n - 1` other samples lie between them. -/
def Close (xs : List ℝ) (n : ℕ) (τ : ℝ) (k : ℕ) : Prop :=
  (∃ x, xs[k]? = some x) ∧ (∀ y, xs[k + n]? = some y → τ ≤ y) ∧ ∀ j y, j + n = k → xs[j]? = some y → y ≤ τ

/-- The row is complete. -/
def Complete (g : GVec) : Prop := ∀ k, g k ≠ none

/-- Nothing is missing near `τ`: for a discrete frame in the event in force, for a continuous frame in the positions next to `τ`
and in the orientations up to two samples away. -/
inductive NoGapsNear (τ : ℝ) : GapData → Prop
  | static {t : GVec} {r disc} : Complete t → r ≠ none → NoGapsNear τ ⟨some (.one t, .one r), none, disc⟩
  | discrete {tr ro ev} : (∀ k, IsCurrentEvent ev τ k → ∀ g : GVec, tr[k]? = some g → Complete g) →
      (∀ k, IsCurrentEvent ev τ k → ro[k]? ≠ some none) → NoGapsNear τ ⟨some (.many tr, .many ro), some ev, true⟩
  | continuous {tr ro ev} : (∀ k, Close ev 1 τ k → ∀ g : GVec, tr[k]? = some g → Complete g) →
      (∀ k, Close ev 2 τ k → ro[k]? ≠ some none) → NoGapsNear τ ⟨some (.many tr, .many ro), some ev, false⟩

/-- Contract of `quaternion.squad` that is assumed where stated, for orientations some of which are missing: a value is missing or
the one for every completion, and it is not missing if no orientation up to two samples away is missing. -/
structure SquadGapsLaw (sq : SquadFn) (sqg : SquadGapsFn) : Prop where
  sound : ∀ gs qs xs τ, List.Forall₂ FitsQ gs qs → gs.length = xs.length → 2 ≤ xs.length → StrictlyIncreasing xs →
    (∀ q ∈ qs, IsUnitQ q) → InRange xs τ → FitsQ (sqg gs xs τ) (sq qs xs τ)
  near : ∀ gs xs τ, gs.length = xs.length → 2 ≤ xs.length → StrictlyIncreasing xs → InRange xs τ →
    (∀ k, Close xs 2 τ k → gs[k]? ≠ some none) → sqg gs xs τ ≠ none

/-- `res`, the outcome of a lookup, gives the complete transformation `A` for time `τ` (compare `GivesAt`). -/
def GapsGiveAt (res : Res (Arr GVec × Arr (Option Quat) × Option (List ℝ))) (τ : ℝ) (A : Pose) : Prop :=
  res = .ok (.one fun k => some (A.t k), .one (some A.r), none) ∨
  ∃ (tl : List GVec) (rl : List (Option Quat)) (ts : List ℝ) (k : ℕ), res = .ok (.many tl, .many rl, some ts) ∧
    ts[k]? = some τ ∧ tl[k]? = some (fun j => some (A.t j)) ∧ rl[k]? = some (some A.r)

end RBM.Spec
