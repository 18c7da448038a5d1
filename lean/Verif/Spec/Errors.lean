import Verif.Spec.Motion

/-!
Two recordings of the same frame that differ by a measurement error.
-/

namespace RBM.Spec

open RBM

/-- The orientations `r` and `r'` differ by a small rotation: a vector of length one ends up at most `η` apart. -/
def TurnedBy (η : ℝ) (r r' : Quat) : Prop := ∀ v : Vec, dist (rot r' v) (rot r v) ≤ η * dist v 0

/-- Recordings with the same timestamps whose positions are at most `ε` apart in every sample and whose orientations, where they count for
time `τ`, are turned by at most `η`: for static and discrete frames in every sample; for continuous frames in every sample if one was taken
at `τ`, otherwise the recorded orientations are the same. -/
inductive OffBy (τ ε η : ℝ) : FrameData → FrameData → Prop
  | static {t r t' r' disc} : dist t' t ≤ ε → TurnedBy η r r' → OffBy τ ε η ⟨some (.one t, .one r), none, disc⟩ ⟨some (.one t', .one r'), none, disc⟩
  | discrete {tr ro tr' ro' ev} : (∀ (k : ℕ) t t', tr[k]? = some t → tr'[k]? = some t' → dist t' t ≤ ε) →
      (∀ (k : ℕ) r r', ro[k]? = some r → ro'[k]? = some r' → TurnedBy η r r') →
      OffBy τ ε η ⟨some (.many tr, .many ro), some ev, true⟩ ⟨some (.many tr', .many ro'), some ev, true⟩
  | sampled {tr ro tr' ro' ev} : (∀ (k : ℕ) t t', tr[k]? = some t → tr'[k]? = some t' → dist t' t ≤ ε) → τ ∈ ev →
      (∀ (k : ℕ) r r', ro[k]? = some r → ro'[k]? = some r' → TurnedBy η r r') →
      OffBy τ ε η ⟨some (.many tr, .many ro), some ev, false⟩ ⟨some (.many tr', .many ro'), some ev, false⟩
  | between {tr ro tr' ev} : (∀ (k : ℕ) t t', tr[k]? = some t → tr'[k]? = some t' → dist t' t ≤ ε) → 0 ≤ η →
      OffBy τ ε η ⟨some (.many tr, .many ro), some ev, false⟩ ⟨some (.many tr', .many ro), some ev, false⟩

end RBM.Spec
