import Verif.Spec.GapsLookup
import Verif.Spec.GapsTransform
import Verif.Model.GapsAll

/-!
Arrays with missing entries, and what a transformed array may say.
-/

namespace RBM.Spec

open RBM

/-- Every number in `g` is the number in the same place of the array `a`, which has the same shape. -/
def FitsArr (g : ND (Option ℝ)) (a : ND ℝ) : Prop := g.shape = a.shape ∧ ∀ idx, Valid g.shape idx → ∀ x, g.get idx = some x → a.get idx = x

/-- The array has no missing entry. -/
def NoGaps (g : ND (Option ℝ)) : Prop := ∀ idx, Valid g.shape idx → g.get idx ≠ none

/-- The array of a result. -/
def PyRetGaps.array : PyRetGaps → ND (Option ℝ)
  | .single a => a
  | .withTs a _ => a

/-- Two results of the same form, with the same timestamps, such that every number of the first one is that of the second one. -/
inductive FitsRet : PyRetGaps → PyRet → Prop
  | single {g a} : FitsArr g a → FitsRet (.single g) (.single a)
  | withTs {g a ts} : FitsArr g a → FitsRet (.withTs g ts) (.withTs a ts)

/-- Nothing is missing in the recording. -/
inductive CompleteData : GapData → Prop
  | one {t : GVec} {r ts disc} : Complete t → r ≠ none → CompleteData ⟨some (.one t, .one r), ts, disc⟩
  | many {tr : List GVec} {ro ts disc} : (∀ g ∈ tr, Complete g) → none ∉ ro → CompleteData ⟨some (.many tr, .many ro), ts, disc⟩

/-- How the array `v` is resampled follows from its entries: it has no timestamps; or, once the time axis has been swapped to the front,
its last axis does not have length four (it is interpolated linearly); or it is an array of unit quaternions along the last axis, at two
or more strictly increasing times. -/
inductive Resamples (v : ND ℝ) (o : TArgs) : Prop
  | static : o.timestamps = none → Resamples v o
  | numbers {ta q} : o.timeAxis = some ta → AxisIs ta v.ndim q →
      ((v.shape.set 0 (v.shape.getD q 0)).set q (v.shape.getD 0 0)).getLast? ≠ some 4 → Resamples v o
  | quaternions {ta q ats} : o.timestamps = some (ofList ats) → o.timeAxis = some ta → AxisIs ta v.ndim q → q + 1 < v.ndim →
      2 ≤ ats.length → StrictlyIncreasing ats → (∀ idx, Valid v.shape idx → IsUnitQ (quat4 v (v.ndim - 1) idx)) → Resamples v o

/-- The arguments of a transformation of an array `v` of `m` components along its last axis, with times `ats` along its first axis;
`rest` are the lengths of the axes in between. -/
structure TimedFirst (v : ND (Option ℝ)) (o : TArgs) (ats : List ℝ) (rest : List ℕ) (m : ℕ) : Prop where
  shape : v.shape = ats.length :: (rest ++ [m])
  axis : AxisIs o.axis (rest.length + 2) (rest.length + 1)
  timestamps : o.timestamps = some (ofList ats)
  timeAxis : ∃ ta, o.timeAxis = some ta ∧ AxisIs ta (rest.length + 2) 0
  two : 2 ≤ ats.length
  increasing : StrictlyIncreasing ats

end RBM.Spec
