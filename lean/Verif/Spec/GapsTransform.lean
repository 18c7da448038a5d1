import Verif.Model.GapsTransform
import Verif.Spec.Transform

/-!
Vocabulary for arrays of vectors with missing (NaN) entries.
-/

namespace RBM.Spec

open RBM

/-- Some coordinate of the vector at `idx` (coordinates along axis `p`) is missing. -/
def VecMissing (v : ND (Option ℝ)) (p : ℕ) (idx : List ℕ) : Prop := ∃ c < 3, v.get (idx.set p c) = none

/-- All three coordinates of the vector at `idx` are missing. -/
def VecGone (v : ND (Option ℝ)) (p : ℕ) (idx : List ℕ) : Prop := ∀ c < 3, v.get (idx.set p c) = none

/-- The vector at `idx` is complete and equal to `w`. -/
def VecIs (v : ND (Option ℝ)) (p : ℕ) (idx : List ℕ) (w : Vec) : Prop := ∀ c : Fin 3, v.get (idx.set p c) = some (w c)

/-- The sample before sample `k`; for the first sample the second one. -/
def before (k : ℕ) : ℕ := if k = 0 then 1 else k - 1

/-- The value of a call that honours `return_timestamps`. -/
def returnedGaps (withTimestamps : Bool) (out : ND (Option ℝ)) (ts : Option (List ℝ)) : PyRetGaps :=
  if withTimestamps then .withTs out ts else .single out

/-- The same result, seen as one that might have missing entries. -/
def withoutGaps : PyRet → PyRetGaps
  | .single a => .single (a.map some)
  | .withTs a ts => .withTs (a.map some) ts

end RBM.Spec
