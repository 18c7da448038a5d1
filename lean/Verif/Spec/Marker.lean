import Verif.Model.RosVisualization
import Mathlib.Data.List.Destutter

/-!
Vocabulary for colours and marker publishers.
-/

namespace RBM.Spec

open RBM RBM.Ros

/-- `c` is the hexadecimal digit with value `d`, in lower or upper case. -/
def IsHexDigit (c : Char) (d : ℕ) : Prop :=
  "0123456789abcdef".toList[d]? = some c ∨ "0123456789ABCDEF".toList[d]? = some c

/-- `[c₁, c₂]` is the byte `n` as two hexadecimal digits. -/
def IsHexByte (s : List Char) (n : ℕ) : Prop :=
  ∃ c d x y, s = [c, d] ∧ IsHexDigit c x ∧ IsHexDigit d y ∧ n = 16 * x + y

/-- The marker at the times of the calls of `publish` in a history without threads, in order of time. -/
def offered {M : Type} (m : M) : List (MEv M) → List M
  | [] => []
  | .set m' :: evs => offered m' evs
  | .publish :: evs => m :: offered m evs
  | _ :: evs => offered m evs

/-- What a series of `n` samples looks like if only every `k`-th one is kept, starting with the first. -/
def everyKth {α : Type} (l : List α) (k : ℕ) (r : List α) : Prop :=
  r.length = (l.length + k - 1) / k ∧ ∀ j < r.length, r[j]? = l[j * k]?

end RBM.Spec
