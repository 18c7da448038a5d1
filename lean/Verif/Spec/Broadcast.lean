import Verif.Spec.Transform

/-!
Broadcasting of two arrays with the same number of axes.
-/

namespace RBM.Spec

/-- Shapes `s` and `t` are compatible and `u` is the common shape: along every axis the lengths agree
or one of them is one. -/
inductive Broadcast : List ℕ → List ℕ → List ℕ → Prop
  | nil : Broadcast [] [] []
  | same (n : ℕ) {s t u : List ℕ} : Broadcast s t u → Broadcast (n :: s) (n :: t) (n :: u)
  | left (n : ℕ) {s t u : List ℕ} : Broadcast s t u → Broadcast (1 :: s) (n :: t) (n :: u)
  | right (n : ℕ) {s t u : List ℕ} : Broadcast s t u → Broadcast (n :: s) (1 :: t) (n :: u)

/-- The entry of an array of shape `s` that stands at index `idx` of the common shape: along an axis
of length one it is the only one. -/
def pickIdx (s idx : List ℕ) : List ℕ := List.zipWith (fun n i => if n = 1 then 0 else i) s idx

/-- Missing axes count as leading axes of length one. -/
def padTo (n : ℕ) (s : List ℕ) : List ℕ := List.replicate (n - s.length) 1 ++ s

/-- `sh` is the common shape of arrays of the given shapes, which may have different numbers of axes: as many axes
as the longest, along every axis each length is one or that of `sh`, and that of `sh` occurs. -/
structure CommonShape (shapes : List (List ℕ)) (sh : List ℕ) : Prop where
  le : ∀ s ∈ shapes, s.length ≤ sh.length
  len : ∃ s ∈ shapes, s.length = sh.length
  fits : ∀ s ∈ shapes, ∀ i < sh.length, (padTo sh.length s).getD i 0 = 1 ∨ (padTo sh.length s).getD i 0 = sh.getD i 0
  taken : ∀ i < sh.length, ∃ s ∈ shapes, (padTo sh.length s).getD i 0 = sh.getD i 0

/-- The entry of an array of shape `s` at index `idx` of the common shape. -/
def pickFrom (s idx : List ℕ) : List ℕ := pickIdx s (idx.drop (idx.length - s.length))

end RBM.Spec
