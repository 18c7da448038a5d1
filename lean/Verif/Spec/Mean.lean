import Verif.Spec.Rigid
import Verif.Model.Mean
import Verif.Spec.Transform

/-!
Contracts of `np.linalg.eig` and `argsort`, and what the mean of quaternions is.
-/

namespace RBM.Spec

open RBM

/-- `eig` returns, for a symmetric matrix, eigenvalues and a matrix of normalised eigenvectors in
its columns, which form a basis. The order is not specified. -/
structure EigLaw (eig : Mat4 → (Fin 4 → ℝ) × Mat4) : Prop where
  eigenpair : ∀ A : Mat4, A.IsSymm → ∀ i j, ∑ k, A i k * (eig A).2 k j = (eig A).1 j * (eig A).2 i j
  normalised : ∀ A : Mat4, A.IsSymm → ∀ j, ∑ k, (eig A).2 k j ^ 2 = 1
  basis : ∀ A : Mat4, A.IsSymm → (eig A).2.det ≠ 0

/-- `argsort` returns the indices that sort the array, equal elements in their original order. -/
structure SortLaw (argsort : (Fin 4 → ℝ) → Fin 4 → Fin 4) : Prop where
  perm : ∀ l, Function.Injective (argsort l)
  sorted : ∀ (l : Fin 4 → ℝ) (i j : Fin 4), i ≤ j → l (argsort l i) ≤ l (argsort l j)
  stable : ∀ (l : Fin 4 → ℝ) (i j : Fin 4), i < j → l (argsort l i) = l (argsort l j) → argsort l i < argsort l j

/-- Inner product of quaternions as vectors of ℝ⁴. -/
def qdot (x y : Quat) : ℝ := x.re * y.re + x.imI * y.imI + x.imJ * y.imJ + x.imK * y.imK

/-- `m` is a mean direction of the quaternions `qs`: a unit quaternion that maximises the sum of the
squared inner products. -/
def IsMeanDirection (qs : List Quat) (m : Quat) : Prop :=
  IsUnitQ m ∧ ∀ x, IsUnitQ x → (qs.map fun q => qdot x q ^ 2).sum ≤ (qs.map fun q => qdot m q ^ 2).sum

/-- The `axis` argument stands for the axes `axes` of an array with `n` axes: all of them, one, or several different ones. -/
def MeanAxes : AxisArg → ℕ → List ℕ → Prop
  | .none, n, axes => axes = List.range n
  | .int a, n, axes => ∃ p, AxisIs a n p ∧ axes = [p]
  | .tuple l, n, axes => List.Forall₂ (fun a p => AxisIs a n p) l axes ∧ axes.Nodup

/-- The entries of a shape or an index along the other axes. -/
def remaining (axes l : List ℕ) : List ℕ := ((List.range l.length).filter fun k => decide (k ∉ axes)).map fun k => l.getD k 0

/-- `qs` are the quaternions of the array, each position once, whose position along the other axes is `idx`. -/
def IsGroup (q : ND Quat) (axes idx : List ℕ) (qs : List Quat) : Prop :=
  ∃ is : List (List ℕ), is.Nodup ∧ (∀ i, i ∈ is ↔ Valid q.shape i ∧ remaining axes i = idx) ∧ qs = is.map q.get

/-- The mean of the outer products of `qs`. -/
noncomputable def outerMean (qs : List Quat) : Mat4 := fun a b => (qs.map fun q => qcomp q a * qcomp q b).sum / qs.length

/-- The eigenvalues that the solver returns for the mean of the outer products of `qs` are strictly descending. -/
def Descending (eig : Mat4 → (Fin 4 → ℝ) × Mat4) (qs : List Quat) : Prop := ∀ i j, i < j → (eig (outerMean qs)).1 j < (eig (outerMean qs)).1 i

end RBM.Spec
