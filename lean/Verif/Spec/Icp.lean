import Verif.Spec.Fit
import Mathlib.Data.Real.Archimedean

/-!
Iterative closest point: what a run of the algorithm is.
-/

namespace RBM.Spec

open RBM

/-- Contract of the nearest neighbour search: the index of a nearest point of a nonempty list. -/
def NnLaw (nn : List Vec → Vec → ℕ) : Prop :=
  ∀ l v, l ≠ [] → ∃ w, l[nn l v]? = some w ∧ ∀ u ∈ l, sqDist v w ≤ sqDist v u

/-- The points in an array with the vectors along axis `p`. -/
def cloud (b : ND ℝ) (p : ℕ) : Set Vec := {w | ∃ j, Valid (b.shape.set p 1) j ∧ w = vec3 b p j}

/-- Squared distance of a point to the nearest point of a set. -/
noncomputable def gap (C : Set Vec) (v : Vec) : ℝ := sInf (sqDist v '' C)

/-- Sum of the squared distances to the nearest points. -/
noncomputable def matchError (C : Set Vec) (l : List Vec) : ℝ := (l.map (gap C)).sum

/-- Mean of the distances to the nearest points. -/
noncomputable def meanGap (C : Set Vec) (l : List Vec) : ℝ := (l.map fun v => Real.sqrt (gap C v)).sum / l.length

/-- One iteration: `P'` moves the points like `P` followed by a least squares motion of the points moved by `P`
onto nearest points of the set. -/
def IcpStep (C : Set Vec) (ids : List (List ℕ)) (x : List ℕ → Vec) (P P' : Pose) : Prop :=
  ∃ m : List ℕ → Vec, (∀ i ∈ ids, m i ∈ C ∧ ∀ u ∈ C, sqDist (P.act (x i)) (m i) ≤ sqDist (P.act (x i)) u) ∧
    ∃ S : Pose, IsBestMotion (ids.map fun i => (P.act (x i), m i)) S ∧ ∀ i ∈ ids, P'.act (x i) = S.act (P.act (x i))

/-- The mean distances, preceded by the value the first one is compared with. -/
noncomputable def errors (C : Set Vec) (ids : List (List ℕ)) (x : List ℕ → Vec) (prev : ℝ) (Ps : List Pose) : List ℝ :=
  prev :: Ps.map fun P => meanGap C (ids.map fun i => P.act (x i))

/-- A run: the motions `Ps` start with `P0`; every one is an iteration from the one before; there
are at most `n` iterations; the run goes on while the mean distance changes by at least `tol`,
and stops after `n` iterations or after the first one for which it does not (the distances are those before the
move; the first one is compared with `prev`). -/
structure IcpRun (C : Set Vec) (ids : List (List ℕ)) (x : List ℕ → Vec) (tol prev : ℝ) (n : ℕ) (P0 : Pose) (Ps : List Pose) : Prop where
  head : Ps.head? = some P0
  count : Ps.length ≤ n + 1
  step : ∀ k P P', Ps[k]? = some P → Ps[k + 1]? = some P' → IcpStep C ids x P P'
  going : ∀ k, k + 2 < Ps.length → tol ≤ |(errors C ids x prev Ps).getD k 0 - (errors C ids x prev Ps).getD (k + 1) 0|
  stop : Ps.length = n + 1 ∨ ∃ k, k + 2 = Ps.length ∧
    |(errors C ids x prev Ps).getD k 0 - (errors C ids x prev Ps).getD (k + 1) 0| < tol

/-- The motion an initial estimate stands for. -/
def startPose : Option (Vec × Quat) → Pose
  | none => ⟨0, 1⟩
  | some (t, r) => ⟨t, r⟩

end RBM.Spec
