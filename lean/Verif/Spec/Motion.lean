import Verif.Spec.Rigid
import Verif.Spec.Registry

/-!
What the pose of a frame at a given time is, independent of how the code computes it.
-/

namespace RBM.Spec

open RBM

/-- Consecutive timestamps strictly increase / do not decrease. -/
def StrictlyIncreasing (l : List ℝ) : Prop := l.Pairwise (· < ·)
def NonDecreasing (l : List ℝ) : Prop := l.Pairwise (· ≤ ·)

/-- Time `τ` lies in the closed range of the timestamps `c`. -/
def InRange (c : List ℝ) (τ : ℝ) : Prop :=
  (∀ x, c.head? = some x → x ≤ τ) ∧ (∀ x, c.getLast? = some x → τ ≤ x)

/-- `v` is the linear interpolation at `τ` of the samples `ys` taken at times `xs`. -/
def IsLinInterp {V} [AddCommGroup V] [Module ℝ V] (xs : List ℝ) (ys : List V) (τ : ℝ) (v : V) : Prop :=
  ∃ (k : ℕ) (x0 x1 : ℝ) (y0 y1 : V), xs[k]? = some x0 ∧ xs[k + 1]? = some x1 ∧ ys[k]? = some y0 ∧
    ys[k + 1]? = some y1 ∧ x0 < x1 ∧ x0 ≤ τ ∧ τ ≤ x1 ∧
    v = (1 - (τ - x0) / (x1 - x0)) • y0 + ((τ - x0) / (x1 - x0)) • y1

/-- `k` is the position of the event in force at `τ`: the last one not after `τ`, or the first one
if all are after `τ`. -/
def IsCurrentEvent (events : List ℝ) (τ : ℝ) (k : ℕ) : Prop :=
  (∃ e, events[k]? = some e ∧ e ≤ τ ∧ ∀ j e', k < j → events[j]? = some e' → τ < e') ∨
  (k = 0 ∧ events ≠ [] ∧ ∀ (j : ℕ) e', events[j]? = some e' → τ < e')

/-- `P` is the pose at time `τ` of a frame with data `d` wrt its parent. Orientations of continuous
frames are interpolated by the external function `sq`. -/
inductive IsPoseAt (sq : SquadFn) : FrameData → ℝ → Pose → Prop
  | static {t r τ disc} : IsPoseAt sq ⟨some (.one t, .one r), none, disc⟩ τ ⟨t, r⟩
  | discrete {tr ro ev τ k t r} : IsCurrentEvent ev τ k → tr[k]? = some t → ro[k]? = some r →
      IsPoseAt sq ⟨some (.many tr, .many ro), some ev, true⟩ τ ⟨t, r⟩
  | continuous {tr ro ev τ t} : IsLinInterp ev tr τ t →
      IsPoseAt sq ⟨some (.many tr, .many ro), some ev, false⟩ τ ⟨t, sq ro ev τ⟩

/-- Contract of the external interpolation `quaternion.squad` that is assumed where stated: for at
least two unit samples at strictly increasing times, the values inside the range are unit
quaternions, and sample times reproduce the samples. -/
structure SquadLaw (sq : SquadFn) : Prop where
  unit : ∀ qs xs τ, qs.length = xs.length → 2 ≤ xs.length → StrictlyIncreasing xs →
    (∀ q ∈ qs, IsUnitQ q) → (∀ x, xs.head? = some x → x ≤ τ) →
    (∀ x, xs.getLast? = some x → τ ≤ x) → IsUnitQ (sq qs xs τ)
  knot : ∀ qs xs (k : ℕ) q x, qs.length = xs.length → 2 ≤ xs.length → StrictlyIncreasing xs →
    (∀ q ∈ qs, IsUnitQ q) → qs[k]? = some q → xs[k]? = some x → sq qs xs x = q

/-- Well-formed frame data with unit rotations: what the constructor produces from unit rotations
and timestamps on which `lookup_transform` is meant to work. -/
inductive GoodData : FrameData → Prop
  | static {t r} : IsUnitQ r → GoodData ⟨some (.one t, .one r), none, false⟩
  | discrete {tr ro ev} : tr.length = ev.length → ro.length = ev.length → ev ≠ [] →
      NonDecreasing ev → (∀ q ∈ ro, IsUnitQ q) →
      GoodData ⟨some (.many tr, .many ro), some ev, true⟩
  | continuous {tr ro ev} : tr.length = ev.length → ro.length = ev.length → 2 ≤ ev.length →
      StrictlyIncreasing ev → (∀ q ∈ ro, IsUnitQ q) →
      GoodData ⟨some (.many tr, .many ro), some ev, false⟩

/-- The point with coordinates `p` in frame `a` has coordinates `P` in the ancestor frame `c`, where
`pose i Q` says that `Q` is the pose of frame `i` in its parent. -/
inductive InAncestor (parent : ℕ → Option ℕ) (pose : ℕ → Pose → Prop) (c : ℕ) : ℕ → Vec → Vec → Prop
  | here {p} : InAncestor parent pose c c p p
  | up {a k p P Q} : a ≠ c → parent a = some k → pose a Q →
      InAncestor parent pose c k (Q.act p) P → InAncestor parent pose c a p P

/-- The pose of frame `i` of state `s` at time `τ`. -/
def PoseOf (sq : SquadFn) (s : State) (τ : ℝ) (i : ℕ) (P : Pose) : Prop :=
  ∃ d, s.data i = some d ∧ IsPoseAt sq d τ P

/-- The pose of a static frame. -/
def StaticPoseOf (s : State) (i : ℕ) (P : Pose) : Prop :=
  ∃ disc, s.data i = some ⟨some (.one P.t, .one P.r), none, disc⟩

/-- `s0` is `s` with every well-formed frame that has a pose at time `τ` frozen at that pose. -/
def FrozenAt (sq : SquadFn) (s : State) (τ : ℝ) (s0 : State) : Prop :=
  (∃ data, s0 = { s with data := data }) ∧
    ∀ i d P, s.data i = some d → GoodData d → IsPoseAt sq d τ P →
      s0.data i = some ⟨some (.one P.t, .one P.r), none, false⟩

/-- Every frame strictly below the nearest common ancestor on the way between `a` and `b`
satisfies `good`. -/
def PathAll (s : State) (a b : ℕ) (good : ℕ → Prop) : Prop :=
  ∃ c la lb, NearestCommon s a b c ∧ PathTo s.parent c a la ∧ PathTo s.parent c b lb ∧
    ∀ i ∈ la ++ lb, good i

/-- The timestamps of frame `i` if it is a discrete (`disc = true`) resp. continuous
(`disc = false`) timestamped frame. -/
def stampsOf (s : State) (disc : Bool) (i : ℕ) : Option (List ℝ) :=
  (s.data i).bind fun d => if d.discrete = disc then d.timestamps else none

/-- The frames that a lookup from `a` to `b` passes through, in that order. -/
def Route (s : State) (a b : ℕ) (l : List ℕ) : Prop :=
  ∃ c la lb, NearestCommon s a b c ∧ PathTo s.parent c a la ∧ PathTo s.parent c b lb ∧
    l = la ++ lb.reverse

/-- Frames for which lookups are meant to be correct: well-formed frames with unit rotations
(`moving = true`), or static frames with any nonzero rotation (`moving = false`). -/
def FrameOk (moving : Bool) (s : State) (i : ℕ) : Prop :=
  if moving then ∃ d, s.data i = some d ∧ GoodData d else ∃ P, StaticPoseOf s i P ∧ P.r ≠ 0

/-- `res`, the outcome of a lookup, gives the transformation `A` for time `τ`: it is static, or it
has a row with timestamp `τ`. -/
def GivesAt (res : Res (Arr Vec × Arr Quat × Option (List ℝ))) (τ : ℝ) (A : Pose) : Prop :=
  res = .ok (.one A.t, .one A.r, none) ∨
  ∃ (tl : List Vec) (rl : List Quat) (ts : List ℝ) (k : ℕ), res = .ok (.many tl, .many rl, some ts) ∧
    ts[k]? = some τ ∧ tl[k]? = some A.t ∧ rl[k]? = some A.r

/-- The frame which in frame `a` has orientation `q` has orientation `Q` in the ancestor frame `c`. -/
inductive OrientInAncestor (parent : ℕ → Option ℕ) (pose : ℕ → Pose → Prop) (c : ℕ) :
    ℕ → Quat → Quat → Prop
  | here {q} : OrientInAncestor parent pose c c q q
  | up {a k q O Q} : a ≠ c → parent a = some k → pose a Q →
      OrientInAncestor parent pose c k (Q.r * q) O → OrientInAncestor parent pose c a q O

end RBM.Spec
