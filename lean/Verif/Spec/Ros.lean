import Verif.Model.RosBroadcaster
import Verif.Spec.Motion

/-!
What a broadcaster is expected to publish.
-/

namespace RBM.Spec

open RBM RBM.Ros

/-- A vector as ROS fields. -/
def xyz (v : Vec) : XYZ := { x := v 0, y := v 1, z := v 2 }

/-- A quaternion as ROS fields. -/
def xyzw (q : Quat) : XYZW := { x := q.imI, y := q.imJ, z := q.imK, w := q.re }

/-- Row `k` of an array with three columns. -/
def rowXyz (a : ND ℝ) (k : ℕ) : XYZ := { x := a.get [k, 0], y := a.get [k, 1], z := a.get [k, 2] }

/-- A broadcaster for a moving frame with at least one sample, whose timestamps are the times `ns` (in nanoseconds), with one row per
timestamp in all arrays. -/
structure Playable (b : Broadcaster) (ns : List ℕ) (tl : List Vec) (rl : List Quat) : Prop where
  nonempty : ns ≠ []
  stamps : b.timestamps = some (ns.map fun n : ℕ => (n : ℝ))
  translation : b.translation = .many tl
  rotation : b.rotation = .many rl
  tlen : tl.length = ns.length
  rlen : rl.length = ns.length
  twist : ∀ lin ang, b.twist = some (lin, ang) → lin.shape = [ns.length, 3] ∧ ang.shape = [ns.length, 3]

/-- `ms` are the messages for sample `k`: the transform from the frame to the base with the timestamp of the sample, the pose if there is a pose
publisher and the twist if there is a twist publisher. -/
def ShowsSample (b : Broadcaster) (ns : List ℕ) (tl : List Vec) (rl : List Quat) (k : ℕ) (ms : List OutMsg) : Prop :=
  ∃ n t r, ns[k]? = some n ∧ tl[k]? = some t ∧ rl[k]? = some r ∧
    ms = [.tf { header := { stamp := n, frameId := b.baseName }, childFrameId := b.frameName,
                transform := { translation := xyz t, rotation := xyzw r } }] ++
      (if b.pose then [.pose { header := { stamp := n, frameId := b.baseName }, pose := { position := xyz t, orientation := xyzw r } }] else []) ++
      (match b.twist with
       | none => []
       | some (lin, ang) => [.twist { header := { stamp := 0, frameId := b.frameName },
                                      twist := { linear := rowXyz lin k, angular := rowXyz ang k } }])

/-- What one kind of caller published, in order of time. -/
def published (o : Origin) (log : List (Origin × List OutMsg)) : List (List OutMsg) :=
  (log.reverse.filter fun e => decide (e.1 = o)).map fun e => e.2

/-- Contract of `Index.get_loc(..., method="nearest")`. -/
structure NearestLaw (near : NearestFn) : Prop where
  lt : ∀ ts τ, ts ≠ [] → StrictlyIncreasing ts → near ts τ < ts.length
  nearest : ∀ ts τ x y, StrictlyIncreasing ts → ts[near ts τ]? = some x → y ∈ ts → |x - τ| ≤ |y - τ|

/-- Which `child_frame_id` a broadcaster with base frame `base` listens to for the argument `subscribe`: that of the base frame for `True`, the given
name for a non-empty string, none for `False` and the empty string. -/
inductive ListensTo (base : Option String) : SubArg → Option (Option String) → Prop
  | no : ListensTo base (.flag false) none
  | empty : ListensTo base (.name "") none
  | base : ListensTo base (.flag true) (some base)
  | name {n : String} : n ≠ "" → ListensTo base (.name n) (some (some n))

end RBM.Spec
