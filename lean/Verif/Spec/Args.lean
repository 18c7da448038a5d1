import Verif.Spec.Motion

/-!
Meaning of the arguments of `ReferenceFrame(...)`.
-/

namespace RBM.Spec

open RBM

/-- Array `a`, if given, has shape `(k,)` for a static frame and `(n, k)` for `n` timestamps. -/
def ShapeOk (n : Option ℕ) (k : ℕ) (a : Option (ND ℝ)) : Prop :=
  ∀ x, a = some x → x.shape = n.toList ++ [k]

/-- Number of timestamps, `none` for static frames. -/
def nStamps (args : FrameArgs) : Option ℕ := args.timestamps.map fun t => t.shape.headD 0

/-- The documented conditions on the arguments of a frame with parent. -/
def ArgsOk (args : FrameArgs) : Prop :=
  (∀ t, args.timestamps = some t → ∃ n, t.shape = [n]) ∧
  ShapeOk (nStamps args) 3 args.translation ∧ ShapeOk (nStamps args) 4 args.rotation ∧
  (args.discrete = true → args.timestamps ≠ none)

/-- The pose given by the arguments for timestamp number `k` (`none`: static); omitted means zero
translation and identity rotation. -/
def argPose (args : FrameArgs) (k : Option ℕ) : Pose :=
  ⟨match args.translation with
    | none => 0
    | some a => fun i => a.get (k.toList ++ [(i : ℕ)]),
   match args.rotation with
    | none => 1
    | some a => ⟨a.get (k.toList ++ [0]), a.get (k.toList ++ [1]), a.get (k.toList ++ [2]),
        a.get (k.toList ++ [3])⟩⟩

/-- The given timestamps. -/
def argStamps (args : FrameArgs) : Option (List ℝ) :=
  args.timestamps.map fun t => (List.range (t.shape.headD 0)).map fun k => t.get [k]

/-- Which rows there are. -/
def argRow (args : FrameArgs) (k : Option ℕ) : Prop :=
  match nStamps args with
  | none => k = none
  | some n => ∃ j, k = some j ∧ j < n

/-- Frame data made of the poses `P none` (static) or `P 0 ... P (n-1)`. -/
def dataOf (args : FrameArgs) (P : Option ℕ → Pose) : FrameData :=
  match nStamps args with
  | none => ⟨some (.one (P none).t, .one (P none).r), none, args.discrete⟩
  | some n => ⟨some (.many ((List.range n).map fun k => (P (some k)).t),
      .many ((List.range n).map fun k => (P (some k)).r)), argStamps args, args.discrete⟩

/-- The inverse rigid motion. -/
noncomputable def Pose.inverse (P : Pose) : Pose := ⟨- rot P.r⁻¹ P.t, P.r⁻¹⟩

end RBM.Spec
