import Verif.Lemmas.Matcher
import Verif.Lemmas.Walk
import Verif.Spec.Args

namespace RBM

open Spec

/-- `initArrays` without the inversion. -/
theorem initBase {args : FrameArgs} (h : ArgsOk args) :
    initTimestamps args.timestamps = .ok (argStamps args) ∧
    initTranslationArg (argStamps args) args.translation = .ok (match nStamps args with
      | none => .one (argPose args none).t
      | some n => .many ((List.range n).map fun k => (argPose args (some k)).t)) ∧
    initRotationArg (argStamps args) args.rotation = .ok (match nStamps args with
      | none => .one (argPose args none).r
      | some n => .many ((List.range n).map fun k => (argPose args (some k)).r)) := by
  obtain ⟨h1, h2, h3, _⟩ := h
  obtain ⟨tr, ro, ts, inv, disc⟩ := args
  cases ts with
  | none =>
    refine ⟨rfl, ?_, ?_⟩
    · cases tr with
      | none => rfl
      | some a =>
        have := h2 a rfl
        simp [nStamps] at this
        simp [initTranslationArg, argStamps, this, nStamps, argPose]
    · cases ro with
      | none => rfl
      | some a =>
        have := h3 a rfl
        simp [nStamps] at this
        simp [initRotationArg, argStamps, this, nStamps, argPose]
  | some t =>
    obtain ⟨n, hn⟩ := h1 t rfl
    refine ⟨by simp [initTimestamps, argStamps, hn], ?_, ?_⟩
    · cases tr with
      | none => simp [initTranslationArg, argStamps, nStamps, argPose, List.map_const']
      | some a =>
        have := h2 a rfl
        simp [nStamps, hn] at this
        simp [initTranslationArg, argStamps, this, nStamps, argPose, hn, vecRows]
    · cases ro with
      | none => simp [initRotationArg, argStamps, nStamps, argPose, List.map_const']
      | some a =>
        have := h3 a rfl
        simp [nStamps, hn] at this
        simp [initRotationArg, argStamps, this, nStamps, argPose, hn, quatRows]

theorem initArrays_plain {args : FrameArgs} (h : ArgsOk args) (hi : args.inverse = false) :
    ∃ t r ts, initArrays args = .ok (t, r, ts) ∧
      (⟨some (t, r), ts, args.discrete⟩ : FrameData) = dataOf args (argPose args) := by
  obtain ⟨h1, h2, h3⟩ := initBase h
  simp only [initArrays, h1, h2, h3, bind, Except.bind, hi, Bool.false_eq_true, if_false]
  refine ⟨_, _, _, rfl, ?_⟩
  simp only [dataOf]
  cases hn : nStamps args with
  | none =>
    have : argStamps args = none := by
      simp [nStamps] at hn; simp [argStamps, hn]
    simp [this]
  | some n => rfl

theorem rot_neg_out (q : Quat) (v : Vec) : -rot q v = rot q (-v) := (rot_neg q v).symm

/-- With `inverse=True`: nonzero rotations give a successful construction; unit rotations give the
inverse poses. -/
theorem initArrays_inverse {args : FrameArgs} (h : ArgsOk args) (hi : args.inverse = true)
    (hn0 : ∀ k, argRow args k → (argPose args k).r ≠ 0) :
    ∃ t r ts, initArrays args = .ok (t, r, ts) ∧ (ts = none ↔ args.timestamps = none) ∧
      ((∀ k, argRow args k → IsUnitQ (argPose args k).r) →
      (⟨some (t, r), ts, args.discrete⟩ : FrameData) = dataOf args fun k => (argPose args k).inverse) := by
  obtain ⟨h1, h2, h3⟩ := initBase h
  simp only [initArrays, h1, h2, h3, bind, Except.bind, hi, if_true]
  have hts : argStamps args = none ↔ args.timestamps = none := by
    simp [argStamps]
  cases hn : nStamps args with
  | none =>
    have hz := hn0 none (by simp [argRow, hn])
    have hno : argStamps args = none := by
      simp [nStamps] at hn; simp [argStamps, hn]
    simp only [qinvArr, hz, if_false, rotateVectors, inv_eq_zero, Arr.map, Pure.pure, Except.pure]
    refine ⟨_, _, _, rfl, hts, fun _ => ?_⟩
    simp only [dataOf, hn, hno]
    simp [Pose.inverse, rotMat_eq_rot _ (inv_ne_zero hz)]
  | some n =>
    have hz : (0 : Quat) ∉ (List.range n).map fun k => (argPose args (some k)).r := by
      intro hm
      obtain ⟨k, hk, e⟩ := List.mem_map.mp hm
      exact hn0 (some k) (by simp [argRow, hn]; simpa using hk) e
    have hz' : (0 : Quat) ∉ ((List.range n).map fun k => (argPose args (some k)).r).map (·⁻¹) := by
      intro hm
      obtain ⟨q, hq, e⟩ := List.mem_map.mp hm
      rw [inv_eq_zero] at e
      exact hz (e ▸ hq)
    have hb : ∀ (f : Quat → Vec → Vec) (g : ℕ → Quat) (w : ℕ → Vec),
        Arr.bzip f (.many ((List.range n).map g)) (.many ((List.range n).map w)) =
        .ok (.many ((List.range n).map fun k => f (g k) (w k))) := by
      intro f g w
      simp only [Arr.bzip, List.length_map, List.length_range, if_true]
      congr 2
      rw [List.zipWith_map_left, List.zipWith_map_right, List.zipWith_self]
    simp only [qinvArr, hz, if_false, rotateVectors, hz', Pure.pure, Except.pure]
    rw [List.map_map] at hz' ⊢
    rw [hb]
    simp only [Arr.map]
    refine ⟨_, _, _, rfl, hts, fun hu => ?_⟩
    simp only [dataOf, hn]
    congr 4
    rw [List.map_map]
    apply List.map_congr_left
    intro k hk
    have hk' : k < n := by simpa using hk
    have := hu (some k) (by simp [argRow, hn]; exact hk')
    simp only [Function.comp, Pose.inverse]
    rw [crossForm_eq_rot _ this.inv]

end RBM
