import Verif.Lemmas.ParentChild
import Verif.Lemmas.Example2

/-!
Single frames: C18 (inverse), C19 (scale of quaternions), C25, C26 (resampling), C29 (constructor).
-/

namespace RBM.Props

open Spec

/-! ### C29 -/

/-- Construction of a frame with parent `p`. -/
theorem construct_parent {s : State} {h : List Event} (hr : Reachable s h) {p : ℕ} (hp : p < s.size)
    (n : Option String) (args : FrameArgs) :
    ∃ s2, WF s2 ∧ s2.parent s.size = some p ∧ s2.size = s.size + 1 ∧
      (s.construct n (some (.byObj p)) args) = match initArrays args with
        | .error e => (s2, .error e)
        | .ok (t, r, ts) => if args.discrete = true ∧ ts = none then (s2, .error .valueError)
            else (s2.setData s.size ⟨some (t, r), ts, args.discrete⟩, .ok s.size) := by
  obtain ⟨s2, e2, hwf2, hp2, hs2, hn2, hd2, hr2⟩ := setParent_alloc hr.wf n hp
  refine ⟨s2, hwf2, by rw [hp2]; simp, hs2, ?_⟩
  simp only [State.construct, State.resolve, e2]
  rfl

theorem initArrays_bad {args : FrameArgs} (h1 : ¬ ((∀ t, args.timestamps = some t → ∃ n, t.shape = [n]) ∧
    ShapeOk (nStamps args) 3 args.translation ∧ ShapeOk (nStamps args) 4 args.rotation)) :
    initArrays args = .error .valueError := by
  obtain ⟨tr, ro, ts, inv, disc⟩ := args
  simp only [initArrays, bind, Except.bind]
  cases ts with
  | none =>
    simp only [initTimestamps]
    cases htr : initTranslationArg none tr with
    | error e =>
      simp only [initTranslationArg] at htr
      cases tr with
      | none => simp at htr
      | some a => simp only at htr; split at htr <;> simp_all
    | ok t =>
      cases hro : initRotationArg none ro with
      | error e =>
        simp only [initRotationArg] at hro
        cases ro with
        | none => simp at hro
        | some a => simp only at hro; split at hro <;> simp_all
      | ok r =>
        exfalso; apply h1
        refine ⟨by simp, ?_, ?_⟩
        · intro x hx
          simp only at hx; subst hx
          simp only [initTranslationArg] at htr
          split at htr
          · simpa [nStamps]
          · simp at htr
        · intro x hx
          simp only at hx; subst hx
          simp only [initRotationArg] at hro
          split at hro
          · simpa [nStamps]
          · simp at hro
  | some a =>
    by_cases ha : ∃ n, a.shape = [n]
    · obtain ⟨n, ha⟩ := ha
      simp only [initTimestamps, ha]
      cases htr : initTranslationArg (some (List.map (fun k => a.get [k]) (List.range n))) tr with
      | error e =>
        simp only [initTranslationArg] at htr
        cases tr with
        | none => simp at htr
        | some a => simp only at htr; split at htr <;> simp_all
      | ok t =>
        cases hro : initRotationArg (some (List.map (fun k => a.get [k]) (List.range n))) ro with
        | error e =>
          simp only [initRotationArg] at hro
          cases ro with
          | none => simp at hro
          | some a => simp only at hro; split at hro <;> simp_all
        | ok r =>
          exfalso; apply h1
          refine ⟨by simpa using ⟨n, ha⟩, ?_, ?_⟩
          · intro x hx
            simp only at hx; subst hx
            simp only [initTranslationArg] at htr
            split at htr
            · rename_i hh; simpa [nStamps, ha] using hh
            · simp at htr
          · intro x hx
            simp only at hx; subst hx
            simp only [initRotationArg] at hro
            split at hro
            · rename_i hh; simpa [nStamps, ha] using hh
            · simp at hro
    · have : initTimestamps (some a) = .error .valueError := by
        simp only [initTimestamps]
        split
        · rename_i n hn; exact absurd ⟨n, hn⟩ ha
        · rfl
      simp only [this]

/-- With a parent, the constructor succeeds exactly for well-shaped arguments and stores them
(omitted arguments mean zero and identity); else it raises `ValueError`. For `inverse=True` this
assumes nonzero rotations (otherwise the result is NaN). -/
theorem C29_constructor (args : FrameArgs) {s : State} {h : List Event} (hr : Reachable s h) {p : ℕ}
    (hp : p < s.size) (n : Option String)
    (hinv : args.inverse = true → ∀ k, argRow args k → (argPose args k).r ≠ 0) :
    (ArgsOk args → (s.construct n (some (.byObj p)) args).2 = .ok s.size ∧
      (s.construct n (some (.byObj p)) args).1.parent s.size = some p ∧
      (args.inverse = false → (s.construct n (some (.byObj p)) args).1.data s.size =
        some (dataOf args (argPose args)))) ∧
    (¬ ArgsOk args → (s.construct n (some (.byObj p)) args).2 = .error .valueError) := by
  obtain ⟨s2, hw2, hpar, hsz, e⟩ := construct_parent hr hp n args
  constructor
  · intro hok
    have hts : ∃ t r ts, initArrays args = .ok (t, r, ts) ∧ ¬ (args.discrete = true ∧ ts = none) ∧
        (args.inverse = false → (⟨some (t, r), ts, args.discrete⟩ : FrameData) = dataOf args (argPose args)) := by
      cases hi : args.inverse
      · obtain ⟨t, r, ts, e1, e2⟩ := initArrays_plain hok hi
        refine ⟨t, r, ts, e1, ?_, fun _ => e2⟩
        rintro ⟨hd, rfl⟩
        have h2 := hok.2.2.2 hd
        have := congrArg FrameData.timestamps e2
        simp only [dataOf] at this
        cases hn : nStamps args with
        | none => simp [nStamps] at hn; exact h2 hn
        | some m => rw [hn] at this; simp [argStamps] at this; exact h2 this
      · obtain ⟨t, r, ts, e1, e2, _⟩ := initArrays_inverse hok hi (hinv hi)
        refine ⟨t, r, ts, e1, ?_, by simp⟩
        rintro ⟨hd, rfl⟩
        exact hok.2.2.2 hd (e2.mp rfl)
    obtain ⟨t, r, ts, e1, e2, e3⟩ := hts
    rw [e, e1]
    simp only [e2, if_false]
    refine ⟨trivial, hpar, fun hi => ?_⟩
    rw [← e3 hi]
    simp [State.setData]
  · intro hn
    rw [e]
    by_cases h1 : (∀ t, args.timestamps = some t → ∃ n, t.shape = [n]) ∧
      ShapeOk (nStamps args) 3 args.translation ∧ ShapeOk (nStamps args) 4 args.rotation
    · have hd : args.discrete = true ∧ args.timestamps = none := by
        by_contra hc
        apply hn
        refine ⟨h1.1, h1.2.1, h1.2.2, fun hd hts => hc ⟨hd, hts⟩⟩
      have hok' : ArgsOk { args with discrete := false } := ⟨h1.1, h1.2.1, h1.2.2, by simp⟩
      have hsame : initArrays { args with discrete := false } = initArrays args := rfl
      have hts : ∃ t r, initArrays args = .ok (t, r, none) := by
        cases hi : args.inverse
        · obtain ⟨t, r, ts, e1, e2⟩ := initArrays_plain hok' hi
          have := congrArg FrameData.timestamps e2
          have hns : nStamps { args with discrete := false } = none := by simp [nStamps, hd.2]
          simp only [dataOf, hns] at this
          subst this
          exact ⟨t, r, e1⟩
        · obtain ⟨t, r, ts, e1, e2, _⟩ := initArrays_inverse hok' hi (hinv hi)
          have := e2.mpr hd.2
          subst this
          exact ⟨t, r, e1⟩
      obtain ⟨t, r, e1⟩ := hts
      rw [e1]
      simp [hd.1]
    · rw [initArrays_bad h1]

/-- Without parent, the constructor succeeds exactly if nothing else is given. -/
theorem C29_root (args : FrameArgs) (s : State) (n : Option String) :
    ((args.translation = none ∧ args.rotation = none ∧ args.timestamps = none ∧ args.discrete = false) →
      (s.construct n none args).2 = .ok s.size ∧
      (s.construct n none args).1.data s.size = some ⟨none, none, false⟩) ∧
    (¬ (args.translation = none ∧ args.rotation = none ∧ args.timestamps = none ∧ args.discrete = false) →
      (s.construct n none args).2 = .error .valueError) := by
  constructor
  · rintro ⟨h1, h2, h3, h4⟩
    simp [State.construct, verifyRoot, h1, h2, h3, h4, State.setData, State.alloc]
  · intro hn
    obtain ⟨tr, ro, ts, inv, disc⟩ := args
    cases tr <;> cases ro <;> cases ts <;> cases disc <;> simp_all [State.construct, verifyRoot]

/-- An unknown parent name is a `ValueError`, something that is neither name nor frame a
`TypeError`. -/
theorem C29_unresolved_parent (args : FrameArgs) (s : State) (n : Option String) :
    (∀ m, dictGet s.reg m = none → (s.construct n (some (.byName m)) args).2 = .error .valueError) ∧
    (s.construct n (some .other) args).2 = .error .typeError := by
  constructor
  · intro m hm; simp [State.construct, State.resolve, hm]
  · simp [State.construct, State.resolve]

/-- Well-shaped and ill-shaped arguments exist. -/
example : ArgsOk Ex.argsM ∧ ArgsOk Ex.argsD ∧ ¬ ArgsOk { Ex.argsD with timestamps := none } := by
  refine ⟨⟨?_, ?_, ?_, ?_⟩, ⟨?_, ?_, ?_, ?_⟩, ?_⟩ <;>
    simp [ShapeOk, nStamps, Ex.argsM, Ex.argsD, Ex.arr1, Ex.arr2, ArgsOk]

/-! ### C18 -/

theorem inverse_eq_inv (P : Pose) : P.inverse = P.inv := by
  simp [Pose.inverse, Pose.inv, rot_neg]

/-- `Pose.inverse` is the inverse rigid motion. -/
theorem inverse_act (P : Pose) (hP : P.r ≠ 0) (p : Vec) : P.inverse.act (P.act p) = p ∧ P.act (P.inverse.act p) = p := by
  rw [inverse_eq_inv]
  constructor
  · rw [← Pose.comp_act (Pose.inv_r_ne hP) hP, Pose.inv_comp hP]; simp [Pose.id, Pose.act]
  · rw [← Pose.comp_act hP (Pose.inv_r_ne hP), Pose.comp_inv hP]; simp [Pose.id, Pose.act]

/-- `inverse=True` with poses `P k` is the same (for everything that can be done with the new state)
as constructing the frame with the inverse poses. -/
theorem C18_inverse_construct {s : State} {h : List Event} (hr : Reachable s h) {p : ℕ} (hp : p < s.size)
    (n : Option String) {args args' : FrameArgs} (h1 : ArgsOk args) (h2 : ArgsOk args')
    (hi : args.inverse = true) (hi' : args'.inverse = false)
    (hts : args'.timestamps = args.timestamps) (hdisc : args'.discrete = args.discrete)
    (hu : ∀ k, argRow args k → IsUnitQ (argPose args k).r)
    (hinv : ∀ k, argRow args k → argPose args' k = (argPose args k).inverse) :
    s.construct n (some (.byObj p)) args = s.construct n (some (.byObj p)) args' := by
  obtain ⟨t, r, ts, e1, e2, e3⟩ := initArrays_inverse h1 hi (fun k hk => (hu k hk).ne_zero)
  obtain ⟨t', r', ts', f1, f2⟩ := initArrays_plain h2 hi'
  have e4 := e3 hu
  have hn : nStamps args' = nStamps args := by simp [nStamps, hts]
  have hst : argStamps args' = argStamps args := by simp [argStamps, hts]
  have : (⟨some (t, r), ts, args.discrete⟩ : FrameData) = ⟨some (t', r'), ts', args'.discrete⟩ := by
    rw [e4, f2]
    simp only [dataOf, hn, hdisc, hst]
    cases hns : nStamps args with
    | none =>
      have := hinv none (by simp [argRow, hns])
      simp [this]
    | some m =>
      have hk : ∀ k ∈ List.range m, argPose args' (some k) = (argPose args (some k)).inverse := by
        intro k hk; apply hinv; simp only [argRow, hns]; exact ⟨k, rfl, by simpa using hk⟩
      simp only [FrameData.mk.injEq, Option.some.injEq, Prod.mk.injEq, Arr.many.injEq, and_true]
      constructor
      · exact List.map_congr_left fun k hk' => by rw [hk k hk']
      · exact List.map_congr_left fun k hk' => by rw [hk k hk']
  simp only [FrameData.mk.injEq, Option.some.injEq, Prod.mk.injEq] at this
  obtain ⟨⟨rfl, rfl⟩, rfl, hd⟩ := this
  obtain ⟨s2, _, _, _, g1⟩ := construct_parent hr hp n args
  simp only [State.construct, e1, f1, hd]

/-- Static frame with `inverse=True`: the transformation from the parent to the frame is the given
pose (the parent's pose in the frame). -/
theorem C18_inverse_static (sq : SquadFn) {s : State} {h : List Event} (hr : Reachable s h) {p : ℕ}
    (hp : p < s.size) (n : Option String) {args : FrameArgs} (h1 : ArgsOk args)
    (hi : args.inverse = true) (hts : args.timestamps = none) (hu : (argPose args none).r ≠ 0) :
    (s.construct n (some (.byObj p)) args).2 = .ok s.size ∧
    (s.construct n (some (.byObj p)) args).1.lookupTransform sq p (.byObj s.size) =
      .ok (.one (argPose args none).t, .one (argPose args none).r, none) := by
  have hn : nStamps args = none := by simp [nStamps, hts]
  have hst : argStamps args = none := by simp [argStamps, hts]
  obtain ⟨f1, f2, f3⟩ := initBase h1
  rw [hst, hn] at f2 f3
  rw [hst] at f1
  have hd : args.discrete = false := by
    by_contra hc; simp at hc; exact h1.2.2.2 hc hts
  obtain ⟨s2, hw2, hpar, hsz, e⟩ := construct_parent hr hp n args
  set P := argPose args none with hP
  have e1 : initArrays args = .ok (.one P.inv.t, .one P.inv.r, none) := by
    simp only [initArrays, f1, f2, f3, bind, Except.bind, hi, if_true, qinvArr, hu, if_false,
      rotateVectors, inv_eq_zero, Arr.map, Pure.pure, Except.pure]
    simp [Pose.inv, rotMat_eq_rot _ (inv_ne_zero hu), rot_neg]
  rw [e, e1]
  simp only [hd, Bool.false_eq_true, false_and, if_false]
  refine ⟨trivial, ?_⟩
  have hw3 : WF (s2.setData s.size ⟨some (.one P.inv.t, .one P.inv.r), none, false⟩) := wf_setData hw2 _ _
  have := (lookup_static_parent sq hw3 (i := s.size) (p := p) (by exact hpar) (P := P.inv)
    ⟨false, by simp [State.setData]⟩ (Pose.inv_r_ne hu)).2
  rw [this, Pose.inv_inv hu]

/-- Continuous frame with `inverse=True` and unit rotations: the transformation from the parent to the
frame is, at the given timestamps, the given poses. -/
theorem C18_inverse_continuous (sq : SquadFn) (hsq : SquadLaw sq) {s : State} {h : List Event}
    (hr : Reachable s h) {p : ℕ} (hp : p < s.size) (n : Option String) {args : FrameArgs}
    (h1 : ArgsOk args) (hi : args.inverse = true) (hdisc : args.discrete = false) {m : ℕ}
    (hm : nStamps args = some m) (hm2 : 2 ≤ m) {ts : List ℝ} (hts : argStamps args = some ts)
    (hinc : StrictlyIncreasing ts) (hu : ∀ k < m, IsUnitQ (argPose args (some k)).r) :
    (s.construct n (some (.byObj p)) args).2 = .ok s.size ∧
    (s.construct n (some (.byObj p)) args).1.lookupTransform sq p (.byObj s.size) =
      .ok (.many ((List.range m).map fun k => (argPose args (some k)).t),
           .many ((List.range m).map fun k => (argPose args (some k)).r), some ts) := by
  have hu' : ∀ k, argRow args k → IsUnitQ (argPose args k).r := by
    intro k hk; simp only [argRow, hm] at hk; obtain ⟨j, rfl, hj⟩ := hk; exact hu j hj
  obtain ⟨t, r, ts', e1, _, e3⟩ := initArrays_inverse h1 hi (fun k hk => (hu' k hk).ne_zero)
  have e4 := e3 hu'
  obtain ⟨s2, hw2, hpar, hsz, e⟩ := construct_parent hr hp n args
  have hlen : ts.length = m := by
    simp only [nStamps, argStamps] at hm hts
    cases hat : args.timestamps with
    | none => rw [hat] at hm; simp at hm
    | some a => rw [hat] at hm hts; simp at hm hts; rw [← hts]; simp [hm]
  rw [e, e1]
  simp only [hdisc, Bool.false_eq_true, false_and, if_false]
  refine ⟨trivial, ?_⟩
  rw [hdisc] at e4
  rw [e4]
  simp only [dataOf, hm, hts, hdisc]
  set tr := (List.range m).map fun k => ((argPose args (some k)).inverse).t with htr
  set ro := (List.range m).map fun k => ((argPose args (some k)).inverse).r with hro
  have hg : GoodData ⟨some (.many tr, .many ro), some ts, false⟩ := by
    refine .continuous (by simp [htr, hlen]) (by simp [hro, hlen]) (by omega) hinc ?_
    intro q hq
    obtain ⟨k, hk, rfl⟩ := List.mem_map.mp hq
    exact (hu k (by simpa using hk)).inv
  have hw3 : WF (s2.setData s.size ⟨some (.many tr, .many ro), some ts, false⟩) := wf_setData hw2 _ _
  obtain ⟨_, T, hT, hk⟩ := lookup_up_continuous sq hsq hw3 (i := s.size) (p := p) hpar
    (by simp [State.setData]) hg
  rw [hT]
  have key : ∀ (k : ℕ) τ, ts[k]? = some τ → k < m → T τ = argPose args (some k) := by
    intro k τ h1 hkm
    have hP := hk k τ _ _ h1 (by rw [htr]; simp [hkm]; rfl) (by rw [hro]; simp [hkm]; rfl)
    rw [hP]
    show (argPose args (some k)).inverse.inv = _
    rw [inverse_eq_inv, Pose.inv_inv (hu k hkm).ne_zero]
  have k1 : (ts.map fun τ => (T τ).t) = (List.range m).map fun k => (argPose args (some k)).t := by
    apply map_of_getElem? (by simp [hlen])
    intro k τ b h1 h2
    have hkm : k < m := by rw [← hlen]; exact (List.getElem?_eq_some_iff.mp h1).1
    simp [hkm] at h2
    rw [key k τ h1 hkm, h2]
  have k2 : (ts.map fun τ => (T τ).r) = (List.range m).map fun k => (argPose args (some k)).r := by
    apply map_of_getElem? (by simp [hlen])
    intro k τ b h1 h2
    have hkm : k < m := by rw [← hlen]; exact (List.getElem?_eq_some_iff.mp h1).1
    simp [hkm] at h2
    rw [key k τ h1 hkm, h2]
  rw [k1, k2]

/-- Hypotheses of the continuous case are met by the example frame with `inverse=True`. -/
example : nStamps { Ex.argsM with inverse := true } = some 3 ∧
    argStamps { Ex.argsM with inverse := true } = some [0, 1, 2] ∧ StrictlyIncreasing [0, 1, 2] ∧
    ∀ k < 3, IsUnitQ (argPose { Ex.argsM with inverse := true } (some k)).r := by
  refine ⟨rfl, ?_, ?_, ?_⟩
  · simp [argStamps, Ex.argsM, Ex.arr1, List.range_succ]
  · simp [StrictlyIncreasing]
  · intro k _; exact isUnitQ_one

/-! ### C19 -/

/-- A single quaternion: any nonzero scale gives the textbook rotation of the normalised one. -/
theorem C19_single (q : Quat) (hq : q ≠ 0) (c : ℝ) (hc : c ≠ 0) (v : Vec) :
    rotateVectors (.one q) (.one v) = .ok (.one (rot q v)) ∧
    rotateVectors (.one (c • q)) (.one v) = rotateVectors (.one q) (.one v) := by
  have hcq : c • q ≠ 0 := smul_ne_zero hc hq
  have h1 : ∀ p : Quat, p ≠ 0 → rotateVectors (.one p) (.one v) = .ok (.one (rot p v)) := by
    intro p hp; simp [rotateVectors, hp, Arr.map, rotMat_eq_rot _ hp]
  refine ⟨h1 q hq, ?_⟩
  rw [h1 q hq, h1 _ hcq]
  have : rot (c • q) v = rot q v := by
    simp only [rot]
    have : (c • q) * Spec.pure v * (c • q)⁻¹ = q * Spec.pure v * q⁻¹ := by
      have : (c • q)⁻¹ = c⁻¹ • q⁻¹ := by
        apply inv_eq_of_mul_eq_one_right
        rw [smul_mul_smul_comm, mul_inv_cancel₀ hc, mul_inv_cancel₀ hq, one_smul]
      rw [this, smul_mul_assoc, smul_mul_smul_comm, mul_inv_cancel₀ hc, one_smul]
    rw [this]
  rw [this]

/-- Arrays of quaternions: what the code computes for nonzero `q` is not the rotation but
`v + |q| (R v - v)`. -/
theorem C19_array_exact (qs : List Quat) (vs : List Vec) (hl : qs.length = vs.length)
    (h0 : ∀ q ∈ qs, q ≠ 0) :
    rotateVectors (.many qs) (.many vs) =
      .ok (.many (List.zipWith (fun q v => v + Real.sqrt (nsq q) • (rot q v - v)) qs vs)) := by
  have key : ∀ (q : Quat), q ≠ 0 → ∀ v, rotateCrossForm q v = v + Real.sqrt (nsq q) • (rot q v - v) := by
    intro q hq v
    rw [← rotMat_eq_rot q hq]
    have hn := nsq_pos hq
    have hs := Real.sqrt_pos.mpr hn
    have hne := hs.ne'
    have hsq : Real.sqrt (nsq q) ^ 2 = nsq q := Real.sq_sqrt hn.le
    set m := Real.sqrt (nsq q) with hm
    have e1 : q.re * q.re + q.imI * q.imI + q.imJ * q.imJ + q.imK * q.imK = nsq q := by
      simp only [nsq]; ring
    have e2 : nsq q = m ^ 2 := hsq.symm
    funext i
    fin_cases i <;>
      simp [rotateCrossForm, rotateMatrixForm, rotMat, e1, ← hm, imVec, cross_apply, Matrix.vecHead, Matrix.vecTail,
        Matrix.mulVec, dotProduct, Fin.sum_univ_three] <;>
      rw [e2] <;> field_simp <;> ring
  have hnm : (0 : Quat) ∉ qs := fun h => h0 0 h rfl
  simp only [rotateVectors, Arr.bzip, hl, if_true, hnm, if_false]
  congr 2
  clear hnm
  induction qs generalizing vs with
  | nil => rfl
  | cons q qs ih =>
    cases vs with
    | nil => rfl
    | cons v vs =>
      simp only [List.zipWith_cons_cons]
      rw [key q (h0 q (by simp)), ih vs (by simpa using hl) (fun p hp => h0 p (List.mem_cons_of_mem _ hp))]

/-- For arrays of unit quaternions the result is the textbook rotation, row by row. Missing for the
full property: nonzero non-unit quaternions, where it is false (next theorem). -/
theorem C19_array_partial (qs : List Quat) (vs : List Vec) (hl : qs.length = vs.length)
    (hu : ∀ q ∈ qs, IsUnitQ q) :
    rotateVectors (.many qs) (.many vs) = .ok (.many (List.zipWith rot qs vs)) := by
  rw [C19_array_exact qs vs hl fun q hq => (hu q hq).ne_zero]
  congr 2
  induction qs generalizing vs with
  | nil => rfl
  | cons q qs ih =>
    cases vs with
    | nil => rfl
    | cons v vs =>
      simp only [List.zipWith_cons_cons]
      rw [ih vs (by simpa using hl) (fun p hp => hu p (List.mem_cons_of_mem _ hp))]
      have : nsq q = 1 := hu q (by simp)
      rw [this]; simp

theorem quat_two : ∃ q : Quat, q.re = 0 ∧ q.imI = 0 ∧ q.imJ = 0 ∧ q.imK = 2 := ⟨⟨0, 0, 0, 2⟩, rfl, rfl, rfl, rfl⟩

/-- The array case is wrong for non-unit quaternions: a quaternion of norm 2 stretches a vector. -/
theorem C19_array_scale_is_false : ∃ (q : Quat) (v : Vec), q ≠ 0 ∧
    rotateVectors (.many [q]) (.many [v]) ≠ .ok (.many [rot q v]) ∧
    rotateVectors (.many [q]) (.many [v]) ≠ rotateVectors (.many [(1 / 2 : ℝ) • q]) (.many [v]) := by
  obtain ⟨q, c0, c1, c2, c3⟩ := quat_two
  have hq : q ≠ 0 := by rintro rfl; simp at c3
  have hr : rot q ![1, 0, 0] = ![-1, 0, 0] := by
    rw [← rotMat_eq_rot _ hq]
    funext i
    fin_cases i <;> simp [rotateMatrixForm, rotMat, Matrix.mulVec, dotProduct, Fin.sum_univ_three, c0, c1, c2, c3]
    norm_num
  have hs : Real.sqrt (nsq q) = 2 := by
    simp only [nsq, c0, c1, c2, c3]
    rw [show (0 : ℝ) ^ 2 + 0 ^ 2 + 0 ^ 2 + 2 ^ 2 = 2 ^ 2 by norm_num]
    exact Real.sqrt_sq (by norm_num)
  have h1 := C19_array_exact [q] [![1, 0, 0]] rfl (by intro p hp; rw [List.mem_singleton.mp hp]; exact hq)
  have hu : IsUnitQ ((1 / 2 : ℝ) • q) := by
    simp [IsUnitQ, nsq, c0, c1, c2, c3]
  have h2 := C19_array_partial [(1 / 2 : ℝ) • q] [![1, 0, 0]] rfl
    (by intro p hp; rw [List.mem_singleton.mp hp]; exact hu)
  have hr2 : rot ((1 / 2 : ℝ) • q) ![1, 0, 0] = ![-1, 0, 0] := by
    have := (C19_single _ hq (1 / 2) (by norm_num) ![1, 0, 0]).2
    rw [(C19_single _ hq 1 one_ne_zero _).1, (C19_single _ hu.ne_zero 1 one_ne_zero _).1] at this
    simp only [Except.ok.injEq, Arr.one.injEq] at this
    rw [this, hr]
  refine ⟨q, ![1, 0, 0], hq, ?_, ?_⟩
  · rw [h1, hr]
    simp only [List.zipWith_cons_cons, List.zipWith_nil_left, hs, hr]
    intro h
    simp only [Except.ok.injEq, Arr.many.injEq, List.cons.injEq, and_true] at h
    have := congrFun h 0
    simp at this; norm_num at this
  · rw [h1, h2]
    simp only [List.zipWith_cons_cons, List.zipWith_nil_left, hs, hr, hr2]
    intro h
    simp only [Except.ok.injEq, Arr.many.injEq, List.cons.injEq, and_true] at h
    have := congrFun h 0
    simp at this; norm_num at this

/-! ### C25 -/

/-- Interpolation on well-formed data at times inside the range: one value per time; at a sample time
it is the sample; every linear coordinate stays within the bounds of the samples; affine motions are
reproduced exactly. -/
theorem C25_interpolation {V} [AddCommGroup V] [Module ℝ V] {xs : List ℝ} {ys : List V} {ts : List ℝ}
    (hs : StrictlyIncreasing xs) (h2 : 2 ≤ xs.length) (hl : ys.length = xs.length)
    (hin : ∀ τ ∈ ts, InRange xs τ) :
    ∃ vs, interp1d xs ys ts = .ok vs ∧ vs.length = ts.length ∧
      ∀ (k : ℕ) τ v, ts[k]? = some τ → vs[k]? = some v →
        IsLinInterp xs ys τ v ∧
        (∀ (j : ℕ) y, xs[j]? = some τ → ys[j]? = some y → v = y) ∧
        (∀ (f : V →ₗ[ℝ] ℝ) (lo hi : ℝ), (∀ y ∈ ys, lo ≤ f y ∧ f y ≤ hi) → lo ≤ f v ∧ f v ≤ hi) ∧
        (∀ p u : V, ys = xs.map (fun x => p + x • u) → v = p + τ • u) := by
  have hne : xs ≠ [] := by rintro rfl; simp at h2
  have hex : ∀ τ, ∃ v : V, τ ∈ ts → interpAt xs ys τ = .ok v ∧ IsLinInterp xs ys τ v := by
    intro τ
    by_cases hτ : τ ∈ ts
    · have h3 := inRange_getD hne (hin τ hτ)
      obtain ⟨v, h3, h4⟩ := interpAt_spec (ys := ys) hs h2 hl h3.1 h3.2
      exact ⟨v, fun _ => ⟨h3, h4⟩⟩
    · exact ⟨0, fun h => absurd h hτ⟩
  choose v hv using hex
  refine ⟨ts.map v, ?_, by simp, ?_⟩
  · simp only [interp1d, hl, ne_eq, not_true, if_false]
    rw [if_neg, collect_map fun t ht => (hv t ht).1]
    rintro ⟨t, ht, h⟩
    have h2 := inRange_getD hne (hin t ht)
    rcases h with h | h <;> linarith [h2.1, h2.2]
  · intro k τ w hk hw
    rw [List.getElem?_map, hk] at hw
    simp only [Option.map_some, Option.some.injEq] at hw
    subst hw
    have hlin := (hv τ (List.mem_of_getElem? hk)).2
    refine ⟨hlin, fun j y h1 h2 => hlin.knot hs h1 h2, ?_, ?_⟩
    · intro f lo hi hb
      obtain ⟨j, x0, x1, y0, y1, e0, e1, f0, f1, hlt, hle0, hle1, e⟩ := hlin
      rw [e]
      have b0 := hb y0 (List.mem_of_getElem? f0)
      have b1 := hb y1 (List.mem_of_getElem? f1)
      set u := (τ - x0) / (x1 - x0)
      have u0 : 0 ≤ u := div_nonneg (by linarith) (by linarith)
      have u1 : u ≤ 1 := by rw [div_le_one (by linarith)]; linarith
      simp only [map_add, map_smul, smul_eq_mul]
      constructor
      · nlinarith [mul_le_mul_of_nonneg_left b0.1 (sub_nonneg.mpr u1), mul_le_mul_of_nonneg_left b1.1 u0]
      · nlinarith [mul_le_mul_of_nonneg_left b0.2 (sub_nonneg.mpr u1), mul_le_mul_of_nonneg_left b1.2 u0]
    · intro p u hy
      obtain ⟨j, x0, x1, y0, y1, e0, e1, f0, f1, hlt, hle0, hle1, e⟩ := hlin
      rw [hy, List.getElem?_map, e0] at f0
      rw [hy, List.getElem?_map, e1] at f1
      simp only [Option.map_some, Option.some.injEq] at f0 f1
      rw [e, ← f0, ← f1]
      have hd : x1 - x0 ≠ 0 := by linarith
      set w := (τ - x0) / (x1 - x0) with hw
      have h3 : τ = (1 - w) * x0 + w * x1 := by rw [hw]; field_simp; ring
      rw [h3]
      module

/-- Looking up a continuous frame from its parent's point of view returns exactly the stored
timestamps, translations and rotations. -/
theorem C25_lookup_samples (sq : SquadFn) (hsq : SquadLaw sq) {s : State} {h : List Event}
    (hr : Reachable s h) {i p : ℕ} (hp : s.parent i = some p) {tr : List Vec} {ro : List Quat}
    {ev : List ℝ} (hd : s.data i = some ⟨some (.many tr, .many ro), some ev, false⟩)
    (hg : GoodData ⟨some (.many tr, .many ro), some ev, false⟩) :
    s.lookupTransform sq i (.byObj p) = .ok (.many tr, .many ro, some ev) :=
  (lookup_up_continuous sq hsq hr.wf hp hd hg).1

/-- Translation of a continuous frame in any lookup (through `PoseOf`, see C24): bounds, samples. -/
theorem C25_pose {sq : SquadFn} {tr : List Vec} {ro : List Quat} {ev : List ℝ}
    (hg : GoodData ⟨some (.many tr, .many ro), some ev, false⟩) {τ : ℝ} {P : Pose}
    (hP : IsPoseAt sq ⟨some (.many tr, .many ro), some ev, false⟩ τ P) :
    (∀ (j : ℕ) y, ev[j]? = some τ → tr[j]? = some y → P.t = y) ∧
    (∀ (c : Fin 3) (lo hi : ℝ), (∀ y ∈ tr, lo ≤ y c ∧ y c ≤ hi) → lo ≤ P.t c ∧ P.t c ≤ hi) := by
  have hs : StrictlyIncreasing ev := by cases hg with | continuous _ _ _ h => exact h
  cases hP with
  | continuous hlin =>
    refine ⟨fun j y h1 h2 => hlin.knot hs h1 h2, ?_⟩
    intro c lo hi hb
    obtain ⟨j, x0, x1, y0, y1, e0, e1, f0, f1, hlt, hle0, hle1, e⟩ := hlin
    simp only [e]
    have b0 := hb y0 (List.mem_of_getElem? f0)
    have b1 := hb y1 (List.mem_of_getElem? f1)
    set u := (τ - x0) / (x1 - x0)
    have u0 : 0 ≤ u := div_nonneg (by linarith) (by linarith)
    have u1 : u ≤ 1 := by rw [div_le_one (by linarith)]; linarith
    simp only [Pi.add_apply, Pi.smul_apply, smul_eq_mul]
    constructor
    · nlinarith [mul_le_mul_of_nonneg_left b0.1 (sub_nonneg.mpr u1), mul_le_mul_of_nonneg_left b1.1 u0]
    · nlinarith [mul_le_mul_of_nonneg_left b0.2 (sub_nonneg.mpr u1), mul_le_mul_of_nonneg_left b1.2 u0]

example : Ex.m3.lookupTransform Ex.holdSquad 1 (.byObj 0) =
    .ok (.many [![0, 0, 0], ![1, 0, 0], ![4, 0, 0]], .many [1, 1, 1], some [0, 1, 2]) :=
  C25_lookup_samples _ Ex.holdSquad_law Ex.reachM (by rw [Ex.m3_eq]; simp)
    (by rw [Ex.m3_eq]; simp [Ex.dataM]) Ex.goodM

/-! ### C26 -/

/-- Resampling of a discrete frame at arbitrary times: the row of the last event not after the time,
or the first row before all events. -/
theorem C26_hold (sq : SquadFn) {tr : List Vec} {ro : List Quat} {ev : List ℝ} {inv : Bool}
    (hg : GoodData ⟨some (.many tr, .many ro), some ev, true⟩) (ts : List ℝ) :
    ∃ g : ℝ → Pose, transformFromFrame sq ⟨.many tr, .many ro, some ev, true, inv⟩ (some ts) =
        .ok (.many (ts.map fun τ => (g τ).t), .many (ts.map fun τ => (g τ).r)) ∧
      ∀ τ ∈ ts, ∃ k : ℕ, IsCurrentEvent ev τ k ∧ tr[k]? = some (g τ).t ∧ ro[k]? = some (g τ).r := by
  obtain ⟨g, e, hP, _⟩ := transformFromFrame_good sq (f := ⟨.many tr, .many ro, some ev, true, inv⟩) hg ts
    (by intro τ _ ev' h1 h2; simp [MFrame.data] at h2)
  refine ⟨g, e, fun τ hτ => ?_⟩
  have := hP τ hτ
  simp only [MFrame.data] at this
  generalize hgt : g τ = Q at this
  cases this with
  | discrete h1 h2 h3 => exact ⟨_, h1, h2, h3⟩

/-- Looking up a discrete frame from its parent: one row per event time with the last event's pose. -/
theorem C26_lookup (sq : SquadFn) (hsq : SquadLaw sq) {s : State} {h : List Event}
    (hr : Reachable s h) {i p : ℕ} (hp : s.parent i = some p) {tr : List Vec} {ro : List Quat}
    {ev : List ℝ} (hd : s.data i = some ⟨some (.many tr, .many ro), some ev, true⟩)
    (hg : GoodData ⟨some (.many tr, .many ro), some ev, true⟩) :
    ∃ (ts : List ℝ) (T : ℝ → Pose), s.lookupTransform sq i (.byObj p) =
      .ok (.many (ts.map fun τ => (T τ).t), .many (ts.map fun τ => (T τ).r), some ts) ∧
      StrictlyIncreasing ts ∧ (∀ x, x ∈ ts ↔ x ∈ ev) ∧
      ∀ τ ∈ ts, ∃ k : ℕ, IsCurrentEvent ev τ k ∧ tr[k]? = some (T τ).t ∧ ro[k]? = some (T τ).r :=
  lookup_up_discrete sq hsq hr.wf hp hd hg

example : Ex.m3.data 2 = some Ex.dataD ∧ Ex.m3.parent 2 = some 0 ∧ GoodData Ex.dataD := by
  refine ⟨?_, ?_, Ex.goodD⟩ <;> rw [Ex.m3_eq] <;> simp

end RBM.Props
