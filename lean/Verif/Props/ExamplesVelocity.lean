import Verif.Lemmas.Example4
import Verif.Props.TwistExact
import Verif.Props.VelocityExamples
import Mathlib.Analysis.Real.Pi.Bounds

/-!
Concrete cases for C37 and C38: the frame `v` (1) moves with velocity (2, 0, 0) in the world frame (0) and turns with unit angular velocity about z; the
frame `p` (2) moves in it with velocity (0, 1, 0).
-/

namespace RBM.Props

open RBM.Spec

theorem exV_facts : Ex.v3.parent 1 = some 0 ∧ Ex.v3.parent 2 = some 1 ∧ Ex.v3.parent 0 = none ∧ Ex.v3.data 1 = some Ex.dataV ∧
    Ex.v3.data 2 = some Ex.dataP ∧ Ex.v3.size = 3 := by
  rw [Ex.v3_eq]; simp

theorem exV_lookup : Ex.v3.lookupTransform Ex.extR.squad 1 (.byObj 0) =
    .ok (.many [![0, 0, 0], ![2, 0, 0], ![6, 0, 0]], .many [Ex.rz 0, Ex.rz 1, Ex.rz 3], some [0, 1, 3]) := by
  obtain ⟨h, hr⟩ := Ex.reachV
  exact C25_lookup_samples _ Ex.extR_squad hr exV_facts.1 exV_facts.2.2.2.1 Ex.goodV

theorem exP_lookup : Ex.v3.lookupTransform Ex.extR.squad 2 (.byObj 1) =
    .ok (.many [![1, 0, 0], ![1, 1, 0], ![1, 3, 0]], .many [1, 1, 1], some [0, 1, 3]) := by
  obtain ⟨h, hr⟩ := Ex.reachV
  exact C25_lookup_samples _ Ex.extR_squad hr exV_facts.2.1 exV_facts.2.2.2.2.1 Ex.goodP

theorem exV_path : PathAll Ex.v3 1 0 (FrameOk true Ex.v3) ∧ Route Ex.v3 1 0 [1] := by
  have hp := exV_facts.1
  have hc : NearestCommon Ex.v3 1 0 0 := ⟨.single hp, .refl, fun d _ hd2 => hd2⟩
  have hpt : PathTo Ex.v3.parent 0 1 [1] := .up (by decide) hp .here
  refine ⟨⟨0, [1], [], hc, hpt, .here, ?_⟩, ⟨0, [1], [], hc, hpt, .here, rfl⟩⟩
  intro i hi
  simp only [List.append_nil, List.mem_singleton] at hi
  subst hi
  simp only [FrameOk, if_true]
  exact ⟨Ex.dataV, exV_facts.2.2.2.1, Ex.goodV⟩

theorem exP_path : PathAll Ex.v3 2 1 (FrameOk true Ex.v3) ∧ Route Ex.v3 2 1 [2] := by
  have hp := exV_facts.2.1
  have hc : NearestCommon Ex.v3 2 1 1 := ⟨.single hp, .refl, fun d _ hd2 => hd2⟩
  have hpt : PathTo Ex.v3.parent 1 2 [2] := .up (by decide) hp .here
  refine ⟨⟨1, [2], [], hc, hpt, .here, ?_⟩, ⟨1, [2], [], hc, hpt, .here, rfl⟩⟩
  intro i hi
  simp only [List.append_nil, List.mem_singleton] at hi
  subst hi
  simp only [FrameOk, if_true]
  exact ⟨Ex.dataP, exV_facts.2.2.2.2.1, Ex.goodP⟩

theorem exV_stamps (l : List ℕ) (hl : ∀ i ∈ l, i = 1 ∨ i = 2) : outStamps Ex.v3 l [0, 1, 3] = [0, 1, 3] := by
  refine outStamps_eq_self (by simp [StrictlyIncreasing]) ?_
  intro τ hτ i hi y hy
  have : y = [0, 1, 3] := by
    rcases hl i hi with rfl | rfl
    · simpa [stampsOf, exV_facts.2.2.2.1, Ex.dataV] using hy.symm
    · simpa [stampsOf, exV_facts.2.2.2.2.1, Ex.dataP] using hy.symm
  subst this
  exact inRange_mem (by simp [StrictlyIncreasing]) hτ

theorem three_stamps {P : ℕ → ℝ → Prop} (h0 : P 0 0) (h1 : P 1 1) (h3 : P 2 3) : ∀ (k : ℕ) (τ : ℝ), ([0, 1, 3] : List ℝ)[k]? = some τ → P k τ := by
  intro k τ hk
  match k with
  | 0 => cases hk; exact h0
  | 1 => cases hk; exact h1
  | 2 => cases hk; exact h3
  | _ + 3 => simp at hk

theorem exV_poses : ∀ τ ∈ ([0, 1, 3] : List ℝ), ∀ A, IsTransformAt Ex.extR.squad Ex.v3 1 0 τ A → A.t = 0 + τ • ![2, 0, 0] ∧ A.r = Ex.rz τ := by
  obtain ⟨h, hr⟩ := Ex.reachV
  intro τ hτ A hA
  obtain ⟨k, hk⟩ := List.mem_iff_getElem?.mp hτ
  obtain ⟨_, _, _, hrow⟩ := lookup_rows Ex.extR_squad hr (by rw [exV_facts.2.2.2.2.2]; norm_num) (by rw [exV_facts.2.2.2.2.2]; norm_num) exV_path.1 exV_lookup
  obtain ⟨B, hB, e1, e2⟩ := hrow k τ hk
  have := isTransformAt_unique hr.wf (fun _ => Ex.extR_squad) exV_path.1 hA hB
  subst this
  revert e1 e2
  refine three_stamps (P := fun k τ => ([![0, 0, 0], ![2, 0, 0], ![6, 0, 0]] : List Vec)[k]? = some A.t → ([Ex.rz 0, Ex.rz 1, Ex.rz 3] : List Quat)[k]? = some A.r → A.t = 0 + τ • ![2, 0, 0] ∧ A.r = Ex.rz τ) ?_ ?_ ?_ k τ hk
  all_goals
    intro e1 e2
    refine ⟨?_, (Option.some.inj e2).symm⟩
    rw [← Option.some.inj e1]
    ext i; fin_cases i <;> simp
  norm_num

theorem exP_poses : ∀ τ ∈ ([0, 1, 3] : List ℝ), ∀ A, IsTransformAt Ex.extR.squad Ex.v3 2 1 τ A → A.t = ![1, 0, 0] + τ • ![0, 1, 0] ∧ A.r = 1 := by
  obtain ⟨h, hr⟩ := Ex.reachV
  intro τ hτ A hA
  obtain ⟨k, hk⟩ := List.mem_iff_getElem?.mp hτ
  obtain ⟨_, _, _, hrow⟩ := lookup_rows Ex.extR_squad hr (by rw [exV_facts.2.2.2.2.2]; norm_num) (by rw [exV_facts.2.2.2.2.2]; norm_num) exP_path.1 exP_lookup
  obtain ⟨B, hB, e1, e2⟩ := hrow k τ hk
  have := isTransformAt_unique hr.wf (fun _ => Ex.extR_squad) exP_path.1 hA hB
  subst this
  revert e1 e2
  refine three_stamps (P := fun k τ => ([![1, 0, 0], ![1, 1, 0], ![1, 3, 0]] : List Vec)[k]? = some A.t → ([1, 1, 1] : List Quat)[k]? = some A.r → A.t = ![1, 0, 0] + τ • ![0, 1, 0] ∧ A.r = 1) ?_ ?_ ?_ k τ hk
  all_goals
    intro e1 e2
    refine ⟨?_, (Option.some.inj e2).symm⟩
    rw [← Option.some.inj e1]
    ext i; fin_cases i <;> simp

theorem exV_lt : (0 : ℕ) < Ex.v3.size ∧ 1 < Ex.v3.size ∧ 2 < Ex.v3.size := by rw [exV_facts.2.2.2.2.2]; norm_num

theorem exV_acc : Ex.extR.derivErr [0, 1, 3] = none := Ex.extR_deriv.accepts _ (by simp) (by simp [StrictlyIncreasing])

/-- `lookup_angular_velocity` of the turning frame, in the world frame and in the frame itself (`C37_lookup_exact`, `C37_lookup_exact_body`). -/
example : (∃ out, Ex.v3.lookupAngularVelocity Ex.extR 1 none none { returnTimestamps := true, allowStatic := false } = .ok (returned true out (some [0, 1, 3])) ∧
      ∀ τ w, SampleAt out (some [0, 1, 3]) τ w → w = ![0, 0, 1]) ∧
    ∃ out, Ex.v3.lookupAngularVelocity Ex.extR 1 none (some (.byObj 1)) { returnTimestamps := true, allowStatic := false } = .ok (returned true out (some [0, 1, 3])) ∧
      ∀ τ w, SampleAt out (some [0, 1, 3]) τ w → w = ![0, 0, 1] := by
  obtain ⟨h, hr⟩ := Ex.reachV
  have hres : Ex.v3.resolveOr 1 none = .ok 0 := by simp [State.resolveOr, exV_facts.1]
  obtain ⟨out, o1, _, o3⟩ := C37_lookup_exact Ex.extR_squad exXr hr exV_lt.2.1 exV_lt.1 hres hres exV_path.1 exV_lookup exV_acc (by simp) true false
    Ex.rz_unit (fun τ hτ A hA => (exV_poses τ hτ A hA).2) Ex.rz_deriv
  obtain ⟨out', o1', _, o3'⟩ := C37_lookup_exact_body Ex.extR_squad exXr hr exV_lt.2.1 exV_lt.1 hres (resolveOr_obj 1) exV_path.1 exV_lookup exV_acc (by simp) true false
    Ex.rz_unit (fun τ hτ A hA => (exV_poses τ hτ A hA).2) Ex.rz_deriv
  refine ⟨⟨out, o1, fun τ w hw => ?_⟩, out', o1', fun τ w hw => ?_⟩
  · have h0 := (Ex.rz_unit τ).ne_zero
    have := ((o3 τ w hw).body h0).unique h0 ((Ex.rz_rate τ).1.body h0)
    have h1 := congrArg (rot (Ex.rz τ)) this
    rwa [rot_rot_inv _ h0, rot_rot_inv _ h0] at h1
  · exact (o3' τ w hw).unique (Ex.rz_unit τ).ne_zero (Ex.rz_rate τ).2

theorem space_unique {q : ℝ → Quat} {τ : ℝ} (h0 : q τ ≠ 0) {w w' : Vec} (h : IsSpaceRate q τ w) (h' : IsSpaceRate q τ w') : w = w' := by
  have h1 := congrArg (rot (q τ)) ((h.body h0).unique h0 (h'.body h0))
  rwa [rot_rot_inv _ h0, rot_rot_inv _ h0] at h1

/-- `lookup_twist` of the turning frame (`C38_twist_exact`, `C38_twist`). -/
example : ∃ lin ang, Ex.v3.lookupTwist Ex.extR 1 (some (.byObj 0)) (some (.byObj 0)) { returnTimestamps := true, allowStatic := false } =
      .ok (.triple lin ang (some [0, 1, 3])) ∧
    (∀ τ v, SampleAt lin (some [0, 1, 3]) τ v → v = ![2, 0, 0]) ∧ ∀ τ w, SampleAt ang (some [0, 1, 3]) τ w → w = ![0, 0, 1] := by
  obtain ⟨h, hr⟩ := Ex.reachV
  obtain ⟨lin, ang, o1, _, _, o4, o5⟩ := C38_twist_exact Ex.extR_squad Ex.extR_filt exXr hr exV_lt.2.1 exV_lt.1 exV_path.1 exV_lookup exV_acc (by simp) true false
    Ex.rz_unit exV_poses Ex.rz_deriv
  exact ⟨lin, ang, o1, o4, fun τ w hw => space_unique (Ex.rz_unit τ).ne_zero (o5 τ w hw) (Ex.rz_rate τ).1⟩

/-- A motion that turns with unit angular velocity about z in the turning frame turns twice as fast in the world frame (`C37_chain`, `C37_reference_frame`). -/
example : ∃ out, Ex.v3.transformAngularVelocity Ex.extR 1 (Ex.arr1 [0, 0, 1]) (.byObj 0) "reference_frame" { returnTimestamps := true } =
      .ok (returned true out (some [0, 1, 3])) ∧ ∀ τ w, SampleAt out (some [0, 1, 3]) τ w → IsSpaceRate (fun t => Ex.rz t * Ex.rz t) τ w := by
  obtain ⟨h, hr⟩ := Ex.reachV
  obtain ⟨out, ots, o1, o2, _, o3⟩ := C37_chain (ext := Ex.extR) Ex.extR_squad exXr hr exV_lt.2.1 exV_lt.1 exV_path.1 exV_path.2 (arr := Ex.arr1 [0, 0, 1]) (ats := none) rfl
    exV_lookup exV_acc (by simp) (by intro y hy; cases hy; simp) true (q := Ex.rz) (m := Ex.rz) Ex.rz_unit (fun τ => (Ex.rz_unit τ).ne_zero)
    (fun τ hτ A hA => (exV_poses τ hτ A hA).2) Ex.rz_deriv
    (by
      intro τ w hw
      have : w = ![0, 0, 1] := by rw [show w = _ from hw]; ext i; fin_cases i <;> rfl
      rw [this]
      exact (Ex.rz_rate τ).1)
  rw [show arrayStamps Ex.v3 [1] (some [0, 1, 3]) none = some [0, 1, 3] from rfl,
    sharedStamps_all (by simp [StrictlyIncreasing] : StrictlyIncreasing [0, 1, 3]) (by simp) (by simp)] at o2
  subst o2
  refine ⟨out, o1, fun τ w hw => o3 τ w ?_ hw⟩
  obtain ⟨k, hk, _⟩ := hw
  exact List.mem_of_getElem? hk

/-- The frame `p` moves with velocity (0, 1, 0) in the frame `v`: transformed to the world frame, its velocity is the derivative of its world
position (`C38_exact_uniform`, `C38_exact`, `C38_reference_frame`). -/
example : ∃ out, Ex.v3.transformLinearVelocity Ex.extR 1 (Ex.arr1 [0, 1, 0]) (.byObj 0) "reference_frame" (some (.byName "p")) none
      { returnTimestamps := true } none none = .ok (returned true out (some [0, 1, 3])) ∧
    ∀ τ w, SampleAt out (some [0, 1, 3]) τ w → HasDerivAt (fun t => rot (Ex.rz t) (![1, 0, 0] + t • ![0, 1, 0]) + (0 + t • ![2, 0, 0])) w τ := by
  obtain ⟨h, hr⟩ := Ex.reachV
  have hst : arrayStamps Ex.v3 [1] (some [0, 1, 3]) (some [0, 1, 3]) = some [0, 1, 3] := by
    simp only [arrayStamps]; rw [exV_stamps [1] (by simp)]
  obtain ⟨out, ots, o1, o2, _, o3⟩ := C38_exact_uniform (ext := Ex.extR) Ex.extR_squad Ex.extR_filt exXr hr exV_lt.2.1 exV_lt.1 exV_lt.2.2 exV_path.1 exP_path.1 exV_path.2
    (arr := Ex.arr1 [0, 1, 0]) (ats := none) rfl exV_lookup exP_lookup (by
      rw [hst]
      rintro y (hy | hy | hy) <;> cases hy <;> simp) exV_acc (by simp) Ex.rz_unit exV_poses Ex.rz_deriv (mref := .byName "p")
    (by rw [Ex.v3_eq]; simp [State.resolve, dictGet, List.lookup]) none true
  rw [hst, show arrayStamps Ex.v3 [1] (some [0, 1, 3]) none = some [0, 1, 3] from rfl,
    sharedStamps_all (by simp [StrictlyIncreasing] : StrictlyIncreasing [0, 1, 3]) (by simp) (by simp)] at o2
  subst o2
  refine ⟨out, o1, fun τ w hw => ?_⟩
  have hτ : τ ∈ ([0, 1, 3] : List ℝ) := by
    obtain ⟨k, hk, _⟩ := hw
    exact List.mem_of_getElem? hk
  refine o3 τ w hτ (by rw [hst]; intro y hy; cases hy; exact hτ) hw (fun t => ![1, 0, 0] + t • ![0, 1, 0]) (fun C hC => (exP_poses τ hτ C hC).1) ?_
  intro w hw
  have : w = ![0, 1, 0] := by rw [show w = _ from hw]; ext i; fin_cases i <;> rfl
  rw [this]
  have := ((hasDerivAt_id τ).smul_const (![0, 1, 0] : Vec)).const_add ![1, 0, 0]
  simpa using this

/-- The velocity (2, 0, 0) of the frame `v`, expressed in `v`: the moving frame changed to `p` (`C38_exact_moving_uniform`, `C38_exact_moving`,
`C38_moving_frame`). -/
theorem exV_moving : ∃ out, Ex.v3.transformLinearVelocity Ex.extR 1 (ND.ofVecs (.many (([0, 1, 3] : List ℝ).map fun τ => rot (Ex.rz τ)⁻¹ ![2, 0, 0]))) (.byObj 2) "moving_frame" none none
      { timestamps := stampArg (some [0, 1, 3]), returnTimestamps := true } none none = .ok (returned true out (some [0, 1, 3])) ∧
    ∀ τ w, SampleAt out (some [0, 1, 3]) τ w →
      HasDerivAt (fun t => rot (Ex.rz t) (![1, 0, 0] + t • ![0, 1, 0]) + t • ![2, 0, 0]) (rot (Ex.rz τ * 1) w) τ := by
  obtain ⟨h, hr⟩ := Ex.reachV
  have hst := exV_stamps [2] (by simp)
  have hst' : ∀ lts, arrayStamps Ex.v3 [2] lts (some [0, 1, 3]) = some [0, 1, 3] := by
    intro lts; simp only [arrayStamps]; rw [hst]
  have hp' : PathAll Ex.v3 1 2 (FrameOk true Ex.v3) := pathAll_symm exP_path.1
  have hl' : Route Ex.v3 1 2 [2] := route_symm exP_path.2
  obtain ⟨t, r, lts, he⟩ : ∃ t r lts, Ex.v3.lookupTransform Ex.extR.squad 1 (.byObj 2) = .ok (t, r, lts) := by
    rcases lookup_facts _ Ex.extR_squad hr exV_lt.2.1 exV_lt.2.2 hp' hl' with ⟨A, e, _⟩ | ⟨_, ts, T, e, _⟩
    · exact ⟨_, _, _, e⟩
    · exact ⟨_, _, _, e⟩
  have hres : Ex.v3.resolveOr 1 none = .ok 0 := by simp [State.resolveOr, exV_facts.1]
  obtain ⟨out, ots, o1, o2, _, o3⟩ := C38_exact_moving_uniform (ext := Ex.extR) Ex.extR_squad Ex.extR_filt exXr hr exV_lt.2.1 exV_lt.2.2 exV_lt.1 hp' exP_path.1 exV_path.1 hl'
    (arr := ND.ofVecs (.many (([0, 1, 3] : List ℝ).map fun τ => rot (Ex.rz τ)⁻¹ ![2, 0, 0]))) (ats := some [0, 1, 3])
    ⟨rfl, by simp, by simp [StrictlyIncreasing]⟩ he exP_lookup hres exV_lookup (by
      rw [hst', hst]
      rintro y (hy | rfl | rfl | rfl)
      · cases hy; simp
      all_goals simp) exV_acc Ex.rz_unit (R := fun _ => 1) exP_poses (fun τ hτ A hA => (exV_poses τ hτ A hA).2) Ex.rz_deriv none true
  rw [hst', hst, sharedStamps_all (by simp [StrictlyIncreasing] : StrictlyIncreasing [0, 1, 3]) (by simp) (by simp)] at o2
  rw [hst] at o3
  subst o2
  refine ⟨out, o1, fun τ w hw => ?_⟩
  have hτ : τ ∈ ([0, 1, 3] : List ℝ) := by
    obtain ⟨k, hk, _⟩ := hw
    exact List.mem_of_getElem? hk
  refine o3 τ w hτ hτ hw (fun t => t • ![2, 0, 0]) ?_
  rintro v ⟨k, hk, rfl⟩
  have : vec3 (ND.ofVecs (.many (([0, 1, 3] : List ℝ).map fun τ => rot (Ex.rz τ)⁻¹ ![2, 0, 0]))) 1 [k, 0] = rot (Ex.rz τ)⁻¹ ![2, 0, 0] := by
    refine three_stamps (P := fun k τ => vec3 (ND.ofVecs (.many (([0, 1, 3] : List ℝ).map fun τ => rot (Ex.rz τ)⁻¹ ![2, 0, 0]))) 1 [k, 0] =
      rot (Ex.rz τ)⁻¹ ![2, 0, 0]) ?_ ?_ ?_ k τ hk
    all_goals ext i; fin_cases i <;> rfl
  rw [this, rot_rot_inv _ (Ex.rz_unit τ).ne_zero]
  have := (hasDerivAt_id τ).smul_const (![2, 0, 0] : Vec)
  simpa using this

/-! ### Estimates from arrays -/

/-- The orientation samples of the turning frame as an array. -/
noncomputable def exTurn : ND ℝ := ND.ofQuats (.many [Ex.rz 0, Ex.rz 1, Ex.rz 3])

theorem exTurn_quat : ∀ (k : ℕ) τ, ([0, 1, 3] : List ℝ)[k]? = some τ → ∀ j, quat4 exTurn 1 [k, j] = Ex.rz τ :=
  three_stamps (P := fun k τ => ∀ j, quat4 exTurn 1 [k, j] = Ex.rz τ) (fun _ => rfl) (fun _ => rfl) (fun _ => rfl)

theorem exTurn_timed : TimedArray exTurn 0 [0, 1, 3] := ⟨by decide, rfl, by simp, by simp [StrictlyIncreasing]⟩

/-- `mode="quaternion"` (`C37_quaternion_mode`). -/
example : ∃ v, estimateAngularVelocity Ex.extR exXr (.nd exTurn) none none (.arr (ofList [0, 1, 3])) none "quaternion" none none = .ok (.nd v) ∧
    v.shape = [3, 3] ∧ HasVec v 1 [1, 0] ![0, 0, 1] := by
  obtain ⟨a1, a0⟩ := axes2 (arr := exTurn) (n := 3) (k := 4) rfl
  obtain ⟨v, v1, v2, v3⟩ := C37_quaternion_mode (ext := Ex.extR) (arr := exTurn) exXr exV_acc a1 a0 (by omega) rfl rfl
  refine ⟨v, v1, v2, ?_⟩
  obtain ⟨ω, hω, hv⟩ := v3 [1, 0] ⟨by decide, by decide, trivial⟩ Ex.rz 1 rfl Ex.rz_unit (exTurn_quat 1 1 rfl 0)
    (by
      have := quatRate_ofQuats (ext := Ex.extR) (rl := [Ex.rz 0, Ex.rz 1, Ex.rz 3]) (ts := [0, 1, 3]) (k := 1) rfl
      have h2 := Ex.rz_deriv 1 1 rfl
      rw [← this] at h2
      exact h2)
  rwa [hω.unique (Ex.rz_unit 1).ne_zero (Ex.rz_rate 1).2] at hv

/-- `mode="rotation_vector"` (`C37_fixed_axis`): rotation about z by the angle `τ`. -/
example : ∃ v, estimateAngularVelocity Ex.ext exXr (.nd exTurn) none none (.arr (ofList [0, 1, 3])) none "rotation_vector" none none = .ok (.nd v) ∧
    v.shape = [3, 3] ∧ ∀ k < 3, HasVec v 1 [k, 0] ![0, 0, 1] := by
  obtain ⟨a1, a0⟩ := axes2 (arr := exTurn) (n := 3) (k := 4) rfl
  obtain ⟨v, v1, v2, v3⟩ := C37_fixed_axis (ext := Ex.ext) (arr := exTurn) Ex.ext_filt exXr a1 a0 (by omega) rfl exTurn_timed none (by intro c hc; cases hc)
  refine ⟨v, v1, v2, fun k hk => ?_⟩
  have := v3 [k, 0] ⟨hk, by show 0 < 4; omega, trivial⟩ ![0, 0, 1] 0 1 (by simp [dot]) (by
    intro i τ hi
    have hpi := Real.pi_gt_three
    have hb : 0 ≤ τ ∧ τ ≤ 3 := three_stamps (P := fun _ τ => 0 ≤ τ ∧ τ ≤ 3) (by norm_num) (by norm_num) (by norm_num) i τ hi
    refine ⟨by nlinarith, by nlinarith, ?_⟩
    show quat4 exTurn 1 [i, 0] = _
    rw [exTurn_quat i τ hi 0]
    simp [axisAngle, Ex.rz]
    rfl)
  rwa [one_smul] at this

/-- Constant orientation (`C37_constant_is_zero`), both modes. -/
example (mode : String) (hm : mode = "quaternion" ∨ mode = "rotation_vector") :
    ∃ v, estimateAngularVelocity Ex.ext exXr (.nd (ND.ofQuats (.many [Ex.rz 1, Ex.rz 1, Ex.rz 1]))) none none (.arr (ofList [0, 1, 3])) none mode none none = .ok (.nd v) ∧
    ∀ k < 3, HasVec v 1 [k, 0] 0 := by
  obtain ⟨a1, a0⟩ := axes2 (arr := ND.ofQuats (.many [Ex.rz 1, Ex.rz 1, Ex.rz 1])) (n := 3) (k := 4) rfl
  obtain ⟨v, v1, v2, v3⟩ := C37_constant_is_zero (ext := Ex.ext) (arr := ND.ofQuats (.many [Ex.rz 1, Ex.rz 1, Ex.rz 1])) (ts := [0, 1, 3]) Ex.ext_filt Ex.ext_deriv exXr a1 a0 (by omega) rfl
    ⟨by decide, rfl, by simp, by simp [StrictlyIncreasing]⟩ (mode := mode) (by
      rcases hm with h | h
      · exact .inl ⟨h, by simp⟩
      · exact .inr h) none (by intro c hc; cases hc)
  refine ⟨v, v1, fun k hk => v3 [k, 0] ⟨hk, by show 0 < 4; omega, trivial⟩ (Ex.rz 1) fun i hi => ?_⟩
  match i, hi with
  | 0, _ => rfl
  | 1, _ => rfl
  | 2, _ => rfl

/-- Quadratic and linear signals sampled at 0, 1, 3: `1 + 2 τ + τ²` and `5 - τ` (`C36_exact`). -/
example : ∃ v, estimateLinearVelocity Ex.ext exXr (.nd (Ex.arr2 2 [[1, 5], [4, 4], [16, 2]])) none none (.arr (ofList [0, 1, 3])) none none none = .ok (.nd v) ∧
    v.get [1, 0] = some 4 ∧ ∀ k < 3, v.get [k, 1] = some (-1) := by
  obtain ⟨a1, a0⟩ := axes2 (arr := Ex.arr2 2 [[1, 5], [4, 4], [16, 2]]) (n := 3) (k := 2) rfl
  obtain ⟨v, v1, v2, v3⟩ := C36_exact (ext := Ex.ext) Ex.ext_filt exXr (Ex.arr2 2 [[1, 5], [4, 4], [16, 2]]) (ts := [0, 1, 3]) a1 a0 (by omega)
    ⟨by decide, rfl, by simp, by simp [StrictlyIncreasing]⟩ none (by intro c hc; cases hc)
  refine ⟨v, v1, ?_, fun k hk => ?_⟩
  · have := (v3 [1, 0] ⟨by decide, by decide, trivial⟩).2 1 2 1 rfl ?_ (by decide) (by decide)
    · rw [this]; norm_num
    · refine three_stamps (P := fun k τ => (Ex.arr2 2 [[1, 5], [4, 4], [16, 2]]).get ([1, 0].set 0 k) = 1 + 2 * τ + 1 * τ ^ 2) ?_ ?_ ?_
      all_goals simp [Ex.arr2]
      all_goals norm_num
  · refine (v3 [k, 1] ⟨hk, by decide, trivial⟩).1 5 (-1) ?_
    refine three_stamps (P := fun i τ => (Ex.arr2 2 [[1, 5], [4, 4], [16, 2]]).get ([k, 1].set 0 i) = 5 + -1 * τ) ?_ ?_ ?_
    all_goals simp [Ex.arr2]
    all_goals norm_num

/-- A labelled array (`C36_labels`). -/
example : ∃ v, estimateLinearVelocity Ex.ext exXr (.da exTimed) (some "cartesian_axis") none (.name "time") none none none = .ok (.da v exTimed.info) ∧
    ∀ k < 3, v.get [k, 0] = some 3 := by
  obtain ⟨v, v1, v2, v3⟩ := C36_labels (ext := Ex.ext) Ex.ext_filt exXr exTimed_ok (by decide) none (by intro c hc; cases hc)
  refine ⟨v, v1, fun k hk => v3 [k, 0] ⟨hk, by show 0 < 3; omega, trivial⟩ 4 3 ?_⟩
  intro i τ hi
  match i with
  | 0 => cases hi; show (1 : ℝ) = _; norm_num
  | 1 => cases hi; show (4 : ℝ) = _; norm_num
  | 2 => cases hi; show (7 : ℝ) = _; norm_num
  | _ + 3 => simp at hi

/-- One sample, and a wrong number of timestamps (`C36_too_few`, `C36_length`). -/
example : estimateLinearVelocity Ex.ext exXr (.nd (Ex.arr2 3 [[1, 2, 3]])) none none (.arr (ofList [0])) none none none = .error .indexError ∧
    estimateLinearVelocity Ex.ext exXr (.nd (Ex.arr2 3 [[1, 2, 3], [4, 5, 6]])) none none (.arr (ofList [0, 1, 2])) none none none = .error .valueError := by
  obtain ⟨a1, a0⟩ := axes2 (arr := Ex.arr2 3 [[1, 2, 3]]) (n := 1) (k := 3) rfl
  obtain ⟨b1, b0⟩ := axes2 (arr := Ex.arr2 3 [[1, 2, 3], [4, 5, 6]]) (n := 2) (k := 3) rfl
  exact ⟨C36_too_few _ _ _ a1 a0 (by omega) rfl (by simp) none none, C36_length _ _ _ b1 b0 (by omega) (by simp [Ex.arr2]) none none⟩

/-- The positions 0, 2, 6 of the moving frame at 0, 1, 3: with threshold 1 only the last sample is retained, and the lookup gives NaN
(`C39_lookup_nan`). -/
theorem exV_nan (x : XrOps) {reference representIn : Option FrameRef} (h1 : Ex.v3.resolveOr 1 reference = .ok 0) (h2' : Ex.v3.resolveOr 1 representIn = .ok 0)
    (o : VelArgs) (ho : o.outlier = some 1) (hc : o.cutoff = none) :
    Ex.v3.lookupLinearVelocity Ex.extR 1 reference representIn o = .error .nonfinite := by
  have h2 : Real.sqrt ((2 : ℝ) ^ 2) = 2 := Real.sqrt_sq (by norm_num)
  have hj : jump (ND.ofVecs (.many [![0, 0, 0], ![2, 0, 0], ![6, 0, 0]])) 3 3 0 = 2 ∧
      jump (ND.ofVecs (.many [![0, 0, 0], ![2, 0, 0], ![6, 0, 0]])) 3 3 1 = 2 ∧ jump (ND.ofVecs (.many [![0, 0, 0], ![2, 0, 0], ![6, 0, 0]])) 3 3 2 = 0 := by
    have e : (6 : ℝ) - 2 * 2 = 2 := by norm_num
    generalize hX : ND.ofVecs (.many [![0, 0, 0], ![2, 0, 0], ![6, 0, 0]]) = X
    have g00 : X.get [0, 0] = 0 := by rw [← hX]; rfl
    have g10 : X.get [1, 0] = 2 := by rw [← hX]; rfl
    have g20 : X.get [2, 0] = 6 := by rw [← hX]; rfl
    have g01 : X.get [0, 1] = 0 := by rw [← hX]; rfl
    have g11 : X.get [1, 1] = 0 := by rw [← hX]; rfl
    have g21 : X.get [2, 1] = 0 := by rw [← hX]; rfl
    have g02 : X.get [0, 2] = 0 := by rw [← hX]; rfl
    have g12 : X.get [1, 2] = 0 := by rw [← hX]; rfl
    have g22 : X.get [2, 2] = 0 := by rw [← hX]; rfl
    simp [jump, bend, Finset.sum_range_succ, g00, g10, g20, g01, g11, g21, g02, g12, g22, e, h2]
  obtain ⟨j0, j1, j2⟩ := hj
  obtain ⟨w, e, hs, hw⟩ := C39_single_retained (arr := ND.ofVecs (.many [![0, 0, 0], ![2, 0, 0], ![6, 0, 0]])) (n := 3) (k := 3) (ts := [0, 1, 3]) Ex.extR x rfl rfl
    (by omega) (by simp [StrictlyIncreasing]) (th := 1) (a := 2) (by omega) (by
      intro i hi
      interval_cases i
      · rw [j0]; norm_num
      · rw [j1]; norm_num
      · rw [j2]; norm_num)
  exact C39_lookup_nan x (ref := 0) h1 h2' (by rfl) exV_lookup o (by rw [ho, hc]; exact e) fun h => h [0, 0] (by rw [hs]; exact ⟨by omega, by omega, trivial⟩) (hw _)

example (x : XrOps) : Ex.v3.lookupLinearVelocity Ex.extR 1 none none { outlier := some 1 } = .error .nonfinite :=
  exV_nan x (by simp [State.resolveOr, exV_facts.1]) (by simp [State.resolveOr, exV_facts.1]) _ rfl rfl

end RBM.Props
