import Verif.Lemmas.Example3
import Verif.Lemmas.Kinematics
import Mathlib.Analysis.SpecialFunctions.Trigonometric.Deriv
import Mathlib.Analysis.SpecialFunctions.Trigonometric.Bounds

/-!
A frame that turns about its z axis while it moves, a point frame that moves in it, both sampled at times 0, 1, 3, and external
routines that satisfy the contracts and differentiate this motion exactly.
-/

namespace RBM.Ex

open RBM Spec

/-- The rotation by the angle `θ` about the z axis. -/
noncomputable def rz (θ : ℝ) : Quat := ⟨Real.cos (θ / 2), 0, 0, Real.sin (θ / 2)⟩

noncomputable def rowz (θ : ℝ) : List ℝ := [Real.cos (θ / 2), 0, 0, Real.sin (θ / 2)]

theorem rz_unit (θ : ℝ) : IsUnitQ (rz θ) := by
  simp only [IsUnitQ, nsq, rz]
  have := Real.sin_sq_add_cos_sq (θ / 2)
  nlinarith

noncomputable def argsV : FrameArgs :=
  { translation := some (arr2 3 [[0, 0, 0], [2, 0, 0], [6, 0, 0]]),
    rotation := some (arr2 4 [rowz 0, rowz 1, rowz 3]),
    timestamps := some (arr1 [0, 1, 3]) }

def argsP : FrameArgs := { translation := some (arr2 3 [[1, 0, 0], [1, 1, 0], [1, 3, 0]]),
                           timestamps := some (arr1 [0, 1, 3]) }

noncomputable def v1 : State := (State.init.step (.registerFrame (some "world") none {} false)).1
noncomputable def v2 : State := (v1.step (.registerFrame (some "v") (some (.byName "world")) argsV false)).1
noncomputable def v3 : State := (v2.step (.registerFrame (some "p") (some (.byName "v")) argsP false)).1

noncomputable def dataV : FrameData := ⟨some (.many [![0, 0, 0], ![2, 0, 0], ![6, 0, 0]], .many [rz 0, rz 1, rz 3]), some [0, 1, 3], false⟩
noncomputable def dataP : FrameData := ⟨some (.many [![1, 0, 0], ![1, 1, 0], ![1, 3, 0]], .many [1, 1, 1]), some [0, 1, 3], false⟩

set_option linter.unusedSimpArgs false in
theorem v3_eq : v3 = ⟨3,
    fun i => if i = 2 then some "p" else if i = 1 then some "v" else if i = 0 then some "world" else none,
    fun i => if i = 2 then some 1 else if i = 1 then some 0 else none,
    fun i => if i = 1 then [2] else if i = 0 then [1] else [],
    fun i => if i = 2 then some dataP else if i = 1 then some dataV else if i = 0 then some ⟨none, none, false⟩ else none,
    [("world", 0), ("v", 1), ("p", 2)]⟩ := by
  simp [v3, v2, v1, State.step, State.registerFrame, State.construct, verifyRoot,
    State.register, State.resolve, State.alloc, State.setData, State.setParent, State.checkLoop,
    State.detach, State.attach, State.pathReverse, chainUp, dictGet, dictSet, State.init,
    initArrays, argsV, argsP, initTimestamps, initTranslationArg, initRotationArg, arr1, arr2,
    List.lookup, Function.update_apply, Pure.pure, bind, Except.bind, Except.pure, vecRows, quatRows,
    List.range_succ]
  refine ⟨?_, ?_, ?_, ?_⟩
  · funext i; simp only [Function.update_apply]
  · funext i; simp only [Function.update_apply]
  · funext i; simp only [Function.update_apply]; split_ifs <;> simp_all
  · funext i; simp only [Function.update_apply, dataV, dataP, List.replicate]; split_ifs <;> simp_all
    · refine ⟨?_, ?_, ?_⟩ <;> funext k <;> fin_cases k <;> simp
    · refine ⟨⟨?_, ?_, ?_⟩, ?_⟩
      · funext k; fin_cases k <;> simp
      · funext k; fin_cases k <;> simp
      · funext k; fin_cases k <;> simp
      · rfl

theorem reachV : ∃ h, Reachable v3 h := by
  have r1 := Reachable.step (.registerFrame (some "world") none {} false) .init trivial
  have r2 := Reachable.step (.registerFrame (some "v") (some (.byName "world")) argsV false) r1 trivial
  exact ⟨_, Reachable.step (.registerFrame (some "p") (some (.byName "v")) argsP false) r2 trivial⟩

theorem goodV : GoodData dataV := by
  refine .continuous rfl rfl (by simp) (by simp [StrictlyIncreasing]) ?_
  intro q hq
  rcases List.mem_cons.mp hq with rfl | hq
  · exact rz_unit _
  · rcases List.mem_cons.mp hq with rfl | hq
    · exact rz_unit _
    · rw [List.mem_singleton.mp hq]; exact rz_unit _

theorem goodP : GoodData dataP := by
  refine .continuous rfl rfl (by simp) (by simp [StrictlyIncreasing]) ?_
  intro q hq; simp at hq; subst hq; exact isUnitQ_one

open Classical in
/-- External routines that satisfy the contracts: hold interpolation, no filtering, and a derivative that is exact for affine signals
and for the components of `rz`. -/
noncomputable def extR : Ext where
  squad := holdSquad
  deriv := fun ys ts i =>
    if h : ∃ c m : ℝ, ys = ts.map fun τ => c + m * τ then h.choose_spec.choose
    else if ys = ts.map (fun τ => Real.cos (τ / 2)) then -Real.sin (ts.getD i 0 / 2) / 2
    else if ys = ts.map (fun τ => Real.sin (τ / 2)) then Real.cos (ts.getD i 0 / 2) / 2
    else gradAt ts ys i
  derivErr := fun ts => if ts.length < 2 then some .indexError else none
  filt := fun _ xs i => xs.getD i 0

theorem extR_squad : SquadLaw extR.squad := holdSquad_law

theorem extR_filt : FiltLaw extR := by
  intro c n m i _ _ _ hi
  simp [extR, List.getD_eq_getElem?_getD, List.getElem?_replicate, hi]

open Classical in
theorem extR_affine (ts : List ℝ) (c m : ℝ) (i : ℕ) (h : 2 ≤ ts.length) (hs : StrictlyIncreasing ts) :
    extR.deriv (ts.map fun τ => c + m * τ) ts i = m := by
  have hex : ∃ c' m' : ℝ, (ts.map fun τ => c + m * τ) = ts.map fun τ => c' + m' * τ := ⟨c, m, rfl⟩
  show (if h : _ then _ else _) = m
  rw [dif_pos hex]
  have e := hex.choose_spec.choose_spec
  generalize hex.choose_spec.choose = m' at e ⊢
  generalize hex.choose = c' at e
  match ts, h, hs with
  | x :: y :: _, _, hs =>
    have hxy : x < y := (List.pairwise_cons.mp hs).1 y (by simp)
    simp only [List.map_cons, List.cons.injEq] at e
    have : (m - m') * (y - x) = 0 := by linarith [e.1, e.2.1]
    rcases mul_eq_zero.mp this with g | g <;> linarith

theorem extR_deriv : DerivLaw extR 2 := by
  constructor
  · intro ts h _
    show (if ts.length < 2 then _ else _) = _
    rw [if_neg (by omega)]
  · intro ts c m i h hs hi
    exact extR_affine ts c m i h hs

open Classical in
theorem extR_cos (i : ℕ) : extR.deriv [Real.cos (0 / 2), Real.cos (1 / 2), Real.cos (3 / 2)] [0, 1, 3] i =
    -Real.sin (([0, 1, 3] : List ℝ).getD i 0 / 2) / 2 := by
  show (if h : _ then _ else _) = _
  have hc3 : Real.cos (3 / 2) = 4 * Real.cos (1 / 2) ^ 3 - 3 * Real.cos (1 / 2) := by
    rw [← Real.cos_three_mul]; norm_num
  have hlow := Real.one_sub_sq_div_two_le_cos (x := 1 / 2)
  have hs : 0 < Real.sin (1 / 2) := Real.sin_pos_of_pos_of_le_one (by norm_num) (by norm_num)
  have hsq := Real.sin_sq_add_cos_sq (1 / 2)
  rw [dif_neg, if_pos (by simp)]
  rintro ⟨c, m, e⟩
  simp only [List.map_cons, List.map_nil, List.cons.injEq, and_true] at e
  obtain ⟨e0, e1, e3⟩ := e
  rw [zero_div, Real.cos_zero] at e0
  generalize Real.cos (1 / 2) = x at *
  generalize Real.sin (1 / 2) = y at *
  have hx1 : x < 1 := by nlinarith
  have : (x - 1) * (2 * x ^ 2 + 2 * x - 1) = 0 := by rw [hc3] at e3; nlinarith
  rcases mul_eq_zero.mp this with g | g <;> nlinarith

open Classical in
theorem extR_sin (i : ℕ) : extR.deriv [Real.sin (0 / 2), Real.sin (1 / 2), Real.sin (3 / 2)] [0, 1, 3] i =
    Real.cos (([0, 1, 3] : List ℝ).getD i 0 / 2) / 2 := by
  show (if h : _ then _ else _) = _
  have hc3 : Real.sin (3 / 2) = 3 * Real.sin (1 / 2) - 4 * Real.sin (1 / 2) ^ 3 := by
    rw [← Real.sin_three_mul]; norm_num
  have hs : 0 < Real.sin (1 / 2) := Real.sin_pos_of_pos_of_le_one (by norm_num) (by norm_num)
  rw [dif_neg, if_neg, if_pos (by simp)]
  · intro e
    simp only [List.map_cons, List.map_nil, List.cons.injEq, and_true, zero_div, Real.cos_zero, Real.sin_zero] at e
    linarith [e.1]
  · rintro ⟨c, m, e⟩
    simp only [List.map_cons, List.map_nil, List.cons.injEq, and_true] at e
    obtain ⟨e0, e1, e3⟩ := e
    rw [zero_div, Real.sin_zero] at e0
    generalize Real.sin (1 / 2) = y at *
    have : y ^ 3 = 0 := by rw [hc3] at e3; nlinarith
    have := pow_eq_zero_iff (n := 3) (by norm_num) |>.mp this
    linarith

/-- The unit quaternion of a half turn about z. -/
def kq : Quat := ⟨0, 0, 0, 1⟩

theorem split_kq (c d : ℝ) : (⟨c, 0, 0, d⟩ : Quat) = c • (1 : Quat) + d • kq := by
  have e : kq.re = 0 ∧ kq.imI = 0 ∧ kq.imJ = 0 ∧ kq.imK = 1 := ⟨rfl, rfl, rfl, rfl⟩
  apply Quaternion.ext <;> simp [e]

theorem rz_hasDeriv (τ : ℝ) : HasDerivAt rz ⟨-Real.sin (τ / 2) / 2, 0, 0, Real.cos (τ / 2) / 2⟩ τ := by
  have hd : HasDerivAt (fun t : ℝ => t / 2) (1 / 2) τ := (hasDerivAt_id τ).div_const 2
  have h1 := (Real.hasDerivAt_cos (τ / 2)).comp τ hd
  have h2 := (Real.hasDerivAt_sin (τ / 2)).comp τ hd
  have h3 := (h1.smul_const (1 : Quat)).add (h2.smul_const kq)
  have hf : rz = (fun t => (Real.cos ∘ fun t => t / 2) t • (1 : Quat)) + fun t => (Real.sin ∘ fun t => t / 2) t • kq := by
    funext t
    exact split_kq _ _
  rw [hf, split_kq, show -Real.sin (τ / 2) / 2 = -Real.sin (τ / 2) * (1 / 2) by ring, show Real.cos (τ / 2) / 2 = Real.cos (τ / 2) * (1 / 2) by ring]
  exact h3

/-- The numerical derivative of the orientation samples is the derivative of `rz`. -/
theorem rz_deriv (k : ℕ) (τ : ℝ) (hk : ([0, 1, 3] : List ℝ)[k]? = some τ) :
    HasDerivAt rz (quatDeriv extR [rz 0, rz 1, rz 3] [0, 1, 3] k) τ := by
  have e : ([0, 1, 3] : List ℝ).getD k 0 = τ := by rw [List.getD_eq_getElem?_getD, hk]; rfl
  have h0 : extR.deriv [0, 0, 0] [0, 1, 3] k = 0 := by
    have := extR_affine [0, 1, 3] 0 0 k (by simp) (by simp [StrictlyIncreasing])
    simpa using this
  have : quatDeriv extR [rz 0, rz 1, rz 3] [0, 1, 3] k = ⟨-Real.sin (τ / 2) / 2, 0, 0, Real.cos (τ / 2) / 2⟩ := by
    apply Quaternion.ext
    · exact (extR_cos k).trans (by rw [e])
    · exact h0
    · exact h0
    · exact (extR_sin k).trans (by rw [e])
  rw [this]
  exact rz_hasDeriv τ

noncomputable def drz (τ : ℝ) : Quat := ⟨-Real.sin (τ / 2) / 2, 0, 0, Real.cos (τ / 2) / 2⟩

/-- The frame turns with unit angular velocity about z. -/
theorem rz_rate (τ : ℝ) : IsSpaceRate rz τ ![0, 0, 1] ∧ IsBodyRate rz τ ![0, 0, 1] := by
  have hsc := Real.sin_sq_add_cos_sq (τ / 2)
  have r : (rz τ).re = Real.cos (τ / 2) ∧ (rz τ).imI = 0 ∧ (rz τ).imJ = 0 ∧ (rz τ).imK = Real.sin (τ / 2) := ⟨rfl, rfl, rfl, rfl⟩
  have d : (drz τ).re = -Real.sin (τ / 2) / 2 ∧ (drz τ).imI = 0 ∧ (drz τ).imJ = 0 ∧ (drz τ).imK = Real.cos (τ / 2) / 2 := ⟨rfl, rfl, rfl, rfl⟩
  have hb : IsBodyRate rz τ ![0, 0, 1] := by
    have := bodyRate_of_deriv rz_unit (show HasDerivAt rz (drz τ) τ from rz_hasDeriv τ)
    convert this using 1
    ext i
    fin_cases i
    · simp [imVec, r, d]
    · simp [imVec, r, d]
    · simp [imVec, r, d]
      nlinarith
  refine ⟨?_, hb⟩
  have := isBodyRate_space (rz_unit τ).ne_zero hb
  have e : rot (rz τ) ![0, 0, 1] = ![0, 0, 1] := by
    have z : (Spec.pure ![0, 0, 1]).re = 0 ∧ (Spec.pure ![0, 0, 1]).imI = 0 ∧ (Spec.pure ![0, 0, 1]).imJ = 0 ∧ (Spec.pure ![0, 0, 1]).imK = 1 :=
      ⟨rfl, rfl, rfl, rfl⟩
    rw [rot_unit (rz_unit τ)]
    generalize Spec.pure ![0, 0, 1] = zq at z
    ext i
    fin_cases i
    · simp [imVec, r, z]
    · simp [imVec, r, z]
    · simp [imVec, r, z]
      nlinarith
  rwa [e] at this

end RBM.Ex
