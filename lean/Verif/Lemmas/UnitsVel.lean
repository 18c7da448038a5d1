import Verif.Lemmas.UnitsArr

/-!
Velocity lookups and changes of units.
-/

namespace RBM

open Spec

theorem reclock_zero (k t : ℝ) : reclock k 0 t = k * t := by simp [reclock]

theorem rc0_getD (k : ℝ) (l : List ℝ) (i : ℕ) : (rcL k 0 l).getD i 0 = k * l.getD i 0 := by
  simp only [rcL, List.getD_eq_getElem?_getD, List.getElem?_map]
  cases l[i]? <;> simp [reclock]

theorem scale_getD (w : ℝ) (l : List ℝ) (i : ℕ) : (l.map (w * ·)).getD i 0 = w * l.getD i 0 := by
  simp only [List.getD_eq_getElem?_getD, List.getElem?_map]
  cases l[i]? <;> simp

variable {k : ℝ} (hk : 0 < k)

include hk in
theorem gradAt_units (u : ℝ) (xs ys : List ℝ) (i : ℕ) : gradAt (rcL k 0 xs) (ys.map (u * ·)) i = u / k * gradAt xs ys i := by
  have hk' := hk.ne'
  have e : (∀ j, j + 1 < (rcL k 0 xs).length → (rcL k 0 xs).getD (j + 1) 0 - (rcL k 0 xs).getD j 0 = (rcL k 0 xs).getD 1 0 - (rcL k 0 xs).getD 0 0) ↔
      ∀ j, j + 1 < xs.length → xs.getD (j + 1) 0 - xs.getD j 0 = xs.getD 1 0 - xs.getD 0 0 := by
    simp only [rc0_getD, rcL_length, ← mul_sub, mul_right_inj' hk']
  have r : ∀ a b : ℝ, u * a / (k * b) = u / k * (a / b) := fun a b => by rw [mul_div_mul_comm]
  have g : ∀ a b c : ℝ, k * a / (k * b * (k * c)) = a / (b * c) / k := fun a b c => by
    rw [mul_assoc, mul_div_mul_left _ _ hk', mul_left_comm, div_mul_eq_div_div_swap]
  unfold gradAt
  dsimp only
  by_cases h0 : i = 0
  · rw [if_pos h0, if_pos h0]
    simp only [rc0_getD, scale_getD]
    rw [← mul_sub, ← mul_sub, r]
  · rw [if_neg h0, if_neg h0, rcL_length]
    by_cases h1 : i + 1 = xs.length
    · rw [if_pos h1, if_pos h1]
      simp only [rc0_getD, scale_getD]
      rw [← mul_sub, ← mul_sub, r]
    · rw [if_neg h1, if_neg h1]
      rw [rcL_length] at e
      by_cases hu : ∀ j, j + 1 < xs.length → xs.getD (j + 1) 0 - xs.getD j 0 = xs.getD 1 0 - xs.getD 0 0
      · rw [if_pos hu, if_pos (e.mpr hu)]
        simp only [rc0_getD, scale_getD]
        rw [← mul_sub, ← mul_sub, mul_left_comm, r]
      · rw [if_neg hu, if_neg (fun h => hu (e.mp h))]
        simp only [rc0_getD, scale_getD]
        simp only [← mul_sub, ← mul_add, ← mul_neg]
        rw [g, g, g]
        ring_nf

include hk in
theorem gradDegenerate_units (xs : List ℝ) : gradDegenerate (rcL k 0 xs) ↔ gradDegenerate xs := by
  simp only [gradDegenerate, rc0_getD, rcL_length, mul_right_inj' hk.ne']

theorem lane_scale (u : ℝ) (a : ND ℝ) (p : ℕ) (idx : List ℕ) : (scaleArr u a).lane p idx = (a.lane p idx).map (u * ·) := by
  simp only [ND.lane, List.map_map, scaleArr, ND.map]; rfl

include hk in
theorem npGradient_units (u : ℝ) (a : ND ℝ) (xs : List ℝ) (axis : ℤ) : npGradient (scaleArr u a) (rcL k 0 xs) axis = (npGradient a xs axis).map (scaleArr (u / k)) := by
  simp only [npGradient, show (scaleArr u a).ndim = a.ndim from rfl, show (scaleArr u a).shape = a.shape from rfl, rcL_length, gradDegenerate_units hk, lane_scale, gradAt_units hk]
  cases normAxis axis a.ndim with
  | none => rfl
  | some p =>
    simp only
    split
    · rfl
    · split
      · rfl
      · by_cases h : gradDegenerate xs
        · rw [if_pos h, if_pos ((gradDegenerate_units hk xs).mpr h)]; rfl
        · rw [if_neg h, if_neg (fun h' => h ((gradDegenerate_units hk xs).mp h'))]; rfl

theorem finite_scale (w : ℝ) (a : ND ℝ) : ((scaleArr w a).map some).finite = ((a.map some).finite).map (scaleArr w) := by
  have h : ∀ b : ND ℝ, ¬ ∃ idx, Valid (b.map some).shape idx ∧ (b.map some).get idx = none := by
    rintro b ⟨idx, _, h⟩; simp [ND.map] at h
  rw [ND.finite, ND.finite, if_neg (h _), if_neg (h _)]
  rfl

include hk in
theorem linearRows_units (ext : Ext) (u : ℝ) (t : Arr Vec) (ts : List ℝ) (o : VelArgs) (ho : o.outlier = none) (hc : o.cutoff = none) :
    linearRows ext (t.map (u • ·)) (rcL k 0 ts) o = (linearRows ext t ts o).map (scaleArr (u / k)) := by
  simp only [linearRows, estimateLinear, ho, hc, ofVecs_scale, npGradient_units hk, show (scaleArr u (ND.ofVecs t)).ndim = (ND.ofVecs t).ndim from rfl, bind, Except.bind]
  cases npGradient (ND.ofVecs t) ts 0 with
  | error e => rfl
  | ok v =>
    simp only [Except.map]
    cases normAxis 0 (ND.ofVecs t).ndim with
    | none => rfl
    | some p => simp only [maybeOutliers, maybeFilter, finite_scale]; rfl

theorem rate_scale (w : ℝ) (q dq dq' : Quat) (h : dq' = w • dq) (n : ℕ) : qcomp ((2 : ℝ) • (star q * dq')) n = w * qcomp ((2 : ℝ) • (star q * dq)) n := by
  subst h
  rw [mul_smul_comm, smul_comm]
  generalize (2 : ℝ) • (star q * dq) = x
  match n with
  | 0 => simp [qcomp]
  | 1 => simp [qcomp]
  | 2 => simp [qcomp]
  | n + 3 => simp [qcomp]

theorem angularFromDerivative_units {ext : Ext} (hd : RateLaw ext) (hk : 0 < k) (r : ND ℝ) (ts : List ℝ) (p : ℕ) :
    angularFromDerivative ext r (rcL k 0 ts) p = scaleArr (1 / k) (angularFromDerivative ext r ts p) := by
  simp only [angularFromDerivative, scaleArr, ND.map, ND.mk.injEq, true_and]
  funext idx
  refine rate_scale _ _ _ _ ?_ _
  simp only [rcL, hd.1 k _ _ _ hk]
  rfl

include hk in
theorem angularRows_units {ext : Ext} (hd : RateLaw ext) (r : Arr Quat) (ts : List ℝ) (o : VelArgs) (ho : o.outlier = none) (hc : o.cutoff = none) :
    angularRows ext r (rcL k 0 ts) o = (angularRows ext r ts o).map (scaleArr (1 / k)) := by
  by_cases h2 : (ND.ofQuats r).ndim < 2
  · simp only [angularRows, estimateAngular, if_pos h2]; rfl
  · simp only [angularRows, estimateAngular, ho, hc, bind, Except.bind, if_neg h2]
    have raw : ∀ (x : ND ℝ) p, rawAngular ext x (rcL k 0 ts) p o.mode = (rawAngular ext x ts p o.mode).map (scaleArr (1 / k)) := by
      intro x p
      simp only [rawAngular, rcL_length, angularFromDerivative_units hd hk]
      split
      · split
        · rfl
        · rw [show ext.derivErr (rcL k 0 ts) = ext.derivErr ts from hd.2 k ts hk]
          cases ext.derivErr ts with
          | some e => rfl
          | none => simp only; split <;> rfl
      · split
        · split
          · rfl
          · have := npGradient_units hk 1 (rotVecs x) ts p
            rw [show scaleArr 1 (rotVecs x) = rotVecs x by simp [scaleArr, ND.map]] at this
            exact this
        · rfl
    simp only [raw]
    cases rawAngular ext ((ND.ofQuats r).swapaxes (angularAxes (ND.ofQuats r).ndim (-1) 0).1 ((ND.ofQuats r).ndim - 1)) ts (angularAxes (ND.ofQuats r).ndim (-1) 0).2 o.mode with
    | error e => rfl
    | ok v =>
      simp only [Except.map, maybeOutliers, maybeFilter, Pure.pure, Except.pure]
      exact finite_scale (1 / k) (v.swapaxes _ (v.ndim - 1))

/-! ### Orientations -/

theorem scaleArr_one (a : ND ℝ) : scaleArr 1 a = a := by simp [scaleArr, ND.map]

include hk in
theorem resampleArray_clock {sq : SquadFn} (hsq : UnitsLaw sq) (a : MArray) (ts : Option (List ℝ)) :
    resampleArray sq ⟨a.data, a.timestamps.map (rcL k 0)⟩ (ts.map (rcL k 0)) = resampleArray sq a ts := by
  by_cases h4 : a.timestamps = none ∨ a.data.shape.getLast? ≠ some 4
  · have := resampleArray_units hk (c := 0) sq 1 a h4 ts
    simp only [rcA] at this
    rw [show a.data.map (1 * ·) = a.data from scaleArr_one _] at this
    rw [this]
    cases resampleArray sq a ts with
    | error e => rfl
    | ok x => simp only [Except.map, scaleArr_one]
  · push Not at h4
    obtain ⟨ht, h4⟩ := h4
    obtain ⟨data, ats⟩ := a
    cases ats with
    | none => exact absurd rfl ht
    | some ats =>
      cases ts with
      | none => rfl
      | some ts =>
        obtain ⟨sh, get⟩ := data
        cases sh with
        | nil => rfl
        | cons n rest =>
          simp only at h4
          simp only [resampleArray, Option.map_some, if_pos h4]
          cases asQuatArray ⟨n :: rest, get⟩ with
          | error e => rfl
          | ok q =>
            simp only [rcL, List.map_eq_nil_iff, List.length_map]
            split
            · rfl
            · split
              · rfl
              · simp only [Except.ok.injEq]
                congr 1
                simp only [ND.mk.injEq, true_and]
                funext idx
                have : (ts.map (reclock k 0)).getD (idx.getD 0 0) 0 = reclock k 0 (ts.getD (idx.getD 0 0) 0) := by
                  rw [reclock_zero]; exact rc0_getD k ts _
                rw [this, hsq k 0 _ _ _ hk]

include hk in
theorem quaternionsCore_units {sq : SquadFn} (hsq : UnitsLaw sq) (u : ℝ) (s : State) (a : ℕ) (arr : ND ℝ) (dst : FrameRef) (o : TArgs) :
    (unitsState k 0 u s).transformQuaternionsCore sq a arr dst (unitsArgs k 0 o) =
      (s.transformQuaternionsCore sq a arr dst o).map fun p => (p.1, p.2.map (rcL k 0)) := by
  have hv := validateInput_units (k := k) (c := 0) 1 arr o.axis 4 o.timestamps o.timeAxis
  rw [scaleArr_one] at hv
  simp only [State.transformQuaternionsCore, unitsArgs, hv, bind, Except.bind]
  cases validateInput arr o.axis 4 o.timestamps o.timeAxis with
  | error e => rfl
  | ok p =>
    obtain ⟨arr', ts⟩ := p
    have hm := getMatcher_units hk (c := 0) u 1 s a dst [⟨arr', ts⟩]
    simp only [List.map_cons, List.map_nil, rcA] at hm
    simp only [Except.map]
    rw [show scaleArr 1 arr' = arr'.map (1 * ·) from rfl, hm]
    cases hg : s.getMatcher a dst [⟨arr', ts⟩] with
    | error e => rfl
    | ok m =>
      simp only [Except.map, getTransformation_units hk hsq]
      cases m.getTransformation sq with
      | error e => rfl
      | ok x =>
        obtain ⟨t, r, ts'⟩ := x
        have harr := getMatcher_arrays hg
        have harr' : (rcM k 0 u 1 m).arrays = [⟨arr', ts.map (rcL k 0)⟩] := by
          simp only [rcM, harr, List.map_cons, List.map_nil, rcA]
          rw [show arr'.map (1 * ·) = arr' from scaleArr_one _]
        have key := resampleArray_clock hk hsq ⟨arr', ts⟩
        have h1 : (rcM k 0 u 1 m).getArray1 sq (ts'.map (rcL k 0)) = m.getArray1 sq ts' := by
          have hts := getTimestamps_units hk (c := 0) u 1 m true
          cases ts' with
          | none =>
            simp only [Matcher.getArray1, Matcher.getArrays, Option.map_none, hts, harr, harr', bind, Except.bind]
            cases m.getTimestamps true with
            | error e => rfl
            | ok t =>
              simp only [Except.map, List.map_cons, List.map_nil, collect, key]
              cases resampleArray sq ⟨arr', ts⟩ t <;> rfl
          | some ts' =>
            have key := key (some ts')
            simp only [Option.map_some] at key
            simp only [Matcher.getArray1, Matcher.getArrays, Option.map_some, harr, harr', bind, Except.bind, Pure.pure, Except.pure, List.map_cons, List.map_nil, collect, key]
            cases resampleArray sq ⟨arr', ts⟩ (some ts') <;> rfl
        simp only [h1]
        cases m.getArray1 sq ts' with
        | error e => rfl
        | ok y =>
          simp only
          cases y.swapaxesZ o.axis (-1) with
          | error e => rfl
          | ok y' =>
            simp only
            cases asQuatArray (expandSingletonAxes (ND.ofQuats r) y.ndim) with
            | error e => rfl
            | ok rq =>
              simp only
              cases asQuatArray y' with
              | error e => rfl
              | ok aq =>
                simp only
                cases ND.bop (fun x y : Quat => x * y) rq aq with
                | error e => rfl
                | ok pr =>
                  simp only
                  cases (asFloatArray pr).swapaxesZ (-1) o.axis <;> rfl

end RBM
