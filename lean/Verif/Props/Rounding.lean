import Verif.Lemmas.Rounding
import Verif.Lemmas.ParentChild
import Verif.Lemmas.Example2
import Mathlib.Algebra.Order.Floor.Ring

namespace RBM.Props

open RBM RBM.Spec

/-! ## C86 — timestamps that are not exactly representable as floats -/

/-- If all timestamps are exactly representable, the conversion changes nothing: every lookup and
every transformation behaves like the exact program of the other theorems, errors included. -/
theorem C86_exact (sq : SquadFn) {fl : ℝ → ℝ} {s : State} (hs : ExactStamps fl s) (a : ℕ) (dst : FrameRef)
    (arr : ND ℝ) (o : TArgs) (ho : ∀ ts, o.timestamps = some ts → ∀ i, fl (ts.get [i]) = ts.get [i]) :
    s.lookupTransformFl fl sq a dst = s.lookupTransform sq a dst ∧
    s.transformPointsFl fl sq a arr dst o = s.transformPoints sq a arr dst o ∧
    s.transformVectorsFl fl sq a arr dst o = s.transformVectors sq a arr dst o ∧
    s.transformQuaternionsFl fl sq a arr dst o = s.transformQuaternions sq a arr dst o := by
  have hval : ∀ n p, validateInput arr o.axis n o.timestamps o.timeAxis = .ok p → FixedBy fl p.2 := by
    intro n p e
    simp only [validateInput, bind, Except.bind, Pure.pure, Except.pure, throw, throwThe, MonadExceptOf.throw] at e
    cases hk : pyShape arr.shape o.axis with
    | error => rw [hk] at e; simp at e
    | ok k =>
      rw [hk] at e
      simp only at e
      split at e
      · simp at e
      · cases ht : o.timestamps with
        | none => rw [ht] at e; simp at e; subst e; intro l hl; simp at hl
        | some ts =>
          rw [ht] at e
          obtain ⟨sh, get⟩ := ts
          simp only at e
          split at e
          · rename_i n hn
            cases hta : o.timeAxis with
            | none => rw [hta] at e; simp at e
            | some ta =>
              rw [hta] at e
              simp only at e
              cases hl : pyShape arr.shape ta with
              | error => rw [hl] at e; simp at e
              | ok l =>
                rw [hl] at e
                simp only at e
                split at e
                · simp at e
                · cases hw : arr.swapaxesZ 0 ta with
                  | error => rw [hw] at e; simp at e
                  | ok w =>
                    rw [hw] at e
                    simp only [Except.ok.injEq] at e
                    subst e
                    intro l hl t ht'
                    simp only [Option.some.injEq] at hl
                    subst hl
                    obtain ⟨i, _, rfl⟩ := List.mem_map.mp ht'
                    exact ho _ ht i
          · simp at e
  have hmat : ∀ p : ND ℝ × Option (List ℝ), FixedBy fl p.2 →
      s.getMatcherFl fl a dst [⟨p.1, p.2⟩] = s.getMatcher a dst [⟨p.1, p.2⟩] ∧
      ∀ m, s.getMatcher a dst [⟨p.1, p.2⟩] = .ok m → m.Fixed fl := fun p hp =>
    getMatcherFl_exact hs (by intro b hb; simp only [List.mem_singleton] at hb; subst hb; exact hp)
  have htr : ∀ m : Matcher, m.Fixed fl → ∀ x, m.getTransformation sq = .ok x → FixedBy fl x.2.2 := by
    intro m hm x e
    simp only [Matcher.getTransformation, bind, Except.bind] at e
    cases ht : m.getTimestamps true with
    | error => rw [ht] at e; simp at e
    | ok ts =>
      rw [ht] at e
      simp only at e
      cases hl : transLoop sq ts m.frames (initTranslation ts, .one 1) with
      | error => rw [hl] at e; simp at e
      | ok y =>
        rw [hl] at e
        simp only [Pure.pure, Except.pure, Except.ok.injEq] at e
        subst e
        exact hm.getTimestamps ht
  refine ⟨?_, ?_, ?_, ?_⟩
  · obtain ⟨h1, h2⟩ := getMatcherFl_exact hs (a := a) (dst := dst) (l := []) (by simp)
    simp only [State.lookupTransformFl, State.lookupTransform, h1, bind, Except.bind]
    cases e : s.getMatcher a dst [] with
    | error => rfl
    | ok m => exact getTransformationFl_exact sq (h2 m e)
  · simp only [State.transformPointsFl, State.transformPoints, State.transformPointsCore, bind, Except.bind]
    cases hv : validateInput arr o.axis 3 o.timestamps o.timeAxis with
    | error => rfl
    | ok p =>
      obtain ⟨h1, h2⟩ := hmat p (hval 3 p hv)
      simp only [h1]
      cases e : s.getMatcher a dst [⟨p.1, p.2⟩] with
      | error => rfl
      | ok m =>
        simp only [getTransformationFl_exact sq (h2 m e)]
        cases e2 : m.getTransformation sq with
        | error => rfl
        | ok x =>
          simp only [getArray1Fl_exact sq (h2 m e) (htr m (h2 m e) x e2)]
          cases m.getArray1 sq x.2.2 with
          | error => rfl
          | ok w =>
            simp only
            cases rotateVectorsF (expandSingletonAxes (ND.ofQuats x.2.1) w.ndim) w o.axis with
            | error => rfl
            | ok y =>
              simp only
              cases ND.bop (fun x y => x + y) y (expandSingletonAxes (ND.ofVecs x.1) w.ndim) with
              | error => rfl
              | ok z => rfl
  · simp only [State.transformVectorsFl, State.transformVectors, State.transformVectorsCore, bind, Except.bind]
    cases hv : validateInput arr o.axis 3 o.timestamps o.timeAxis with
    | error => rfl
    | ok p =>
      obtain ⟨h1, h2⟩ := hmat p (hval 3 p hv)
      simp only [h1]
      cases e : s.getMatcher a dst [⟨p.1, p.2⟩] with
      | error => rfl
      | ok m =>
        simp only [getTransformationFl_exact sq (h2 m e)]
        cases e2 : m.getTransformation sq with
        | error => rfl
        | ok x =>
          simp only [getArray1Fl_exact sq (h2 m e) (htr m (h2 m e) x e2)]
          cases m.getArray1 sq x.2.2 with
          | error => rfl
          | ok w =>
            simp only
            cases rotateVectorsF (expandSingletonAxes (ND.ofQuats x.2.1) w.ndim) w o.axis with
            | error => rfl
            | ok y => rfl
  · simp only [State.transformQuaternionsFl, State.transformQuaternions, State.transformQuaternionsCore, bind, Except.bind]
    cases hv : validateInput arr o.axis 4 o.timestamps o.timeAxis with
    | error => rfl
    | ok p =>
      obtain ⟨h1, h2⟩ := hmat p (hval 4 p hv)
      simp only [h1]
      cases e : s.getMatcher a dst [⟨p.1, p.2⟩] with
      | error => rfl
      | ok m =>
        simp only [getTransformationFl_exact sq (h2 m e)]
        cases e2 : m.getTransformation sq with
        | error => rfl
        | ok x =>
          simp only [getArray1Fl_exact sq (h2 m e) (htr m (h2 m e) x e2)]
          cases m.getArray1 sq x.2.2 with
          | error => rfl
          | ok w =>
            simp only
            cases w.swapaxesZ o.axis (-1) with
            | error => rfl
            | ok w2 =>
              simp only
              cases asQuatArray (expandSingletonAxes (ND.ofQuats x.2.1) w.ndim) with
              | error => rfl
              | ok rq =>
                simp only
                cases asQuatArray w2 with
                | error => rfl
                | ok aq =>
                  simp only
                  cases ND.bop (fun x y => x * y) rq aq with
                  | error => rfl
                  | ok pr =>
                    simp only
                    cases (asFloatArray pr).swapaxesZ (-1) o.axis with
                    | error => rfl
                    | ok z => rfl

/-- Lookups with rounded times: as long as rounding is monotone and keeps the samples of the
interpolated frames on the way apart, the lookup succeeds exactly when the exact one does and with
the same, exact timestamps, and every row is the transformation between the frames as recorded at
rounded times; static lookups are not affected. -/
theorem C86_lookup (sq : SquadFn) (hsq : SquadLaw sq) {fl : ℝ → ℝ} (hm : Monotone fl) {s : State} {h : List Event}
    (hr : Reachable s h) {a b : ℕ} (ha : a < s.size) (hb : b < s.size)
    (hp : PathAll s a b fun i => FrameOk true s i ∧ StaysApart fl s i) :
    (∃ t r, s.lookupTransform sq a (.byObj b) = .ok (t, r, none) ∧
      s.lookupTransformFl fl sq a (.byObj b) = .ok (t, r, none)) ∨
    ∃ (t : Arr Vec) (r : Arr Quat) (ts : List ℝ) (tl : List Vec) (rl : List Quat),
      s.lookupTransform sq a (.byObj b) = .ok (t, r, some ts) ∧
      s.lookupTransformFl fl sq a (.byObj b) = .ok (.many tl, .many rl, some ts) ∧
      tl.length = ts.length ∧ rl.length = ts.length ∧
      ∀ (k : ℕ) τ, ts[k]? = some τ →
        ∃ A, tl[k]? = some A.t ∧ rl[k]? = some A.r ∧ RoundedTransformAt fl sq s a b τ A := by
  obtain ⟨c, la, lb, hc, hla, hlb, hok⟩ := hp
  rcases lookupFl_good hm sq hsq hr.wf ha hb hc hla hlb (fun i hi => (hok i hi).1) (fun i hi => (hok i hi).2) with
    h1 | ⟨t, r, ts, T, h1, h2, h3⟩
  · exact .inl h1
  · refine .inr ⟨t, r, ts, _, _, h1, h2, by simp, by simp, fun k τ hk => ?_⟩
    obtain ⟨Pa, Pb, g1, g2, g3, g4⟩ := h3 τ (List.mem_of_getElem? hk)
    refine ⟨T τ, by simp [hk], by simp [hk], ?_⟩
    rw [g4]
    exact roundedTransformAt_chain hc hla hlb g1 g2 g3

/-- What was recorded is not affected by rounding: the transformation of a moving frame to its parent
consists of the recorded samples with their exact timestamps. -/
theorem C86_recorded (sq : SquadFn) (hsq : SquadLaw sq) {fl : ℝ → ℝ} (hm : Monotone fl) {s : State}
    {h : List Event} (hr : Reachable s h) {i p : ℕ} (hp : s.parent i = some p) {tr : List Vec} {ro : List Quat}
    {ev : List ℝ} (hd : s.data i = some ⟨some (.many tr, .many ro), some ev, false⟩)
    (hg : GoodData ⟨some (.many tr, .many ro), some ev, false⟩) (hap : StrictlyIncreasing (ev.map fl)) :
    s.lookupTransformFl fl sq i (.byObj p) = .ok (.many tr, .many ro, some ev) := by
  have hw := hr.wf
  have hlt := hw.parent_lt i p hp
  have hne : i ≠ p := by
    rintro rfl
    exact hw.acyclic i (.single hp)
  have hnc : NearestCommon s i p p :=
    ⟨.single hp, .refl, fun d _ h2 => h2⟩
  have hla : PathTo s.parent p i [i] := .up hne hp .here
  have hgd := roundedData_good (fl := fl) hg rfl (fun e he => by cases he; exact hap)
  have hl : tr.length = ev.length ∧ ro.length = ev.length ∧ 2 ≤ ev.length ∧ ∀ q ∈ ro, IsUnitQ q := by
    cases hg with | continuous h1 h2 h3 h4 h5 => exact ⟨h1, h2, h3, h5⟩
  rcases lookupFl_good hm sq hsq hw (a := i) (b := p) (by omega) (by omega) hnc hla .here
      (by intro j hj; simp only [List.append_nil, List.mem_singleton] at hj; subst hj; exact ⟨_, hd, hg⟩)
      (by
        intro j hj; simp only [List.append_nil, List.mem_singleton] at hj; subst hj
        intro e he
        have : e = ev := by simp [stampsOf, hd] at he; exact he.symm
        subst this; exact hap) with ⟨t, r, h1, h2⟩ | ⟨t, r, ts, T, h1, h2, h3⟩
  · rw [(lookup_up_continuous sq hsq hw hp hd hg).1] at h1
    simp at h1
  · rw [(lookup_up_continuous sq hsq hw hp hd hg).1] at h1
    simp only [Except.ok.injEq, Prod.mk.injEq, Option.some.injEq] at h1
    obtain ⟨_, _, rfl⟩ := h1
    rw [h2]
    have hT : ∀ (k : ℕ) τ t r, ev[k]? = some τ → tr[k]? = some t → ro[k]? = some r → T τ = ⟨t, r⟩ := by
      intro k τ t r e1 e2 e3
      obtain ⟨Pa, Pb, g1, g2, g3, g4⟩ := h3 τ (List.mem_of_getElem? e1)
      cases g2
      rcases g1 with _ | ⟨g1, g1'⟩
      cases g1'
      rename_i P
      obtain ⟨d, d1, d2⟩ := g1
      rw [hd] at d1; cases d1
      simp only [Bool.false_eq_true, if_false, roundedData, Option.map_some] at d2
      cases d2 with
      | continuous hlin =>
        have ek : (ev.map fl)[k]? = some (fl τ) := by simp [e1]
        rw [g4]
        rw [hlin.knot hap ek e2, hsq.knot ro (ev.map fl) k r (fl τ) (by simpa using hl.2.1) (by simpa using hl.2.2.1) hap hl.2.2.2 e3 ek]
        simp [chain, Pose.comp, Pose.inv, Pose.id]
    have q1 : (ev.map fun τ => (T τ).t) = tr := by
      apply List.ext_getElem (by simp [hl.1])
      intro k k1 k2
      have k3 : k < ev.length := by simpa using k1
      simp only [List.getElem_map]
      rw [hT k ev[k] tr[k] (ro[k]'(by omega)) (List.getElem?_eq_getElem k3) (List.getElem?_eq_getElem k2) (List.getElem?_eq_getElem _)]
    have q2 : (ev.map fun τ => (T τ).r) = ro := by
      apply List.ext_getElem (by simp [hl.2.1])
      intro k k1 k2
      have k3 : k < ev.length := by simpa using k1
      simp only [List.getElem_map]
      rw [hT k ev[k] (tr[k]'(by omega)) ro[k] (List.getElem?_eq_getElem k3) (List.getElem?_eq_getElem _) (List.getElem?_eq_getElem k2)]
    rw [q1, q2]

/-- Frames that are static or discrete have the same pose with rounded times. -/
theorem C86_not_interpolated {fl : ℝ → ℝ} {sq : SquadFn} {s : State} {i : ℕ} {τ : ℝ} {P : Pose}
    (h : stampsOf s false i = none) : RoundedPoseOf fl sq s τ i P ↔ PoseOf sq s τ i P := by
  simp only [RoundedPoseOf, PoseOf]
  constructor
  · rintro ⟨d, hd, h2⟩
    refine ⟨d, hd, ?_⟩
    split at h2
    · exact h2
    · rename_i hdisc
      have hnone : d.timestamps = none := by simpa [stampsOf, hd, hdisc] using h
      have e : roundedData fl d = d := by cases d; simp only at hnone; subst hnone; rfl
      rw [e] at h2
      generalize fl τ = σ at h2
      cases h2 with
      | static => exact .static
      | discrete => simp at hnone
      | continuous => simp at hnone
  · rintro ⟨d, hd, h2⟩
    refine ⟨d, hd, ?_⟩
    split
    · exact h2
    · rename_i hdisc
      have hnone : d.timestamps = none := by simpa [stampsOf, hd, hdisc] using h
      have e : roundedData fl d = d := by cases d; simp only at hnone; subst hnone; rfl
      rw [e]
      cases h2 with
      | static => exact .static
      | discrete => simp at hnone
      | continuous => simp at hnone

/-- How far rounding moves a frame: if times are rounded by at most `ε`, samples are at least
`δ > 2 ε` apart and a coordinate changes by at most `M` between consecutive samples, then that
coordinate of the frame's position changes by at most `2 ε / (δ - 2 ε) * M`, at any time; and the
samples stay apart. -/
theorem C86_error {fl : ℝ → ℝ} (hm : Monotone fl) {ε δ M : ℝ} (hε : ∀ t, |fl t - t| ≤ ε) (hδ : 2 * ε < δ)
    {sq : SquadFn} {s : State} {i : ℕ} {tr : List Vec} {ro : List Quat} {ev : List ℝ}
    (hd : s.data i = some ⟨some (.many tr, .many ro), some ev, false⟩)
    (hgap : ∀ (k : ℕ) x y, ev[k]? = some x → ev[k + 1]? = some y → δ ≤ y - x) {c : Fin 3}
    (hM : ∀ (k : ℕ) u v, tr[k]? = some u → tr[k + 1]? = some v → |v c - u c| ≤ M) :
    StaysApart fl s i ∧
    ∀ τ P P', PoseOf sq s τ i P → RoundedPoseOf fl sq s τ i P' → |P'.t c - P.t c| ≤ 2 * ε / (δ - 2 * ε) * M := by
  have hstep : ∀ (k : ℕ) x y, ev[k]? = some x → ev[k + 1]? = some y → δ - 2 * ε ≤ fl y - fl x := by
    intro k x y h1 h2
    have := hgap k x y h1 h2
    have a1 := abs_le.mp (hε x)
    have a2 := abs_le.mp (hε y)
    linarith [a1.1, a1.2, a2.1, a2.2]
  have hap : StrictlyIncreasing (ev.map fl) := by
    rw [StrictlyIncreasing, ← List.isChain_iff_pairwise, List.isChain_iff_getElem]
    intro k hk
    have hk' : k + 1 < ev.length := by simpa using hk
    simp only [List.getElem_map]
    have := hstep k ev[k] ev[k + 1] (List.getElem?_eq_getElem _) (List.getElem?_eq_getElem _)
    linarith
  refine ⟨?_, ?_⟩
  · intro e he
    have : e = ev := by simp [stampsOf, hd] at he; exact he.symm
    subst this; exact hap
  · rintro τ P P' ⟨d, hd1, hP⟩ ⟨d', hd2, hP'⟩
    rw [hd] at hd1 hd2; cases hd1; cases hd2
    simp only [Bool.false_eq_true, if_false, roundedData, Option.map_some] at hP'
    cases hP with
    | @continuous _ _ _ _ t hlin =>
      cases hP' with
      | @continuous _ _ _ _ t' hlin' =>
        obtain ⟨k, x0, x1, y0, y1, e0, e1, f0, f1, hlt, hle0, hle1, rfl⟩ := hlin
        have hb := hstep k x0 x1 e0 e1
        have hb0 : fl x0 < fl x1 := by linarith
        have huniq : IsLinInterp (ev.map fl) tr (fl τ)
            ((1 - (fl τ - fl x0) / (fl x1 - fl x0)) • y0 + ((fl τ - fl x0) / (fl x1 - fl x0)) • y1) :=
          ⟨k, fl x0, fl x1, y0, y1, by simp [e0], by simp [e1], f0, f1, hb0, hm hle0, hm hle1, rfl⟩
        rw [hlin'.unique hap huniq]
        have hMk := hM k y0 y1 f0 f1
        simp only [Pi.add_apply, Pi.smul_apply, smul_eq_mul]
        set w := (τ - x0) / (x1 - x0) with hw
        set w' := (fl τ - fl x0) / (fl x1 - fl x0) with hw'
        have hwb : 0 ≤ w ∧ w ≤ 1 := ⟨div_nonneg (by linarith) (by linarith), by rw [hw, div_le_one (by linarith)]; linarith⟩
        have e2 : (1 - w') * y0 c + w' * y1 c - ((1 - w) * y0 c + w * y1 c) = (w' - w) * (y1 c - y0 c) := by ring
        rw [e2, abs_mul]
        have hbt : 0 < fl x1 - fl x0 := by linarith
        have hww : (w' - w) * (fl x1 - fl x0) = (fl τ - τ) - (1 - w) * (fl x0 - x0) - w * (fl x1 - x1) := by
          have hx : x1 - x0 ≠ 0 := by linarith
          have g1 : w' * (fl x1 - fl x0) = fl τ - fl x0 := by rw [hw']; field_simp
          have g2 : w * (x1 - x0) = τ - x0 := by rw [hw]; field_simp
          linear_combination g1 - g2
        have hε0 : 0 ≤ ε := le_trans (abs_nonneg _) (hε 0)
        have hnum : |w' - w| * (fl x1 - fl x0) ≤ 2 * ε := by
          rw [← abs_of_pos hbt, ← abs_mul, hww]
          have a0 := abs_le.mp (hε τ)
          have a1 := abs_le.mp (hε x0)
          have a2 := abs_le.mp (hε x1)
          rw [abs_le]
          constructor <;> nlinarith [a0.1, a0.2, a1.1, a1.2, a2.1, a2.2, hwb.1, hwb.2]
        have hw2 : |w' - w| ≤ 2 * ε / (δ - 2 * ε) := by
          rw [le_div_iff₀ (by linarith)]
          exact le_trans (mul_le_mul_of_nonneg_left hb (abs_nonneg _)) hnum
        exact mul_le_mul hw2 hMk (abs_nonneg _) (div_nonneg (by linarith) (by linarith))

/-! ### samples that rounding does not keep apart -/

/-- Interpolation at a sample whose time occurs several times gives the first of these samples, unless
the times at the very beginning coincide. -/
theorem interpAt_first {V} [AddCommGroup V] [Module ℝ V] {xs : List ℝ} {ys : List V} (hs : NonDecreasing xs)
    (h2 : 2 ≤ xs.length) (hl : ys.length = xs.length) (h01 : xs.getD 0 0 < xs.getD 1 0) {j c : ℕ} {x : ℝ} {y : V}
    (hj : xs[j]? = some x) (hc : xs[c]? = some x) (hmin : ∀ k, k < c → xs[k]? ≠ some x) (hy : ys[c]? = some y) :
    interpAt xs ys x = .ok y := by
  obtain ⟨hjl, hjv⟩ := List.getElem?_eq_some_iff.mp hj
  obtain ⟨hcl, hcv⟩ := List.getElem?_eq_some_iff.mp hc
  obtain ⟨hyl, hyv⟩ := List.getElem?_eq_some_iff.mp hy
  have hmono := List.pairwise_iff_getElem.mp hs
  have hlt : ∀ k, k < c → xs.getD k 0 < x := by
    intro k hk
    have hkl : k < xs.length := by omega
    rw [getD_eq hkl]
    refine lt_of_le_of_ne ?_ ?_
    · rw [← hcv]; exact hmono k c hkl hcl hk
    · intro e; exact hmin k hk (by rw [List.getElem?_eq_getElem hkl, e])
  have hcD : xs.getD c 0 = x := by rw [getD_eq hcl, hcv]
  have hsl : searchLeft xs x = c := by
    apply le_antisymm
    · by_contra hcon
      have := (lt_searchLeft_iff hs x hcl).mp (by omega)
      rw [hcD] at this; exact lt_irrefl _ this
    · by_contra hcon
      have hk : searchLeft xs x < c := by omega
      exact absurd ((lt_searchLeft_iff hs x (i := searchLeft xs x) (by omega)).mpr (hlt _ hk)) (lt_irrefl _)
  have hout : ¬ (x < xs.getD 0 0 ∨ xs.getD (xs.length - 1) 0 < x) := by
    have a1 := nonDecreasing_getD hs (i := 0) (j := j) (by omega) hjl
    have a2 := nonDecreasing_getD hs (i := j) (j := xs.length - 1) (by omega) (by omega)
    rw [getD_eq hjl, hjv] at a1 a2
    push Not
    exact ⟨a1, a2⟩
  have hyD : ys.getD c 0 = y := by rw [getD_eq hyl, hyv]
  rcases Nat.eq_zero_or_pos c with h0 | hpos
  · subst h0
    have hloc : interpLoc xs x = .ok (0, 1) := by
      simp only [interpLoc, hsl]
      rw [if_neg (by omega), if_neg hout]
      have : min (max 0 1) (xs.length - 1) = 1 := by omega
      rw [this]
      simp only [one_ne_zero, if_false]
      rw [if_neg h01.ne']
    simp only [interpAt, hl, ne_eq, not_true, if_false, hloc, interpVal, hcD, sub_self, zero_smul, zero_add, hyD]
  · have hloc : interpLoc xs x = .ok (c - 1, c) := by
      simp only [interpLoc, hsl]
      rw [if_neg (by omega), if_neg hout]
      have : min (max c 1) (xs.length - 1) = c := by omega
      have hne0 : ¬ c = 0 := Nat.pos_iff_ne_zero.mp hpos
      have hne1 : ¬ xs.getD c 0 = xs.getD (c - 1) 0 := by
        rw [hcD]; exact (hlt (c - 1) (by omega)).ne'
      rw [this, if_neg hne0, if_neg hne1]
    have hd : x - xs.getD (c - 1) 0 ≠ 0 := sub_ne_zero.mpr (hlt (c - 1) (by omega)).ne'
    simp only [interpAt, hl, ne_eq, not_true, if_false, hloc, interpVal, hcD, hyD]
    rw [smul_smul, mul_one_div_cancel hd, one_smul, sub_add_cancel]

/-- The matcher of a lookup from a moving frame to its parent, whatever the order of its timestamps before rounding. -/
theorem lookupFl_parent' {fl : ℝ → ℝ} (sq : SquadFn) {s : State} {h : List Event}
    (hr : Reachable s h) {i p : ℕ} (hp : s.parent i = some p) {tr : List Vec} {ro : List Quat}
    {ev : List ℝ} (hd : s.data i = some ⟨some (.many tr, .many ro), some ev, false⟩)
    (hl : tr.length = ev.length) (hne : ev ≠ []) (hn : NonDecreasing (ev.map fl)) (hin : ∀ τ ∈ ev, InRange ev τ) :
    s.lookupTransformFl fl sq i (.byObj p) =
      match transStepFl fl sq (some ev) ⟨.many tr, .many ro, some ev, false, false⟩ (.many [0], .one 1) with
      | .error e => .error e
      | .ok x => .ok (x.1, x.2, some ev) := by
  classical
  have hw := hr.wf
  have hlt := hw.parent_lt i p hp
  have hwalk : s.walk i (.byObj p) = .ok ([i], []) := by
    have := walk_eq hw hlt.1 hlt.2 (nearest_parent hp) (pathTo_parent hw hp) .here
    simp [State.walk, State.resolve, this]
  have e' : s.getMatcherFl fl i (.byObj p) [] = .ok ⟨[⟨.many tr, .many ro, some ev, false, false⟩], []⟩ := by
    have hc : checkTimestampsFl fl (some ev) (firstLen (.many tr)) = .ok () :=
      checkTimestamps_ok hn (by simpa [firstLen] using hl.symm)
    simp [State.getMatcherFl, hwalk, bind, Except.bind, State.addFramesFl, State.addFrameFl, hd, Matcher.addFrameFl, hc, Matcher.empty, addArraysFl]
  have hts : (⟨[⟨.many tr, .many ro, some ev, false, false⟩], []⟩ : Matcher).getTimestamps true = .ok (some ev) := by
    rcases getTimestamps_spec (⟨[⟨.many tr, .many ro, some ev, false, false⟩], []⟩ : Matcher) true
      (by intro c hc; simp [Matcher.continuous] at hc; subst hc; exact hne) with ⟨x, xs, ts, g1, g2, g3, g4⟩ | ⟨g1, _⟩ | ⟨g1, _⟩
    · simp [Matcher.elements] at g1
      obtain ⟨rfl, rfl⟩ := g1
      have g5 := g4 (fun t => InRange ev t) (fun t => by simp [Matcher.continuous])
      rw [g2, g5]
      congr 2
      apply List.filter_eq_self.mpr
      intro τ hτ
      simpa using hin τ hτ
    · simp [Matcher.continuous] at g1
    · simp [Matcher.continuous] at g1
  simp only [State.lookupTransformFl, e', bind, Except.bind, Matcher.getTransformationFl, hts, initTranslation, transLoopFl]
  cases transStepFl fl sq (some ev) ⟨.many tr, .many ro, some ev, false, false⟩ (.many [0], .one 1) <;> rfl

theorem lookupFl_parent {fl : ℝ → ℝ} (hm : Monotone fl) (sq : SquadFn) {s : State} {h : List Event}
    (hr : Reachable s h) {i p : ℕ} (hp : s.parent i = some p) {tr : List Vec} {ro : List Quat}
    {ev : List ℝ} (hd : s.data i = some ⟨some (.many tr, .many ro), some ev, false⟩)
    (hg : GoodData ⟨some (.many tr, .many ro), some ev, false⟩) :
    s.lookupTransformFl fl sq i (.byObj p) =
      match transStepFl fl sq (some ev) ⟨.many tr, .many ro, some ev, false, false⟩ (.many [0], .one 1) with
      | .error e => .error e
      | .ok x => .ok (x.1, x.2, some ev) := by
  obtain ⟨l1, l3, hs⟩ : tr.length = ev.length ∧ 2 ≤ ev.length ∧ StrictlyIncreasing ev := by
    cases hg with | continuous h1 h2 h3 h4 h5 => exact ⟨h1, h3, h4⟩
  exact lookupFl_parent' sq hr hp hd l1 (by rintro rfl; simp at l3) (nonDecreasing_map hm hs.nonDecreasing)
    fun τ hτ => inRange_self hs.nonDecreasing hτ

theorem transformFromFrameFl_collision {fl : ℝ → ℝ} (sq : SquadFn) {tr : List Vec} {ro : List Quat} {ev : List ℝ} (hn : NonDecreasing (ev.map fl))
    (l1 : tr.length = ev.length) {x0 x1 : ℝ} (h0 : ev[0]? = some x0) (h1 : ev[1]? = some x1) (hx : fl x0 = fl x1) :
    transformFromFrameFl fl sq ⟨.many tr, .many ro, some ev, false, false⟩ (some ev) = .error .nonfinite := by
  have l3 : 2 ≤ ev.length := by
    have := (List.getElem?_eq_some_iff.mp h1).1
    omega
  have e1 : interp1d (ev.map fl) tr (ev.map fl) = .error .nonfinite := by
    cases ev with
    | nil => simp at l3
    | cons y0 ev =>
      cases ev with
      | nil => simp at l3
      | cons y1 ev =>
        simp only [List.getElem?_cons_zero, Option.some.injEq, List.getElem?_cons_succ] at h0 h1
        subst h0; subst h1
        have hq : interpAt ((y0 :: y1 :: ev).map fl) tr (fl y0) = .error .nonfinite := by
          have hsl : searchLeft ((y0 :: y1 :: ev).map fl) (fl y0) = 0 := by
            by_contra hc
            have := (lt_searchLeft_iff hn (fl y0) (i := 0) (by simp)).mp (by omega)
            simp at this
          have hlast : ¬ (((y0 :: y1 :: ev).map fl).getD (((y0 :: y1 :: ev).map fl).length - 1) 0 < fl y0) := by
            have := nonDecreasing_getD hn (i := 0) (j := ((y0 :: y1 :: ev).map fl).length - 1) (by omega) (by simp)
            have e0 : ((y0 :: y1 :: ev).map fl).getD 0 0 = fl y0 := rfl
            rw [e0] at this
            exact not_lt.mpr this
          have hloc : interpLoc ((y0 :: y1 :: ev).map fl) (fl y0) = .error .nonfinite := by
            simp only [interpLoc, hsl]
            rw [if_neg (by simp), if_neg (by
              push Not
              exact ⟨le_of_eq rfl, not_lt.mp hlast⟩)]
            have : min (max 0 1) (((y0 :: y1 :: ev).map fl).length - 1) = 1 := by simp
            rw [this]
            simp only [one_ne_zero, if_false, Nat.sub_self]
            rw [if_pos]
            simpa using hx.symm
          simp only [interpAt, hloc]
          simp [l1]
        have hno : ¬ anyOutside ((y0 :: y1 :: ev).map fl) ((y0 :: y1 :: ev).map fl) := by
          rintro ⟨t, ht, hor⟩
          have hne : (y0 :: y1 :: ev).map fl ≠ [] := by simp
          have hin := inRange_getD hne (inRange_self hn ht)
          rcases hor with h | h <;> linarith [hin.1, hin.2]
        simp only [interp1d]
        rw [if_neg (by simp [l1]), if_neg hno]
        simp only [List.map_cons] at hq ⊢
        simp only [collect, hq]
  simp [transformFromFrameFl, transformFromFrame, roundStamps, e1]

/-- When rounding makes the first two timestamps of a moving frame equal, lookups through it are not
finite. -/
theorem C86_first_collision {fl : ℝ → ℝ} (hm : Monotone fl) (sq : SquadFn) {s : State} {h : List Event}
    (hr : Reachable s h) {i p : ℕ} (hp : s.parent i = some p) {tr : List Vec} {ro : List Quat}
    {ev : List ℝ} (hd : s.data i = some ⟨some (.many tr, .many ro), some ev, false⟩)
    (hg : GoodData ⟨some (.many tr, .many ro), some ev, false⟩) {x0 x1 : ℝ} (h0 : ev[0]? = some x0)
    (h1 : ev[1]? = some x1) (hx : fl x0 = fl x1) :
    s.lookupTransformFl fl sq i (.byObj p) = .error .nonfinite := by
  rw [lookupFl_parent hm sq hr hp hd hg]
  obtain ⟨l1, hs⟩ : tr.length = ev.length ∧ StrictlyIncreasing ev := by
    cases hg with | continuous h1 h2 h3 h4 h5 => exact ⟨h1, h4⟩
  have e2 := transformFromFrameFl_collision sq (ro := ro) (nonDecreasing_map hm hs.nonDecreasing) l1 h0 h1 hx
  simp [transStepFl, e2, bind, Except.bind]

/-- Whether the samples of a moving frame are in order is judged by the rounded timestamps: if rounding hides that they are not, nothing is reported, the
timestamps are returned in their order, and each row contains the position of the first sample with the same rounded time. -/
theorem C86_hidden_disorder {fl : ℝ → ℝ} (sq : SquadFn) {s : State} {h : List Event}
    (hr : Reachable s h) {i p : ℕ} (hp : s.parent i = some p) {tr : List Vec} {ro : List Quat}
    {ev : List ℝ} (hd : s.data i = some ⟨some (.many tr, .many ro), some ev, false⟩)
    (l1 : tr.length = ev.length) (l2 : ro.length = ev.length) (hn : NonDecreasing (ev.map fl)) (hin : ∀ τ ∈ ev, InRange ev τ)
    {x0 x1 : ℝ} (h0 : ev[0]? = some x0) (h1 : ev[1]? = some x1) (hx : fl x0 < fl x1)
    (hu : ∀ τ ∈ ev, IsUnitQ (sq ro (ev.map fl) (fl τ))) :
    ∃ (tl : List Vec) (rl : List Quat), s.lookupTransformFl fl sq i (.byObj p) = .ok (.many tl, .many rl, some ev) ∧
      tl.length = ev.length ∧
      ∀ (j c : ℕ) τ σ t, ev[j]? = some τ → ev[c]? = some σ → fl τ = fl σ →
        (∀ (k : ℕ) ρ, k < c → ev[k]? = some ρ → fl ρ ≠ fl τ) → tr[c]? = some t → tl[j]? = some t := by
  have l3 : 2 ≤ ev.length := by
    have := (List.getElem?_eq_some_iff.mp h1).1
    omega
  rw [lookupFl_parent' sq hr hp hd l1 (by rintro rfl; simp at l3) hn hin]
  have h01 : (ev.map fl).getD 0 0 < (ev.map fl).getD 1 0 := by
    rw [List.getD_eq_getElem?_getD, List.getD_eq_getElem?_getD]
    simpa [h0, h1] using hx
  -- the sample used for each time
  have hex : ∀ τ, ∃ v : Vec, τ ∈ ev → (interpAt (ev.map fl) tr (fl τ) = .ok v ∧
      ∀ (c : ℕ) σ t, ev[c]? = some σ → fl τ = fl σ → (∀ (k : ℕ) ρ, k < c → ev[k]? = some ρ → fl ρ ≠ fl τ) →
        tr[c]? = some t → v = t) := by
    intro τ
    by_cases hτ : τ ∈ ev
    · obtain ⟨j, hj⟩ := List.getElem?_of_mem hτ
      have hex2 : ∃ c, (ev.map fl)[c]? = some (fl τ) := ⟨j, by simp [hj]⟩
      classical
      set c := Nat.find hex2 with hcdef
      have hc := Nat.find_spec hex2
      have hmin := fun k hk => Nat.find_min (H := hex2) (m := k) hk
      rw [← hcdef] at hc hmin
      have hcl : c < tr.length := by
        have := (List.getElem?_eq_some_iff.mp hc).1
        simp at this; omega
      have hi := interpAt_first (ys := tr) hn (by simpa using l3) (by simpa using l1) h01 (j := j) (c := c) (x := fl τ)
        (by simp [hj]) hc (fun k hk => hmin k hk) (List.getElem?_eq_getElem hcl)
      refine ⟨tr[c], fun _ => ⟨hi, ?_⟩⟩
      intro c' σ t g1 g2 g3 g4
      have : c' = c := by
        rcases Nat.lt_trichotomy c' c with hlt | he | hgt
        · exact absurd (by simp [g1, g2]) (hmin c' hlt)
        · exact he
        · exfalso
          obtain ⟨ρ, hρ, hρ2⟩ : ∃ ρ, ev[c]? = some ρ ∧ fl ρ = fl τ := by
            simpa [List.getElem?_map, Option.map_eq_some_iff] using hc
          exact g3 c ρ hgt hρ hρ2
      subst this
      rw [List.getElem?_eq_getElem hcl] at g4
      exact Option.some.inj g4
    · exact ⟨0, fun h => absurd h hτ⟩
  choose v hv using hex
  have e1 : interp1d (ev.map fl) tr (ev.map fl) = .ok (ev.map v) := by
    simp only [interp1d]
    rw [if_neg (by simp [l1]), if_neg (by
      rintro ⟨t, ht, hor⟩
      have hne : ev.map fl ≠ [] := by intro hc; simp at hc; subst hc; simp at l3
      have hin := inRange_getD hne (inRange_self hn ht)
      rcases hor with h | h <;> linarith [hin.1, hin.2]), List.map_map]
    exact collect_map fun t ht => (hv t ht).1
  have e2 : squad sq ro (ev.map fl) (ev.map fl) = .ok (ev.map fun τ => sq ro (ev.map fl) (fl τ)) := by
    have hro : ro ≠ [] := by rintro rfl; simp at l2; omega
    have hev : ev.map fl ≠ [] := by intro hc; simp at hc; subst hc; simp at l3
    simp only [squad]
    rw [if_neg (by simp only [hro, hev, or_self, not_false_iff]), if_neg (by omega), List.map_map]
    rfl
  have e3 : transformFromFrameFl fl sq ⟨.many tr, .many ro, some ev, false, false⟩ (some ev) =
      .ok (.many (ev.map fun τ => ((⟨v τ, sq ro (ev.map fl) (fl τ)⟩ : Pose)).t),
        .many (ev.map fun τ => ((⟨v τ, sq ro (ev.map fl) (fl τ)⟩ : Pose)).r)) := by
    simp [transformFromFrameFl, transformFromFrame, roundStamps, e1, e2]
  rw [transStepFl_init fl sq ev _ _ e3 hu]
  refine ⟨_, _, rfl, by simp, ?_⟩
  intro j c τ σ t g1 g2 g3 g4 g5
  simp only [List.getElem?_map, g1, Option.map_some, Option.some.injEq]
  rw [← (hv τ (List.mem_of_getElem? g1)).2 c σ t g2 g3 g4 g5]
  simp [stepP, Pose.comp, Pose.id]

/-- When rounding makes later timestamps of a moving frame equal, nothing is reported, but each row
contains the position of the first sample with the same rounded time. -/
theorem C86_later_collision {fl : ℝ → ℝ} (hm : Monotone fl) (sq : SquadFn) {s : State} {h : List Event}
    (hr : Reachable s h) {i p : ℕ} (hp : s.parent i = some p) {tr : List Vec} {ro : List Quat}
    {ev : List ℝ} (hd : s.data i = some ⟨some (.many tr, .many ro), some ev, false⟩)
    (hg : GoodData ⟨some (.many tr, .many ro), some ev, false⟩) {x0 x1 : ℝ} (h0 : ev[0]? = some x0)
    (h1 : ev[1]? = some x1) (hx : fl x0 < fl x1)
    (hu : ∀ τ ∈ ev, IsUnitQ (sq ro (ev.map fl) (fl τ))) :
    ∃ (tl : List Vec) (rl : List Quat), s.lookupTransformFl fl sq i (.byObj p) = .ok (.many tl, .many rl, some ev) ∧
      tl.length = ev.length ∧
      ∀ (j c : ℕ) τ σ t, ev[j]? = some τ → ev[c]? = some σ → fl τ = fl σ →
        (∀ (k : ℕ) ρ, k < c → ev[k]? = some ρ → fl ρ ≠ fl τ) → tr[c]? = some t → tl[j]? = some t := by
  obtain ⟨l1, l2, hs⟩ : tr.length = ev.length ∧ ro.length = ev.length ∧ StrictlyIncreasing ev := by
    cases hg with | continuous h1 h2 h3 h4 h5 => exact ⟨h1, h2, h4⟩
  exact C86_hidden_disorder sq hr hp hd l1 l2 (nonDecreasing_map hm hs.nonDecreasing) (fun τ hτ => inRange_self hs.nonDecreasing hτ) h0 h1 hx hu

/-! ### the hypotheses can be met -/

/-- Rounding to the nearest multiple of 3/4: the times 0, 1, 2 become 0, 3/4, 9/4. -/
noncomputable def exFl (t : ℝ) : ℝ := ⌊4 / 3 * t + 1 / 2⌋ * (3 / 4)

theorem exFl_mono : Monotone exFl := fun a b hab => by
  simp only [exFl]
  have : ⌊4 / 3 * a + 1 / 2⌋ ≤ ⌊4 / 3 * b + 1 / 2⌋ := Int.floor_le_floor (by linarith)
  have : (⌊4 / 3 * a + 1 / 2⌋ : ℝ) ≤ ⌊4 / 3 * b + 1 / 2⌋ := by exact_mod_cast this
  linarith

theorem exFl_error (t : ℝ) : |exFl t - t| ≤ 3 / 8 := by
  have h1 := Int.floor_le (4 / 3 * t + 1 / 2)
  have h2 := Int.lt_floor_add_one (4 / 3 * t + 1 / 2)
  rw [exFl, abs_le]
  constructor <;> linarith

theorem exFl_values : exFl 0 = 0 ∧ exFl 1 = 3 / 4 ∧ exFl 2 = 9 / 4 := by
  refine ⟨?_, ?_, ?_⟩
  · have : ⌊4 / 3 * (0 : ℝ) + 1 / 2⌋ = 0 := by rw [Int.floor_eq_iff]; norm_num
    simp only [exFl, this]; norm_num
  · have : ⌊4 / 3 * (1 : ℝ) + 1 / 2⌋ = 1 := by rw [Int.floor_eq_iff]; norm_num
    simp only [exFl, this]; norm_num
  · have : ⌊4 / 3 * (2 : ℝ) + 1 / 2⌋ = 3 := by rw [Int.floor_eq_iff]; norm_num
    simp only [exFl, this]; norm_num

theorem ex_apart : StrictlyIncreasing ([0, 1, 2].map exFl) := by
  simp only [List.map_cons, List.map_nil, exFl_values.1, exFl_values.2.1, exFl_values.2.2]
  norm_num [StrictlyIncreasing]

theorem exM_data : Ex.m3.data 1 = some Ex.dataM := by rw [Ex.m3_eq]; simp

theorem exM_parent : Ex.m3.parent 1 = some 0 := by rw [Ex.m3_eq]; simp

/-- `C86_recorded`: the moving frame of the example. -/
example : Ex.m3.lookupTransformFl exFl Ex.holdSquad 1 (.byObj 0) =
    .ok (.many [![0, 0, 0], ![1, 0, 0], ![4, 0, 0]], .many [1, 1, 1], some [0, 1, 2]) :=
  C86_recorded Ex.holdSquad Ex.holdSquad_law exFl_mono Ex.reachM exM_parent exM_data Ex.goodM ex_apart

/-- `C86_lookup`: between the moving and the discrete frame. -/
theorem exFl_path : PathAll Ex.m3 1 2 fun i => FrameOk true Ex.m3 i ∧ StaysApart exFl Ex.m3 i := by
  refine ⟨0, [1], [2], ⟨.single exM_parent, .single (by rw [Ex.m3_eq]; simp [ParentOf]), ?_⟩, .up (by norm_num) exM_parent .here,
    .up (by norm_num) (by rw [Ex.m3_eq]; simp) .here, ?_⟩
  · intro d h1 h2
    rcases Relation.ReflTransGen.cases_head h1 with rfl | ⟨y, hy, h3⟩
    · exfalso
      rcases Relation.ReflTransGen.cases_head h2 with h | ⟨z, hz, h4⟩
      · omega
      · have : z = 0 := by rw [Ex.m3_eq] at hz; simpa [ParentOf] using hz.symm
        subst this
        rcases Relation.ReflTransGen.cases_head h4 with h | ⟨w, hw, _⟩
        · omega
        · rw [Ex.m3_eq] at hw; simp [ParentOf] at hw
    · have : y = 0 := Option.some.inj (hy.symm.trans exM_parent)
      subst this; exact h3
  · intro i hi
    simp only [List.cons_append, List.nil_append, List.mem_cons, List.not_mem_nil, or_false] at hi
    rcases hi with rfl | rfl
    · refine ⟨⟨_, exM_data, Ex.goodM⟩, ?_⟩
      intro e he
      have : e = [0, 1, 2] := by simp [stampsOf, exM_data, Ex.dataM] at he; exact he.symm
      subst this; exact ex_apart
    · refine ⟨⟨Ex.dataD, by rw [Ex.m3_eq]; simp, Ex.goodD⟩, ?_⟩
      intro e he
      have hd : Ex.m3.data 2 = some Ex.dataD := by rw [Ex.m3_eq]; simp
      simp [stampsOf, hd, Ex.dataD] at he

/-- `C86_error`: the first coordinate of the moving frame is wrong by at most 9. -/
example : ∀ τ P P', PoseOf Ex.holdSquad Ex.m3 τ 1 P → RoundedPoseOf exFl Ex.holdSquad Ex.m3 τ 1 P' →
    |P'.t 0 - P.t 0| ≤ 2 * (3 / 8) / (1 - 2 * (3 / 8)) * 3 :=
  (C86_error (c := 0) exFl_mono exFl_error (δ := 1) (M := 3) (by norm_num) exM_data (by
    intro k x y h1 h2
    match k with
    | 0 => simp at h1 h2; subst h1; subst h2; norm_num
    | 1 => simp at h1 h2; subst h1; subst h2; norm_num
    | k + 2 => simp at h2) (by
    intro k u v h1 h2
    match k with
    | 0 => simp at h1 h2; subst h1; subst h2; norm_num
    | 1 => simp at h1 h2; subst h1; subst h2; norm_num
    | k + 2 => simp at h2)).2

/-- Nanoseconds of the current epoch are rounded to multiples of 256. -/
noncomputable def exEpoch (t : ℝ) : ℝ := ⌊t / 256 + 1 / 2⌋ * 256

theorem exEpoch_mono : Monotone exEpoch := fun a b hab => by
  simp only [exEpoch]
  have : ⌊a / 256 + 1 / 2⌋ ≤ ⌊b / 256 + 1 / 2⌋ := Int.floor_le_floor (by linarith)
  have : (⌊a / 256 + 1 / 2⌋ : ℝ) ≤ ⌊b / 256 + 1 / 2⌋ := by exact_mod_cast this
  linarith

/-- `C86_first_collision`: samples one nanosecond apart. -/
example : Ex.m3.lookupTransformFl exEpoch Ex.holdSquad 1 (.byObj 0) = .error .nonfinite :=
  C86_first_collision exEpoch_mono Ex.holdSquad Ex.reachM exM_parent exM_data Ex.goodM (x0 := 0) (x1 := 1) rfl rfl (by
    have h0 : ⌊(0 : ℝ) / 256 + 1 / 2⌋ = 0 := by rw [Int.floor_eq_iff]; norm_num
    have h1 : ⌊(1 : ℝ) / 256 + 1 / 2⌋ = 0 := by rw [Int.floor_eq_iff]; norm_num
    simp only [exEpoch, h0, h1])

/-- `C86_later_collision`: the last two samples fall together, the third one is lost. -/
example : ∃ (tl : List Vec) (rl : List Quat), Ex.m3.lookupTransformFl (fun t => min t 1) (fun _ _ _ => 1) 1 (.byObj 0) =
    .ok (.many tl, .many rl, some [0, 1, 2]) ∧ tl[2]? = some ![1, 0, 0] := by
  obtain ⟨tl, rl, h1, _, h3⟩ := C86_later_collision (fl := fun t => min t 1) (fun a b hab => min_le_min hab le_rfl)
    (fun _ _ _ => 1) Ex.reachM exM_parent exM_data Ex.goodM (x0 := 0) (x1 := 1) rfl rfl (by norm_num)
    (fun _ _ => by simp [IsUnitQ, nsq])
  refine ⟨tl, rl, h1, h3 2 1 2 1 _ rfl rfl (by norm_num) ?_ rfl⟩
  intro k ρ hk hρ
  have : k = 0 := by omega
  subst this
  simp at hρ; subst hρ; norm_num

/-- `C86_exact`: whole numbers are represented exactly by rounding to whole numbers. -/
example : Ex.m3.lookupTransformFl (fun t => ⌊t⌋) Ex.holdSquad 1 (.byObj 2) = Ex.m3.lookupTransform Ex.holdSquad 1 (.byObj 2) := by
  refine (C86_exact Ex.holdSquad (fl := fun t => (⌊t⌋ : ℝ)) ?_ 1 (.byObj 2) (Ex.arr1 []) {} (by simp)).1
  intro i d ts hd hts t ht
  rw [Ex.m3_eq] at hd
  simp only at hd
  split_ifs at hd with c2 c1 c0
  · cases hd; cases hts; simp at ht; rcases ht with rfl | rfl <;> simp
  · cases hd; cases hts; simp at ht; rcases ht with rfl | rfl | rfl <;> simp
  · cases hd; cases hts

end RBM.Props
