import Verif.Lemmas.Rounding
import Verif.Lemmas.TransformQuat

/-! Timestamped arrays with rounded times: the lemmas of `TransformArr`, `TransformCore` and
`TransformQuat` for the functions of `Model/Rounding`. -/

namespace RBM

open Spec

theorem getArray1Fl_of {fl : ℝ → ℝ} {sq : SquadFn} {fs : List MFrame} {a : MArray} {ts : List ℝ} {R : ND ℝ}
    (h : resampleArrayFl fl sq a (some ts) = .ok R) : (⟨fs, [a]⟩ : Matcher).getArray1Fl fl sq (some ts) = .ok R := by
  simp [Matcher.getArray1Fl, collect, h, bind, Except.bind, Pure.pure, Except.pure]

theorem resample_knotsFl {fl : ℝ → ℝ} (sq : SquadFn) (data : ND ℝ) {n : ℕ} {rest : List ℕ} (hs : data.shape = n :: rest)
    (h4 : (n :: rest).getLast? ≠ some 4) {ats : List ℝ} (hn : n = ats.length) (h2 : 2 ≤ ats.length)
    (hinc : StrictlyIncreasing (ats.map fl)) {ts : List ℝ} (hsub : ∀ τ ∈ ts, τ ∈ ats) :
    ∃ R, resampleArrayFl fl sq ⟨data, some ats⟩ (some ts) = .ok R ∧ R.shape = ts.length :: rest ∧
      ∀ (i k : ℕ) (τ : ℝ) (r : List ℕ), ts[i]? = some τ → ats[k]? = some τ → R.get (i :: r) = data.get (k :: r) := by
  obtain ⟨R, e1, e2, e3⟩ := resample_knots sq data hs h4 (ats := ats.map fl) (by simpa using hn) (by simpa using h2) hinc
    (ts := ts.map fl) (by
      intro σ hσ
      obtain ⟨τ, hτ, rfl⟩ := List.mem_map.mp hσ
      exact List.mem_map_of_mem (hsub τ hτ))
  exact ⟨R, e1, by simpa using e2, fun i k τ r hi hk => e3 i k (fl τ) r (by simp [hi]) (by simp [hk])⟩

theorem resample_squadFl {fl : ℝ → ℝ} (sq : SquadFn) (hsq : SquadLaw sq) (data : ND ℝ) {n : ℕ} (hs : data.shape = [n, 4])
    {ats : List ℝ} (hn : n = ats.length) (h2 : 2 ≤ ats.length) (hu : ∀ i < n, IsUnitQ (quat4 data 1 [i, 0]))
    (hinc : StrictlyIncreasing (ats.map fl)) {ts : List ℝ} :
    ∃ R, resampleArrayFl fl sq ⟨data, some ats⟩ (some ts) = .ok R ∧ R.shape = [ts.length, 4] ∧
      ∀ (i k : ℕ) (τ : ℝ) (c : ℕ), c < 4 → ts[i]? = some τ → ats[k]? = some τ → R.get [i, c] = data.get [k, c] := by
  obtain ⟨R, e1, e2, e3⟩ := resample_squad sq hsq data hs (ats := ats.map fl) (by simpa using hn) (by simpa using h2)
    hu hinc (ts := ts.map fl)
  exact ⟨R, e1, by simpa using e2, fun i k τ c hc hi hk => e3 i k (fl τ) c hc (by simp [hi]) (by simp [hk])⟩

/-- What the transform functions get from the matcher for a timestamped array. -/
theorem core_timedFl {fl : ℝ → ℝ} (hm : Monotone fl) (sq : SquadFn) (hsq : SquadLaw sq) {s : State} (h : WF s)
    {a b : ℕ} (ha : a < s.size)
    (hb : b < s.size) (hp : PathAll s a b fun i => FrameOk true s i ∧ StaysApart fl s i) {l : List ℕ} (hl : Route s a b l)
    (w : ND ℝ) {n : ℕ} {rest : List ℕ} (hs : w.shape = n :: rest) {ats : List ℝ}
    (hn : ats.length = n) (hne : ats ≠ []) (hinc : NonDecreasing ats) :
    ∃ (fs : List MFrame) (T : ℝ → Pose), s.getMatcherFl fl a (.byObj b) [⟨w, some ats⟩] = .ok ⟨fs, [⟨w, some ats⟩]⟩ ∧
      let ts := commonStamps ats (ats :: l.filterMap (stampsOf s false))
      (∀ τ ∈ ts, RoundedTransformAt fl sq s a b τ (T τ) ∧ IsUnitQ (T τ).r) ∧
      ((⟨fs, [⟨w, some ats⟩]⟩ : Matcher).getTransformationFl fl sq =
          .ok (.many (ts.map fun τ => (T τ).t), .many (ts.map fun τ => (T τ).r), some ts) ∨
        (a = b ∧ (∀ τ, T τ = Pose.id) ∧
          (⟨fs, [⟨w, some ats⟩]⟩ : Matcher).getTransformationFl fl sq = .ok (.many [0], .one 1, some ts))) := by
  classical
  obtain ⟨c, la, lb, hc, hla, hlb, hok'⟩ := hp
  have hok : ∀ i ∈ la ++ lb, FrameOk true s i := fun i hi => (hok' i hi).1
  have hap : ∀ i ∈ la ++ lb, StaysApart fl s i := fun i hi => (hok' i hi).2
  obtain ⟨c', la', lb', hc', hla', hlb', rfl⟩ := hl
  have := hc.unique h hc'
  subst this
  rw [← hla.unique hla', ← hlb.unique hlb']
  have hg' : ∀ i ∈ la ++ lb, ∃ d, s.data i = some d ∧ GoodData d := by simpa [FrameOk] using hok
  obtain ⟨fa, fb, e, h1, h2⟩ := getMatcher_ok h ha hb hc hla hlb (fun i hi => by
    obtain ⟨d, h1, h2⟩ := hg' i hi; exact GoodData.checked h1 h2) []
  have e0 : s.getMatcher a (.byObj b) [] = .ok ⟨fa ++ fb, []⟩ := e
  have eFl : s.getMatcherFl fl a (.byObj b) [⟨w, some ats⟩] = .ok ⟨fa ++ fb, [⟨w, some ats⟩]⟩ := by
    have e1 := getMatcherFl_ok hm e0
    simp only [State.getMatcherFl, bind, Except.bind] at e1 ⊢
    cases hw : s.walk a (.byObj b) with
    | error => rw [hw] at e1; simp at e1
    | ok x =>
      rw [hw] at e1
      simp only at e1 ⊢
      cases hx : s.addFramesFl fl false x.1 Matcher.empty with
      | error => rw [hx] at e1; simp at e1
      | ok m1 =>
        rw [hx] at e1
        simp only at e1 ⊢
        cases hy : s.addFramesFl fl true x.2 m1 with
        | error => rw [hy] at e1; simp at e1
        | ok m2 =>
          rw [hy] at e1
          simp only [addArraysFl, Except.ok.injEq] at e1
          subst e1
          simp only [addArraysFl, Matcher.addArrayFl, hs, checkTimestampsFl_ok hm (checkTimestamps_ok hinc hn)]
          simp
  set m : Matcher := ⟨fa ++ fb, [⟨w, some ats⟩]⟩ with hmm
  have key : ∀ {inv l fs}, List.Forall₂ (FrameOf s inv) l fs → (∀ i ∈ l, i ∈ la ++ lb) →
      ∀ f ∈ fs, GoodData f.data ∧ ∀ ev, f.timestamps = some ev → f.discrete = false → StrictlyIncreasing (ev.map fl) := by
    intro inv l fs hf
    induction hf with
    | nil => simp
    | @cons i f l fs hx _ ih =>
      intro hl g hgm
      rcases List.mem_cons.mp hgm with rfl | hgm
      · obtain ⟨d, g1, g2⟩ := hg' i (hl i (List.mem_cons_self ..))
        rw [hx.1] at g1; cases g1
        refine ⟨g2, fun ev hev hdisc => hap i (hl i (List.mem_cons_self ..)) ev ?_⟩
        simp [stampsOf, hx.1, MFrame.data, hdisc, hev]
      · exact ih (fun i hi => hl i (List.mem_cons_of_mem _ hi)) g hgm
  have hgf : ∀ f ∈ fa ++ fb, GoodData f.data ∧
      ∀ ev, f.timestamps = some ev → f.discrete = false → StrictlyIncreasing (ev.map fl) := by
    intro f hf
    rcases List.mem_append.mp hf with hf | hf
    · exact key h1 (fun i hi => by simp [hi]) f hf
    · exact key h2 (fun i hi => by simp at hi; simp [hi]) f hf
  set ts := commonStamps ats (ats :: (la ++ lb.reverse).filterMap (stampsOf s false)) with hts
  have hgt : m.getTimestamps true = .ok (some ts) := by
    rcases matcher_good sq hsq h1 h2 hok [⟨w, some ats⟩] (by simpa using hne) true with
      ⟨h3, _⟩ | ⟨ts', T, g1, g2, g3, g4⟩
    · simp at h3
    · simp only [List.filterMap_cons, List.filterMap_nil, if_true, List.cons_append, List.nil_append] at g2
      have hts' : ts' = ts := by
        rcases g2 with ⟨x, xs, hx, g2⟩ | ⟨g2, _⟩
        · cases hx; exact g2
        · simp at g2
      rw [← hts']; exact g1
  have efr : (fa ++ fb).filterMap (fun f => if f.discrete then none else f.timestamps) =
      (la ++ lb.reverse).filterMap (stampsOf s false) := by
    simp only [List.filterMap_append, (filterMap_frames h1).1, (filterMap_frames h2).1]
  have hin : ∀ τ ∈ ts, ∀ c ∈ m.continuous, InRange c τ := by
    intro τ hτ c hc
    have h3 := (List.mem_filter.mp hτ).2
    simp only [decide_eq_true_eq] at h3
    apply h3
    simp only [Matcher.continuous, hmm, efr, List.filterMap_cons, List.filterMap_nil, List.mem_append, List.mem_singleton] at hc
    rcases hc with hc | rfl
    · exact List.mem_cons_of_mem _ hc
    · exact List.mem_cons_self ..
  have hlook : m.getTransformationFl fl sq =
      match transLoopFl fl sq (some ts) m.frames (.many [0], .one 1) with
      | .error e => .error e
      | .ok p => .ok (p.1, p.2, some ts) := by
    simp only [bind, Except.bind, Matcher.getTransformationFl, hgt, initTranslation]
    cases transLoopFl fl sq (some ts) m.frames (.many [0], .one 1) <;> rfl
  by_cases hfr : fa ++ fb = []
  · obtain ⟨hfa, hfb⟩ := List.append_eq_nil_iff.mp hfr
    rw [hfa] at h1
    rw [hfb] at h2
    cases h1
    have hlb0 : lb = [] := by
      generalize hl : lb.reverse = l at h2
      cases h2; simpa using hl
    subst hlb0
    have hab : a = b := by cases hla; cases hlb; rfl
    refine ⟨fa ++ fb, fun _ => Pose.id, eFl, fun τ _ => ⟨?_, isUnitQ_one⟩, .inr ⟨hab, fun _ => rfl, ?_⟩⟩
    · have := roundedTransformAt_chain (fl := fl) (sq := sq) (τ := τ) hc hla hlb (Pa := []) (Pb := []) .nil .nil (by simp)
      simpa [chain, Pose.inv, Pose.id, Pose.comp] using this
    · rw [hlook, hmm, hfr]; rfl
  · obtain ⟨T, t1, t2⟩ := transLoopFl_good hm sq hsq ts h1 h2 (fun f hf => (hgf f hf).1) (fun f hf => (hgf f hf).2)
      (fun f hf τ hτ => admissible_of_continuous (m := m) (hin τ hτ) f hf) hfr
    refine ⟨fa ++ fb, T, eFl, fun τ hτ => ?_, .inl ?_⟩
    · obtain ⟨Pa, Pb, p1, p2, p3, p4⟩ := t2 τ hτ
      rw [p4]
      exact ⟨roundedTransformAt_chain hc hla hlb p1 p2 p3,
        (chain_unit fun Q hQ => p3 Q (by simp [hQ])).inv.mul (chain_unit fun Q hQ => p3 Q (by simp [hQ]))⟩
    · rw [hlook]
      simp only [hmm]
      rw [t1]

/-- Rotation of the rows of a timestamped array. -/
theorem vectorsCore_timedFl {fl : ℝ → ℝ} (hm : Monotone fl) (sq : SquadFn) (hsq : SquadLaw sq) {s : State} (h : WF s) {a b : ℕ} (ha : a < s.size)
    (hb : b < s.size) (hp : PathAll s a b fun i => FrameOk true s i ∧ StaysApart fl s i) {l : List ℕ} (hl : Route s a b l)
    (w : ND ℝ) {rest : List ℕ} {ats : List ℝ} (hs : w.shape = ats.length :: rest) (h2 : 2 ≤ ats.length)
    (hinc : StrictlyIncreasing ats) (hfl : StrictlyIncreasing (ats.map fl)) {axis : ℤ} {p : ℕ} (hax : AxisIs axis w.ndim p) (hp0 : p ≠ 0)
    (h3 : w.shape.getD p 0 = 3) (h4 : w.shape.getLast? ≠ some 4) :
    let ts := commonStamps ats (ats :: l.filterMap (stampsOf s false))
    ∃ (fs : List MFrame) (T : ℝ → Pose) (t : Arr Vec) (r : Arr Quat) (w' R : ND ℝ),
      s.getMatcherFl fl a (.byObj b) [⟨w, some ats⟩] = .ok ⟨fs, [⟨w, some ats⟩]⟩ ∧
      (⟨fs, [⟨w, some ats⟩]⟩ : Matcher).getTransformationFl fl sq = .ok (t, r, some ts) ∧
      (⟨fs, [⟨w, some ats⟩]⟩ : Matcher).getArray1Fl fl sq (some ts) = .ok w' ∧
      rotateVectorsF (expandSingletonAxes (ND.ofQuats r) w'.ndim) w' axis = .ok R ∧
      w'.shape = ts.length :: rest ∧
      R.shape = ts.length :: rest ∧ (∀ τ ∈ ts, RoundedTransformAt fl sq s a b τ (T τ) ∧ IsUnitQ (T τ).r) ∧
      (t = .many (ts.map fun τ => (T τ).t) ∨ (t = .many [0] ∧ ∀ τ, (T τ).t = 0)) ∧
      ∀ (i k : ℕ) τ js, ts[i]? = some τ → ats[k]? = some τ → Valid rest js →
        vec3 R p (i :: js) = rot (T τ).r (vec3 w p (k :: js)) := by
  intro ts
  obtain ⟨fs, T, e1, hT, hg⟩ := core_timedFl hm sq hsq h ha hb hp hl w hs rfl (by rintro rfl; simp at h2) hinc.nonDecreasing
  obtain ⟨w', e2, hw's, hw'⟩ := resample_knotsFl sq w hs (by rw [← hs]; exact h4) rfl h2 hfl
    (ts := ts) commonStamps_sub
  have hnd : w'.ndim = w.ndim := by simp [ND.ndim, hw's, hs]
  have hax' : normAxis axis w'.ndim = some p := by rw [hnd]; exact axisIs_norm hax
  obtain ⟨p, rfl⟩ : ∃ p', p = p' + 1 := ⟨p - 1, by omega⟩
  have hpl := hax.1
  simp only [ND.ndim, hs, List.length_cons] at hpl
  have h3' : w'.shape.getD (p + 1) 0 = 3 := by
    rw [hs] at h3; rw [hw's]; simpa using h3
  have hvec : ∀ (i k : ℕ) τ js, ts[i]? = some τ → ats[k]? = some τ →
      vec3 w' (p + 1) (i :: js) = vec3 w (p + 1) (k :: js) := by
    intro i k τ js hi hk
    simp only [vec3, List.set_cons_succ, hw' i k τ _ hi hk]
  have hval : ∀ (i : ℕ) τ js, ts[i]? = some τ → Valid rest js → ∀ c < 3, Valid w'.shape ((i :: js).set (p + 1) c) := by
    intro i τ js hi hj c hc
    rw [hw's] at h3' ⊢
    apply valid_set (p := p + 1) (k := c)
    · exact ⟨(List.getElem?_eq_some_iff.mp hi).1, hj⟩
    · rw [h3']; exact hc
  rcases hg with hg | ⟨rfl, hid, hg⟩
  · obtain ⟨R, r1, r2, r3⟩ := rotateF_many (ts.map fun τ => (T τ).r) (by
      intro q hq
      obtain ⟨τ, hτ, rfl⟩ := List.mem_map.mp hq
      exact (hT τ hτ).2) w' hax' (by omega) h3' (by rw [hw's]; simp)
    refine ⟨fs, T, _, _, w', R, e1, hg, getArray1Fl_of e2, r1, hw's, r2.trans hw's, hT, .inl rfl, ?_⟩
    intro i k τ js hi hk hj
    have hjl := hj.length
    rw [← hvec i k τ js hi hk]
    apply vec3_of_entries (by simp; omega)
    intro c
    rw [r3 _ (hval i τ js hi hj c c.2), ← vec3_eq, vec3_set]
    congr 2
    simp [List.getD_eq_getElem?_getD, hi]
  · obtain ⟨R, r1, r2, r3⟩ := rotateF_one 1 one_ne_zero w'.ndim w' hax' h3'
    refine ⟨fs, T, _, _, w', R, e1, hg, getArray1Fl_of e2, r1, hw's, r2.trans hw's, hT, .inr ⟨rfl, fun τ => by rw [hid]; rfl⟩, ?_⟩
    intro i k τ js hi hk hj
    have hjl := hj.length
    rw [← hvec i k τ js hi hk, hid]
    apply vec3_of_entries (by simp; omega)
    intro c
    rw [r3, ← vec3_eq, vec3_set]
    rfl

/-- Multiplication of the rows of a timestamped array of orientations. -/
theorem quatCore_timedFl {fl : ℝ → ℝ} (hm : Monotone fl) (sq : SquadFn) (hsq : SquadLaw sq) {s : State} (h : WF s) {a b : ℕ} (ha : a < s.size)
    (hb : b < s.size) (hp : PathAll s a b fun i => FrameOk true s i ∧ StaysApart fl s i) {l : List ℕ} (hl : Route s a b l)
    (w : ND ℝ) {rest : List ℕ} {ats : List ℝ} (hs : w.shape = ats.length :: rest) (h2 : 2 ≤ ats.length)
    (hinc : StrictlyIncreasing ats) (hfl : StrictlyIncreasing (ats.map fl)) {axis : ℤ} {p : ℕ} (hax : AxisIs axis w.ndim p) (hp0 : p ≠ 0)
    (h4 : w.shape.getD p 0 = 4)
    (hres : w.shape.getLast? ≠ some 4 ∨ (rest = [4] ∧ ∀ i < ats.length, IsUnitQ (quat4 w 1 [i, 0]))) :
    let ts := commonStamps ats (ats :: l.filterMap (stampsOf s false))
    ∃ (fs : List MFrame) (T : ℝ → Pose) (t : Arr Vec) (r : Arr Quat) (w' w2 : ND ℝ) (rq aq P : ND Quat) (R : ND ℝ),
      s.getMatcherFl fl a (.byObj b) [⟨w, some ats⟩] = .ok ⟨fs, [⟨w, some ats⟩]⟩ ∧
      (⟨fs, [⟨w, some ats⟩]⟩ : Matcher).getTransformationFl fl sq = .ok (t, r, some ts) ∧
      (⟨fs, [⟨w, some ats⟩]⟩ : Matcher).getArray1Fl fl sq (some ts) = .ok w' ∧
      w'.swapaxesZ axis (-1) = .ok w2 ∧
      asQuatArray (expandSingletonAxes (ND.ofQuats r) w'.ndim) = .ok rq ∧ asQuatArray w2 = .ok aq ∧
      ND.bop (fun x y => x * y) rq aq = .ok P ∧ (asFloatArray P).swapaxesZ (-1) axis = .ok R ∧
      R.shape = ts.length :: rest ∧ (∀ τ ∈ ts, RoundedTransformAt fl sq s a b τ (T τ) ∧ IsUnitQ (T τ).r) ∧
      ∀ (i k : ℕ) τ js, ts[i]? = some τ → ats[k]? = some τ → Valid rest js →
        quat4 R p (i :: js) = (T τ).r * quat4 w p (k :: js) := by
  intro ts
  obtain ⟨fs, T, e1, hT, hg⟩ := core_timedFl hm sq hsq h ha hb hp hl w hs rfl (by rintro rfl; simp at h2) hinc.nonDecreasing
  obtain ⟨w', e2, hw's, hw'⟩ : ∃ w', resampleArrayFl fl sq ⟨w, some ats⟩ (some ts) = .ok w' ∧ w'.shape = ts.length :: rest ∧
      ∀ (i k : ℕ) τ js, ts[i]? = some τ → ats[k]? = some τ → Valid rest js →
        quat4 w' p (i :: js) = quat4 w p (k :: js) := by
    rcases hres with hres | ⟨rfl, hu⟩
    · obtain ⟨w', e2, hw's, hw'⟩ := resample_knotsFl sq w hs (by rw [← hs]; exact hres) rfl h2 hfl
        (ts := ts) commonStamps_sub
      exact ⟨w', e2, hw's, fun i k τ js hi hk hj => quat4_of_resampled hp0 (fun r => hw' i k τ r hi hk)⟩
    · obtain ⟨w', e2, hw's, hw'⟩ := resample_squadFl sq hsq w hs rfl h2 hu hfl (ts := ts)
      refine ⟨w', e2, hw's, fun i k τ js hi hk hj => ?_⟩
      have hp1 : p = 1 := by have := hax.1; simp [ND.ndim, hs] at this; omega
      subst hp1
      match js, hj with
      | [j], hj =>
        simp only [quat4, List.set_cons_succ, List.set_cons_zero, hw' i k τ _ (by norm_num : (0:ℕ) < 4) hi hk,
          hw' i k τ _ (by norm_num : (1:ℕ) < 4) hi hk, hw' i k τ _ (by norm_num : (2:ℕ) < 4) hi hk,
          hw' i k τ _ (by norm_num : (3:ℕ) < 4) hi hk]
        rfl
  have hnd : w'.ndim = w.ndim := by simp [ND.ndim, hw's, hs]
  have hax' : AxisIs axis w'.ndim p := by rw [hnd]; exact hax
  obtain ⟨p, rfl⟩ : ∃ p', p = p' + 1 := ⟨p - 1, by omega⟩
  have h4' : w'.shape.getD (p + 1) 0 = 4 := by
    rw [hs] at h4; rw [hw's]; simpa using h4
  rcases hg with hg | ⟨rfl, hid, hg⟩
  · obtain ⟨w2, rq, aq, P, R, q1, q2, q3, q4, q5, q6, q7⟩ := quat_mul_many (ts.map fun τ => (T τ).r) w' hax' h4' hp0
      (by rw [hw's]; simp)
    refine ⟨fs, T, _, _, w', w2, rq, aq, P, R, e1, hg, getArray1Fl_of e2, q1, q2, q3, q4, q5, q6.trans hw's, hT, ?_⟩
    intro i k τ js hi hk hj
    have hv : Valid w'.shape (i :: js) := by rw [hw's]; exact ⟨(List.getElem?_eq_some_iff.mp hi).1, hj⟩
    rw [q7 _ hv, hw' i k τ js hi hk hj]
    congr 1
    simp [List.getD_eq_getElem?_getD, hi]
  · obtain ⟨w2, rq, aq, P, R, q1, q2, q3, q4, q5, q6, q7⟩ := quat_mul_one 1 w' hax' h4' w'.ndim
    refine ⟨fs, T, _, _, w', w2, rq, aq, P, R, e1, hg, getArray1Fl_of e2, q1, q2, q3, q4, q5, q6.trans hw's, hT, ?_⟩
    intro i k τ js hi hk hj
    have hv : Valid w'.shape (i :: js) := by rw [hw's]; exact ⟨(List.getElem?_eq_some_iff.mp hi).1, hj⟩
    rw [q7 _ hv, hw' i k τ js hi hk hj, hid]
    rfl

end RBM
