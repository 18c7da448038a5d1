import Verif.Props.Angular
import Verif.Props.Series

/-!
C36, C37: velocities of frames (`lookup_linear_velocity`, `lookup_angular_velocity`).
-/

namespace RBM.Props

open RBM.Spec

theorem maybeFilter_shape {ext : Ext} {v w : ND (Option ℝ)} {p : ℕ} {c : Option ℝ} (h : maybeFilter ext v p c = .ok w) : w.shape = v.shape := by
  classical
  cases c with
  | none => cases h; rfl
  | some c =>
    simp only [maybeFilter] at h
    split_ifs at h <;> cases h
    all_goals rfl

theorem removeOutliers_shape {v : ND ℝ} {w : ND (Option ℝ)} {ts : List ℝ} {d : ℕ → ℝ} {th : ℝ} (h : removeOutliers v ts d th = .ok w) :
    w.shape = v.shape := by
  classical
  simp only [removeOutliers] at h
  split at h <;> cases h
  rfl

theorem maybeOutliers_shape {v : ND ℝ} {w : ND (Option ℝ)} {ts : List ℝ} {d : ℕ → ℝ} {p : ℕ} {th : Option ℝ}
    (h : maybeOutliers v ts d p th = .ok w) : w.shape = v.shape := by
  cases th with
  | none => cases h; rfl
  | some th =>
    simp only [maybeOutliers] at h
    split_ifs at h <;> first | (cases h; done) | exact removeOutliers_shape h

theorem npGradient_shape {a g : ND ℝ} {xs : List ℝ} {axis : ℤ} (h : npGradient a xs axis = .ok g) : g.shape = a.shape := by
  classical
  simp only [npGradient] at h
  split at h
  · cases h
  · split_ifs at h <;> cases h
    rfl

theorem estimateLinear_shape {ext : Ext} {tr : ND ℝ} {ts : List ℝ} {ta : ℤ} {o c : Option ℝ} {v : ND (Option ℝ)}
    (h : estimateLinear ext tr ts ta o c = .ok v) : v.shape = tr.shape := by
  simp only [estimateLinear, bind, Except.bind] at h
  cases hg : npGradient tr ts ta with
  | error e => rw [hg] at h; cases h
  | ok g =>
    rw [hg] at h
    simp only at h
    cases hn : normAxis ta tr.ndim with
    | none => rw [hn] at h; cases h
    | some p =>
      rw [hn] at h
      simp only at h
      cases hm : maybeOutliers g ts (secondDiff tr) p o with
      | error e => rw [hm] at h; cases h
      | ok w =>
        rw [hm] at h
        simp only at h
        rw [maybeFilter_shape h, maybeOutliers_shape hm, npGradient_shape hg]

theorem rawAngular_shape {ext : Ext} {r g : ND ℝ} {ts : List ℝ} {p : ℕ} {mode : String} (h : rawAngular ext r ts p mode = .ok g) :
    g.shape = r.shape.dropLast ++ [3] := by
  simp only [rawAngular] at h
  split at h
  · split_ifs at h
    all_goals split at h
    all_goals cases h
    rfl
  · split_ifs at h
    exact npGradient_shape h

theorem estimateAngular_shape {ext : Ext} {r : ND ℝ} {n : ℕ} (hs : r.shape = [n, 4]) {ts : List ℝ} {mode : String} {o c : Option ℝ}
    {v : ND (Option ℝ)} (h : estimateAngular ext r ts (-1) 0 mode o c = .ok v) : v.shape = [n, 3] := by
  have hd : r.ndim = 2 := by simp [ND.ndim, hs]
  rw [estimateAngular, if_neg (by omega), angularAxes_eq (pa := 1) (p := 0) (by rw [hd]; exact ⟨by omega, .inr rfl⟩)
    (by rw [hd]; exact ⟨by omega, .inl rfl⟩)] at h
  simp only [hd, bind, Except.bind] at h
  cases hg : rawAngular ext (r.swapaxes 1 (2 - 1)) ts (if 0 + 1 = 2 then 1 else 0) mode with
  | error e => rw [hg] at h; cases h
  | ok g =>
    rw [hg] at h
    simp only at h
    cases hm : maybeOutliers g ts (secondDiff (rotVecs (r.swapaxes 1 (2 - 1)))) (if 0 + 1 = 2 then 1 else 0) o with
    | error e => rw [hm] at h; cases h
    | ok w =>
      rw [hm] at h
      simp only at h
      cases hf : maybeFilter ext w (if 0 + 1 = 2 then 1 else 0) c with
      | error e => rw [hf] at h; cases h
      | ok u =>
        rw [hf] at h
        cases h
        have hu : u.shape = [n, 3] := by
          rw [maybeFilter_shape hf, maybeOutliers_shape hm, rawAngular_shape hg]
          simp [ND.swapaxes, hs, swapL]
        simp [ND.swapaxes, ND.ndim, hu, swapL]

/-- Every entry is a number. -/
def AllFinite (v : ND (Option ℝ)) : Prop := ∀ idx, Valid v.shape idx → v.get idx ≠ none

theorem finite_ok {v : ND (Option ℝ)} (h : AllFinite v) : v.finite = .ok (v.map fun o => o.getD 0) := by
  classical
  rw [ND.finite, if_neg]
  rintro ⟨idx, hv, hn⟩
  exact h idx hv hn

theorem finite_vec {v : ND (Option ℝ)} (h : AllFinite v) {n : ℕ} (hs : v.shape = [n, 3]) {k : ℕ} (hk : k < n) :
    HasVec v 1 [k, 0] (vec3 (v.map fun o => o.getD 0) 1 [k, 0]) := by
  intro j
  have hne := h [k, j] (by rw [hs]; exact ⟨hk, j.2, trivial⟩)
  obtain ⟨z, hz⟩ := Option.ne_none_iff_exists'.mp hne
  have e1 : v.get ([k, 0].set 1 (j : ℕ)) = some z := hz
  rw [e1]
  fin_cases j
  · exact (congrArg some (show (v.get [k, 0]).getD 0 = z by rw [show v.get [k, 0] = some z from hz]; rfl)).symm
  · exact (congrArg some (show (v.get [k, 1]).getD 0 = z by rw [show v.get [k, 1] = some z from hz]; rfl)).symm
  · exact (congrArg some (show (v.get [k, 2]).getD 0 = z by rw [show v.get [k, 2] = some z from hz]; rfl)).symm

theorem vectorsWithTs_of {sq : SquadFn} {s : State} {a b : ℕ} {arr out : ND ℝ} {ats ots : Option (List ℝ)}
    (h : s.transformVectors sq a arr (.byObj b) { timestamps := stampArg ats, returnTimestamps := true } = .ok (returned true out ots)) :
    s.vectorsWithTs sq a arr b { timestamps := stampArg ats } = .ok (out, ots) := by
  simp only [State.vectorsWithTs, bind, Except.bind, h, returned, if_true, Pure.pure, Except.pure]

section

variable {ext : Ext} {s : State} {h : List Event} {a ref rep : ℕ} {reference representIn : Option FrameRef}

/-- `lookup_linear_velocity` is the linear velocity estimated (C36, C39) from the position of the frame in
the reference frame, rotated from the reference frame to the representation frame at the time of the sample. -/
theorem C36_lookup (hsq : SquadLaw ext.squad) (x : XrOps) (hr : Reachable s h) (ha : a < s.size) (hb : ref < s.size) (hc : rep < s.size)
    (h1 : s.resolveOr a reference = .ok ref) (h2 : s.resolveOr a representIn = .ok rep)
    (hp : PathAll s a ref (FrameOk true s)) (hp' : PathAll s ref rep (FrameOk true s)) {l : List ℕ} (hl : Route s ref rep l)
    {tl : List Vec} {rl : List Quat} {ts : List ℝ} (he : s.lookupTransform ext.squad a (.byObj ref) = .ok (.many tl, .many rl, some ts))
    (o : VelArgs) {v : ND (Option ℝ)}
    (hv : estimateLinearVelocity ext x (.nd (ND.ofVecs (.many tl))) none none (.arr (ofList ts)) none o.outlier o.cutoff = .ok (.nd v))
    (hfin : AllFinite v) (hn : 2 ≤ (outStamps s l ts).length) :
    ∃ out, s.lookupLinearVelocity ext a reference representIn o = .ok (returned o.returnTimestamps out (some (outStamps s l ts))) ∧
      IsSeries out (some (outStamps s l ts)) ∧
      ∀ τ w, SampleAt out (some (outStamps s l ts)) τ w → ∃ B w0 k, IsTransformAt ext.squad s ref rep τ B ∧ ts[k]? = some τ ∧
        HasVec v 1 [k, 0] w0 ∧ w = rot B.r w0 := by
  obtain ⟨c0, la0, lb0, hc0, hla0, hlb0, _⟩ := id hp
  rcases lookup_facts ext.squad hsq hr ha hb hp (l := la0 ++ lb0.reverse) ⟨c0, la0, lb0, hc0, hla0, hlb0, rfl⟩ with ⟨A, e, _⟩ | ⟨_, ts', T, e, hinc, _, _⟩
  · rw [he] at e; simp at e
  rw [he] at e
  simp only [Except.ok.injEq, Prod.mk.injEq, Arr.many.injEq, Option.some.injEq] at e
  obtain ⟨et, er, rfl⟩ := e
  have htl : tl.length = ts.length := by rw [et]; simp
  have hXs : (ND.ofVecs (.many tl)).shape = [ts.length, 3] := by rw [← htl]; rfl
  obtain ⟨a1, a0⟩ := axes2 hXs
  rw [estimateLinear_plain ext x _ ts a1 a0 (by omega)] at hv
  have hv' : estimateLinear ext (ND.ofVecs (.many tl)) ts 0 o.outlier o.cutoff = .ok v := by
    have h0 : orDefault none 0 = (0 : ℤ) := rfl
    rw [h0] at hv
    cases hx : estimateLinear ext (ND.ofVecs (.many tl)) ts 0 o.outlier o.cutoff with
    | error e => rw [hx] at hv; cases hv
    | ok w => rw [hx] at hv; cases hv; rfl
  have hvs : v.shape = [ts.length, 3] := (estimateLinear_shape hv').trans hXs
  have hrows : linearRows ext (.many tl) ts o = .ok (v.map fun o => o.getD 0) := by
    simp only [linearRows, bind, Except.bind, hv', finite_ok hfin]
  have h2ts : 2 ≤ ts.length := hn.trans (List.length_filter_le _ _)
  obtain ⟨out, ots, f1, f2, f3, f4, _⟩ := transform_series ext.squad hsq hr hb hc hp' hl (arr := v.map fun o => o.getD 0) (ats := some ts)
    ⟨hvs, h2ts, hinc⟩ (fun y hy => by cases hy; exact hn) (by simp) true
  obtain rfl := f4 ts rfl
  refine ⟨out, ?_, f2, ?_⟩
  · simp only [State.lookupLinearVelocity, bind, Except.bind, h1, h2, he, hrows, vectorsWithTs_of f1, Pure.pure, Except.pure, pyReturn_eq]
  · intro τ w hw
    obtain ⟨B, w0, hB, ⟨k, hk, rfl⟩, e⟩ := f3 τ w hw
    exact ⟨B, _, k, hB, hk, finite_vec hfin hvs (List.getElem?_eq_some_iff.mp hk).1, e⟩

/-- `lookup_angular_velocity` is the angular velocity estimated (C37) from the orientation of the frame in
the reference frame, which is expressed in the frame itself, rotated from the frame to the representation frame
at the time of the sample. -/
theorem C37_lookup (hsq : SquadLaw ext.squad) (x : XrOps) (hr : Reachable s h) (ha : a < s.size) (hb : ref < s.size) (hc : rep < s.size)
    (h1 : s.resolveOr a reference = .ok ref) (h2 : s.resolveOr a representIn = .ok rep)
    (hp : PathAll s a ref (FrameOk true s)) (hp' : PathAll s a rep (FrameOk true s)) {l : List ℕ} (hl : Route s a rep l)
    {tl : List Vec} {rl : List Quat} {ts : List ℝ} (he : s.lookupTransform ext.squad a (.byObj ref) = .ok (.many tl, .many rl, some ts))
    (o : VelArgs) {v : ND (Option ℝ)}
    (hv : estimateAngularVelocity ext x (.nd (ND.ofQuats (.many rl))) none none (.arr (ofList ts)) none o.mode o.outlier o.cutoff = .ok (.nd v))
    (hfin : AllFinite v) (hn : 2 ≤ (outStamps s l ts).length) :
    ∃ out, s.lookupAngularVelocity ext a reference representIn o = .ok (returned o.returnTimestamps out (some (outStamps s l ts))) ∧
      IsSeries out (some (outStamps s l ts)) ∧
      ∀ τ w, SampleAt out (some (outStamps s l ts)) τ w → ∃ A w0 k, IsTransformAt ext.squad s a rep τ A ∧ ts[k]? = some τ ∧
        HasVec v 1 [k, 0] w0 ∧ w = rot A.r w0 := by
  obtain ⟨c0, la0, lb0, hc0, hla0, hlb0, _⟩ := id hp
  rcases lookup_facts ext.squad hsq hr ha hb hp (l := la0 ++ lb0.reverse) ⟨c0, la0, lb0, hc0, hla0, hlb0, rfl⟩ with ⟨A, e, _⟩ | ⟨_, ts', T, e, hinc, _, _⟩
  · rw [he] at e; simp at e
  rw [he] at e
  simp only [Except.ok.injEq, Prod.mk.injEq, Arr.many.injEq, Option.some.injEq] at e
  obtain ⟨et, er, rfl⟩ := e
  have hrl : rl.length = ts.length := by rw [er]; simp
  have hXs : (ND.ofQuats (.many rl)).shape = [ts.length, 4] := by rw [← hrl]; rfl
  obtain ⟨a1, a0⟩ := axes2 hXs
  rw [estimateAngular_plain ext x _ ts a1 a0 (by omega)] at hv
  have hv' : estimateAngular ext (ND.ofQuats (.many rl)) ts (-1) 0 o.mode o.outlier o.cutoff = .ok v := by
    have h0 : orDefault none 0 = (0 : ℤ) := rfl
    have h0' : orDefault none (-1) = (-1 : ℤ) := rfl
    rw [h0, h0'] at hv
    cases hx : estimateAngular ext (ND.ofQuats (.many rl)) ts (-1) 0 o.mode o.outlier o.cutoff with
    | error e => rw [hx] at hv; cases hv
    | ok w => rw [hx] at hv; cases hv; rfl
  have hvs : v.shape = [ts.length, 3] := estimateAngular_shape hXs hv'
  have hrows : angularRows ext (.many rl) ts o = .ok (v.map fun o => o.getD 0) := by
    simp only [angularRows, bind, Except.bind, hv', finite_ok hfin]
  have h2ts : 2 ≤ ts.length := hn.trans (List.length_filter_le _ _)
  obtain ⟨out, ots, f1, f2, f3, f4, _⟩ := transform_series ext.squad hsq hr ha hc hp' hl (arr := v.map fun o => o.getD 0) (ats := some ts)
    ⟨hvs, h2ts, hinc⟩ (fun y hy => by cases hy; exact hn) (by simp) true
  obtain rfl := f4 ts rfl
  refine ⟨out, ?_, f2, ?_⟩
  · simp only [State.lookupAngularVelocity, bind, Except.bind, h1, h2, he, hrows, vectorsWithTs_of f1, Pure.pure, Except.pure, pyReturn_eq]
  · intro τ w hw
    obtain ⟨B, w0, hB, ⟨k, hk, rfl⟩, e⟩ := f3 τ w hw
    exact ⟨B, _, k, hB, hk, finite_vec hfin hvs (List.getElem?_eq_some_iff.mp hk).1, e⟩

/-- Velocities lost by outlier removal are not made up by the lookups: if the velocity estimated for one of the samples is NaN, then the
result of `lookup_linear_velocity` is not finite (default `represent_in`, so that no sample is dropped by the change of representation). -/
theorem C39_lookup_nan (x : XrOps) (h1 : s.resolveOr a reference = .ok ref)
    (h2 : s.resolveOr a representIn = .ok ref) {tl : List Vec} {rl : List Quat} {ts : List ℝ} (hlen : tl.length = ts.length)
    (he : s.lookupTransform ext.squad a (.byObj ref) = .ok (.many tl, .many rl, some ts))
    (o : VelArgs) {v : ND (Option ℝ)}
    (hv : estimateLinearVelocity ext x (.nd (ND.ofVecs (.many tl))) none none (.arr (ofList ts)) none o.outlier o.cutoff = .ok (.nd v))
    (hnan : ¬ AllFinite v) : s.lookupLinearVelocity ext a reference representIn o = .error .nonfinite := by
  classical
  have hXs : (ND.ofVecs (.many tl)).shape = [ts.length, 3] := by rw [← hlen]; rfl
  obtain ⟨a1, a0⟩ := axes2 hXs
  rw [estimateLinear_plain ext x _ ts a1 a0 (by omega)] at hv
  have hv' : estimateLinear ext (ND.ofVecs (.many tl)) ts 0 o.outlier o.cutoff = .ok v := by
    have h0 : orDefault none 0 = (0 : ℤ) := rfl
    rw [h0] at hv
    cases hx : estimateLinear ext (ND.ofVecs (.many tl)) ts 0 o.outlier o.cutoff with
    | error e => rw [hx] at hv; cases hv
    | ok w => rw [hx] at hv; cases hv; rfl
  have hf : v.finite = .error .nonfinite := by
    rw [ND.finite, if_pos]
    simp only [AllFinite, not_forall, not_not] at hnan
    obtain ⟨idx, h3, h4⟩ := hnan
    exact ⟨idx, h3, h4⟩
  simp only [State.lookupLinearVelocity, bind, Except.bind, h1, h2, he, linearRows, hv', hf]

/-- The rows of a lookup are the coordinate changes at the timestamps. -/
theorem lookup_rows (hsq : SquadLaw ext.squad) (hr : Reachable s h) (ha : a < s.size) (hb : ref < s.size)
    (hp : PathAll s a ref (FrameOk true s)) {tl : List Vec} {rl : List Quat} {ts : List ℝ}
    (he : s.lookupTransform ext.squad a (.byObj ref) = .ok (.many tl, .many rl, some ts)) :
    StrictlyIncreasing ts ∧ tl.length = ts.length ∧ rl.length = ts.length ∧ ∀ (k : ℕ) τ, ts[k]? = some τ →
      ∃ A, IsTransformAt ext.squad s a ref τ A ∧ tl[k]? = some A.t ∧ rl[k]? = some A.r := by
  obtain ⟨c0, la0, lb0, hc0, hla0, hlb0, _⟩ := id hp
  rcases lookup_facts ext.squad hsq hr ha hb hp (l := la0 ++ lb0.reverse) ⟨c0, la0, lb0, hc0, hla0, hlb0, rfl⟩ with ⟨A, e, _⟩ | ⟨_, ts', T, e, hinc, hT, _⟩
  · rw [he] at e; simp at e
  rw [he] at e
  simp only [Except.ok.injEq, Prod.mk.injEq, Arr.many.injEq, Option.some.injEq] at e
  obtain ⟨rfl, rfl, rfl⟩ := e
  refine ⟨hinc, by simp, by simp, fun k τ hk => ⟨T τ, hT τ (List.mem_of_getElem? hk), ?_, ?_⟩⟩ <;> rw [List.getElem?_map, hk] <;> rfl

/-- A frame moving with constant velocity `V` in the reference frame: every sample of `lookup_linear_velocity` is
`V`, expressed in the representation frame, also with low-pass filter. -/
theorem C36_lookup_uniform (hsq : SquadLaw ext.squad) (hf : FiltLaw ext) (x : XrOps) (hr : Reachable s h) (ha : a < s.size) (hb : ref < s.size)
    (hc : rep < s.size) (h1 : s.resolveOr a reference = .ok ref) (h2 : s.resolveOr a representIn = .ok rep)
    (hp : PathAll s a ref (FrameOk true s)) (hp' : PathAll s ref rep (FrameOk true s)) {l : List ℕ} (hl : Route s ref rep l)
    {tl : List Vec} {rl : List Quat} {ts : List ℝ} (he : s.lookupTransform ext.squad a (.byObj ref) = .ok (.many tl, .many rl, some ts))
    (o : VelArgs) (ho : o.outlier = none) (hcut : ∀ c, o.cutoff = some c → 0 < c ∧ c < 1 ∧ 24 < ts.length)
    (hn : 2 ≤ (outStamps s l ts).length) {c V : Vec}
    (hmove : ∀ τ ∈ ts, ∀ A, IsTransformAt ext.squad s a ref τ A → A.t = c + τ • V) :
    ∃ out, s.lookupLinearVelocity ext a reference representIn o = .ok (returned o.returnTimestamps out (some (outStamps s l ts))) ∧
      IsSeries out (some (outStamps s l ts)) ∧
      ∀ τ w, SampleAt out (some (outStamps s l ts)) τ w → ∃ B, IsTransformAt ext.squad s ref rep τ B ∧ w = rot B.r V := by
  obtain ⟨hinc, htl, _, hrow⟩ := lookup_rows hsq hr ha hb hp he
  have hXs : (ND.ofVecs (.many tl)).shape = [ts.length, 3] := by rw [← htl]; rfl
  have h2ts : 2 ≤ ts.length := hn.trans (List.length_filter_le _ _)
  obtain ⟨a1, a0⟩ := axes2 hXs
  obtain ⟨v, v1, v2, v3⟩ := C36_exact hf x (ND.ofVecs (.many tl)) a1 a0 (by omega) (timed_of hXs rfl h2ts hinc) o.cutoff hcut
  have hval : ∀ k (j : Fin 3), k < ts.length → v.get [k, j] = some (V j) := by
    intro k j hk
    refine (v3 [k, j] (by rw [hXs]; exact ⟨hk, j.2, trivial⟩)).1 (c j) (V j) ?_
    intro i τ hi
    obtain ⟨A, hA, e1, _⟩ := hrow i τ hi
    have := congrFun (hmove τ (List.mem_of_getElem? hi) A hA) j
    have hg : (ND.ofVecs (.many tl)).get [i, j] = A.t j := by
      show tl.getD i 0 (Fin.ofNat 3 (j : ℕ)) = A.t j
      rw [List.getD_eq_getElem?_getD, e1]
      fin_cases j <;> rfl
    show (ND.ofVecs (.many tl)).get [i, j] = _
    rw [hg, this]
    simp only [Pi.add_apply, Pi.smul_apply, smul_eq_mul]; ring
  have hfin : AllFinite v := by
    intro idx hv
    rw [v2, hXs] at hv
    match idx, hv with
    | [k, j], ⟨hk, hj, _⟩ => rw [hval k ⟨j, hj⟩ hk]; simp
  obtain ⟨out, o1, o2, o3⟩ := C36_lookup hsq x hr ha hb hc h1 h2 hp hp' hl he o (v := v) (by rw [ho]; exact v1) hfin hn
  refine ⟨out, o1, o2, fun τ w hw => ?_⟩
  obtain ⟨B, w0, k, hB, hk, hw0, e⟩ := o3 τ w hw
  refine ⟨B, hB, ?_⟩
  have : w0 = V := by
    funext j
    have := hw0 j
    have h' := hval k j (List.getElem?_eq_some_iff.mp hk).1
    exact Option.some.inj (this.symm.trans h')
  rw [e, this]

theorem quat4_ofQuats {rl : List Quat} {k : ℕ} {q : Quat} (h : rl[k]? = some q) : quat4 (ND.ofQuats (.many rl)) 1 [k, 0] = q := by
  have : ∀ c, (ND.ofQuats (.many rl)).get [k, c] = qcomp q c := by
    intro c
    show qcomp (rl.getD k 0) c = _
    rw [List.getD_eq_getElem?_getD, h]; rfl
  simp only [quat4, List.set_cons_succ, List.set_cons_zero, this]
  rfl

theorem quatRate_ofQuats {rl : List Quat} {ts : List ℝ} (hl : rl.length = ts.length) (k : ℕ) :
    quatRate ext (ND.ofQuats (.many rl)) 1 0 ts [k, 0] = quatDeriv ext rl ts k := by
  have : ∀ c, (List.range ts.length).map (fun m => (ND.ofQuats (.many rl)).get (([k, 0].set 1 c).set 0 m)) = rl.map (qcomp · c) := by
    intro c
    refine List.ext_getElem (by simp [hl]) fun m h1 h2 => ?_
    simp only [List.getElem_map, List.getElem_range]
    show qcomp (rl.getD m 0) c = _
    rw [getD_eq (by simpa using h2)]
  simp only [quatRate, this]
  rfl

/-- The estimate from exact numerical derivatives of the orientation. -/
theorem angular_estimate_exact (hsq : SquadLaw ext.squad) (x : XrOps) (hr : Reachable s h) (ha : a < s.size) (hb : ref < s.size)
    (hp : PathAll s a ref (FrameOk true s))
    {tl : List Vec} {rl : List Quat} {ts : List ℝ} (he : s.lookupTransform ext.squad a (.byObj ref) = .ok (.many tl, .many rl, some ts))
    (hacc : ext.derivErr ts = none) {q : ℝ → Quat} (hu : ∀ t, IsUnitQ (q t))
    (hq : ∀ τ ∈ ts, ∀ A, IsTransformAt ext.squad s a ref τ A → A.r = q τ)
    (hd : ∀ (k : ℕ) τ, ts[k]? = some τ → HasDerivAt q (quatDeriv ext rl ts k) τ) :
    ∃ v, estimateAngularVelocity ext x (.nd (ND.ofQuats (.many rl))) none none (.arr (ofList ts)) none "quaternion" none none = .ok (.nd v) ∧
      AllFinite v ∧ ∀ (k : ℕ) τ w, ts[k]? = some τ → HasVec v 1 [k, 0] w → IsBodyRate q τ w := by
  obtain ⟨hinc, _, hrl, hrow⟩ := lookup_rows hsq hr ha hb hp he
  have hXs : (ND.ofQuats (.many rl)).shape = [ts.length, 4] := by rw [← hrl]; rfl
  obtain ⟨a1, a0⟩ := axes2 hXs
  obtain ⟨v, v1, v2, v3⟩ := C37_quaternion_mode x hacc a1 a0 (by omega) (by simp [hXs]) (by simp [hXs])
  have hv2 : v.shape = [ts.length, 3] := by rw [v2, hXs]; rfl
  have hrate : ∀ (k : ℕ) τ, ts[k]? = some τ → ∃ ω, IsBodyRate q τ ω ∧ HasVec v 1 [k, 0] ω := by
    intro k τ hk
    obtain ⟨A, hA, _, e1⟩ := hrow k τ hk
    refine v3 [k, 0] (by rw [hXs]; exact ⟨(List.getElem?_eq_some_iff.mp hk).1, by omega, trivial⟩) q τ hk hu ?_ ?_
    · rw [quat4_ofQuats e1]; exact hq τ (List.mem_of_getElem? hk) A hA
    · rw [quatRate_ofQuats hrl]; exact hd k τ hk
  refine ⟨v, v1, ?_, ?_⟩
  · intro idx hv
    rw [hv2] at hv
    match idx, hv with
    | [k, j], ⟨hk, hj, _⟩ =>
      obtain ⟨ω, _, hω⟩ := hrate k ts[k] (List.getElem?_eq_getElem hk)
      have : v.get [k, j] = some (ω ⟨j, hj⟩) := hω ⟨j, hj⟩
      rw [this]; simp
  · intro k τ w hk hw
    obtain ⟨ω, g1, g2⟩ := hrate k τ hk
    have : w = ω := funext fun j => Option.some.inj ((hw j).symm.trans (g2 j))
    rw [this]; exact g1

/-- Where the numerical derivative of the orientation is exact, `lookup_angular_velocity` wrt a frame, represented in
the same frame, is the angular velocity in this frame. -/
theorem C37_lookup_exact (hsq : SquadLaw ext.squad) (x : XrOps) (hr : Reachable s h) (ha : a < s.size) (hb : ref < s.size)
    (h1 : s.resolveOr a reference = .ok ref) (h2 : s.resolveOr a representIn = .ok ref)
    (hp : PathAll s a ref (FrameOk true s)) 
    {tl : List Vec} {rl : List Quat} {ts : List ℝ} (he : s.lookupTransform ext.squad a (.byObj ref) = .ok (.many tl, .many rl, some ts))
    (hacc : ext.derivErr ts = none) (h2ts : 2 ≤ ts.length) (rt st : Bool) {q : ℝ → Quat} (hu : ∀ t, IsUnitQ (q t))
    (hq : ∀ τ ∈ ts, ∀ A, IsTransformAt ext.squad s a ref τ A → A.r = q τ)
    (hd : ∀ (k : ℕ) τ, ts[k]? = some τ → HasDerivAt q (quatDeriv ext rl ts k) τ) :
    ∃ out, s.lookupAngularVelocity ext a reference representIn { returnTimestamps := rt, allowStatic := st } = .ok (returned rt out (some ts)) ∧
      IsSeries out (some ts) ∧ ∀ τ w, SampleAt out (some ts) τ w → IsSpaceRate q τ w := by
  obtain ⟨c0, la0, lb0, hc0, hla0, hlb0, _⟩ := id hp
  have hroute : Route s a ref (la0 ++ lb0.reverse) := ⟨c0, la0, lb0, hc0, hla0, hlb0, rfl⟩
  have hst : outStamps s (la0 ++ lb0.reverse) ts = ts := by
    rcases lookup_facts ext.squad hsq hr ha hb hp hroute with ⟨A, e, _⟩ | ⟨_, ts', T, e, _, _, e'⟩
    · rw [he] at e; simp at e
    · rw [he] at e
      simp only [Except.ok.injEq, Prod.mk.injEq, Option.some.injEq] at e
      rw [e.2.2]; exact e'
  obtain ⟨v, v1, hfin, hrate⟩ := angular_estimate_exact hsq x hr ha hb hp he hacc hu hq hd
  obtain ⟨out, o1, o2, o3⟩ := C37_lookup hsq x hr ha hb hb h1 h2 hp hp hroute he { returnTimestamps := rt, allowStatic := st } v1 hfin (by rw [hst]; exact h2ts)
  rw [hst] at o1 o2 o3
  refine ⟨out, o1, o2, fun τ w hw => ?_⟩
  obtain ⟨A, w0, k, hA, hk, hw0, e⟩ := o3 τ w hw
  rw [e, hq τ (List.mem_of_getElem? hk) A hA]
  exact isBodyRate_space (hu τ).ne_zero (hrate k τ w0 hk hw0)

/-- Represented in the frame itself, it is the angular velocity in the rotating frame. -/
theorem C37_lookup_exact_body (hsq : SquadLaw ext.squad) (x : XrOps) (hr : Reachable s h) (ha : a < s.size) (hb : ref < s.size)
    (h1 : s.resolveOr a reference = .ok ref) (h2 : s.resolveOr a representIn = .ok a)
    (hp : PathAll s a ref (FrameOk true s)) 
    {tl : List Vec} {rl : List Quat} {ts : List ℝ} (he : s.lookupTransform ext.squad a (.byObj ref) = .ok (.many tl, .many rl, some ts))
    (hacc : ext.derivErr ts = none) (h2ts : 2 ≤ ts.length) (rt st : Bool) {q : ℝ → Quat} (hu : ∀ t, IsUnitQ (q t))
    (hq : ∀ τ ∈ ts, ∀ A, IsTransformAt ext.squad s a ref τ A → A.r = q τ)
    (hd : ∀ (k : ℕ) τ, ts[k]? = some τ → HasDerivAt q (quatDeriv ext rl ts k) τ) :
    ∃ out, s.lookupAngularVelocity ext a reference representIn { returnTimestamps := rt, allowStatic := st } = .ok (returned rt out (some ts)) ∧
      IsSeries out (some ts) ∧ ∀ τ w, SampleAt out (some ts) τ w → IsBodyRate q τ w := by
  obtain ⟨hinc, _, _, _⟩ := lookup_rows hsq hr ha hb hp he
  have hst : outStamps s [] ts = ts := outStamps_nil hinc
  obtain ⟨v, v1, hfin, hrate⟩ := angular_estimate_exact hsq x hr ha hb hp he hacc hu hq hd
  obtain ⟨out, o1, o2, o3⟩ := C37_lookup hsq x hr ha hb ha h1 h2 hp pathAll_self route_self he { returnTimestamps := rt, allowStatic := st } v1 hfin
    (by rw [hst]; exact h2ts)
  rw [hst] at o1 o2 o3
  refine ⟨out, o1, o2, fun τ w hw => ?_⟩
  obtain ⟨A, w0, k, hA, hk, hw0, e⟩ := o3 τ w hw
  obtain rfl := isTransformAt_self hr.wf hA
  have : rot (1 : Quat) w0 = w0 := rot_one w0
  rw [e]
  change IsBodyRate q τ (rot (1 : Quat) w0)
  rw [this]
  exact hrate k τ w0 hk hw0

/-- Static paths: zero velocity without timestamps if allowed, otherwise an error. -/
theorem lookup_static_zero (h1 : s.resolveOr a reference = .ok ref) (h2 : s.resolveOr a representIn = .ok rep)
    {t : Arr Vec} {r : Arr Quat} (he : s.lookupTransform ext.squad a (.byObj ref) = .ok (t, r, none)) (o : VelArgs) :
    s.lookupAngularVelocity ext a reference representIn o = (if o.allowStatic then .ok (.withTs zeros3 none) else .error .valueError) ∧
    s.lookupLinearVelocity ext a reference representIn o = (if o.allowStatic then .ok (.withTs zeros3 none) else .error .valueError) ∧
    s.lookupTwist ext a reference representIn o = (if o.allowStatic then .ok (.triple zeros3 zeros3 none) else .error .valueError) := by
  refine ⟨?_, ?_, ?_⟩
  · simp only [State.lookupAngularVelocity, bind, Except.bind, h1, h2, he]; cases o.allowStatic <;> rfl
  · simp only [State.lookupLinearVelocity, bind, Except.bind, h1, h2, he]; cases o.allowStatic <;> rfl
  · simp only [State.lookupTwist, bind, Except.bind, h1, h2, he]; cases o.allowStatic <;> rfl

end

end RBM.Props
