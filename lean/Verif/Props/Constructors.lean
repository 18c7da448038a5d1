import Verif.Spec.Constructors
import Verif.Props.Frames
import Verif.Props.LookupTop
import Verif.Props.BestFit
import Verif.Props.LookupExamples

/-!
C68: alternative constructors.
-/

namespace RBM.Props

open RBM.Spec

theorem construct_resolve {s : State} {ref : FrameRef} {p : ℕ} (h : s.resolve ref = .ok p) (hp : p < s.size) (n : Option String) (args : FrameArgs) :
    s.construct n (some ref) args = s.construct n (some (.byObj p)) args := by
  have h2 : s.resolve (.byObj p) = .ok p := by simp [State.resolve, hp]
  simp only [State.construct, h, h2]

theorem timed_frame {sq : SquadFn} (hsq : SquadLaw sq) {s : State} {h : List Event} (hr : Reachable s h) {ref : FrameRef} {p : ℕ}
    (href : s.resolve ref = .ok p) (hp : p < s.size) (n : Option String) (tr ro : Option (ND ℝ)) (l : List ℝ) (inverse discrete : Bool)
    (htr : ∀ a, tr = some a → a.shape = [l.length, 3]) (hro : ∀ a, ro = some a → a.shape = [l.length, 4])
    (hinv : inverse = true → ∀ a, ro = some a → ∀ k < l.length, quatRow a k ≠ 0) :
    ∃ s', s.construct n (some ref) ⟨tr, ro, some (ofList l), inverse, discrete⟩ = (s', .ok s.size) ∧
      TimedFrame sq s' s.size p inverse discrete l (fun k => ⟨tr.elim 0 fun a => vecRow a k, ro.elim 1 fun a => quatRow a k⟩) := by
  rw [construct_resolve href hp]
  set args : FrameArgs := ⟨tr, ro, some (ofList l), inverse, discrete⟩ with hargs
  have hn : nStamps args = some l.length := by simp [nStamps, hargs, ofList]
  have hst : argStamps args = some l := by
    simp only [argStamps, hargs, Option.map_some, ofList, List.headD_cons, Option.some.injEq]
    apply List.ext_getElem?
    intro k
    by_cases hk : k < l.length
    · simp [hk]
    · simp [hk]
  have hok : ArgsOk args := by
    refine ⟨?_, ?_, ?_, ?_⟩
    · rintro t rfl'; simp only [hargs, Option.some.injEq] at rfl'; exact ⟨l.length, by rw [← rfl']; rfl⟩
    · intro x hx; rw [hn]; exact htr x hx
    · intro x hx; rw [hn]; exact hro x hx
    · intro _; simp [hargs]
  have hpose : ∀ k, argPose args (some k) = ⟨tr.elim 0 fun a => vecRow a k, ro.elim 1 fun a => quatRow a k⟩ := by
    intro k
    simp only [argPose, hargs]
    congr 1
    · cases tr with
      | none => rfl
      | some a => funext i; fin_cases i <;> rfl
    · cases ro <;> rfl
  have hrow : ∀ k, argRow args k → ∃ j, k = some j ∧ j < l.length := by
    intro k hk; simpa only [argRow, hn] using hk
  obtain ⟨c1, -⟩ := C29_constructor args hr hp n (by
    intro hi k hk
    obtain ⟨j, rfl, hj⟩ := hrow k hk
    rw [hpose]
    cases hro' : ro with
    | none => simp
    | some a => exact hinv hi a hro' j hj)
  obtain ⟨d1, d2, d3⟩ := c1 hok
  refine ⟨(s.construct n (some (.byObj p)) args).1, Prod.ext rfl d1, d2, ?_, ?_⟩
  · intro hi
    rw [d3 hi]
    simp only [dataOf, hn, hst, hpose]
    rfl
  · intro h2 hinc hu hd
    cases hi : inverse with
    | true =>
      have := (C18_inverse_continuous sq hsq hr hp n hok hi hd hn h2 hst hinc (by intro k hk; rw [hpose]; exact hu k hk)).2
      simp only [hpose] at this
      simpa using this
    | false =>
      obtain ⟨s2, hw2, hpar, hsz, e⟩ := construct_parent hr hp n args
      have hw3 : WF (s.construct n (some (.byObj p)) args).1 := by
        rw [e]
        split
        · exact hw2
        · split
          · exact hw2
          · exact wf_setData hw2 _ _
      have hdat := d3 hi
      simp only [dataOf, hn, hst, hpose] at hdat
      have hdisc : args.discrete = false := hd
      rw [hdisc] at hdat
      exact (lookup_up_continuous sq hsq hw3 d2 hdat (.continuous (by simp) (by simp) h2 hinc (by
        intro q hq
        obtain ⟨k, hk, rfl⟩ := List.mem_map.mp hq
        exact hu k (List.mem_range.mp hk)))).1

theorem itemOfVars_stamps {vars : List (String × DArr)} {name : String} {l : List ℝ} (h1 : ∃ v ∈ vars, ∃ c, dictGet v.2.info.coords name = some c)
    (h2 : ∀ v ∈ vars, name ∈ v.2.info.dims ∨ (∃ c, dictGet v.2.info.coords name = some c) →
      ∃ c, dictGet v.2.info.coords name = some c ∧ c.vals = .num (ofList l)) : itemOfVars vars name = .ok (ofList l) := by
  induction vars with
  | nil => simp at h1
  | cons v vs ih =>
    simp only [itemOfVars]
    cases hc : dictGet v.2.info.coords name with
    | some c =>
      obtain ⟨c', e1, e2⟩ := h2 v (by simp) (.inr ⟨c, hc⟩)
      rw [hc] at e1
      obtain rfl := Option.some.inj e1
      simp [Coord.numbers, e2]
    | none =>
      by_cases hd : name ∈ v.2.info.dims
      · obtain ⟨c', e1, -⟩ := h2 v (by simp) (.inl hd)
        rw [hc] at e1; simp at e1
      · simp only [hd, if_false]
        refine ih ?_ (fun w hw => h2 w (List.mem_cons_of_mem _ hw))
        obtain ⟨w, hw, c, hwc⟩ := h1
        rcases List.mem_cons.mp hw with rfl | hw
        · rw [hc] at hwc; simp at hwc
        · exact ⟨w, hw, c, hwc⟩

theorem makeDataset_vars {t r : ND ℝ} {f : Option String} {ts : Option (List ℝ)} {ds : DSet} (h : makeTransformOrPoseDataset t r f ts false = .ok ds) :
    ∃ v1 v2, ds.vars = [("translation", v1), ("rotation", v2)] := by
  simp only [makeTransformOrPoseDataset, dsVar, bind, Except.bind, Pure.pure, Except.pure] at h
  split at h
  · simp at h
  · rename_i v1 e1
    split at h
    · simp at h
    · rename_i v2 e2
      split at e1
      · simp at e1
      · split at e2
        · simp at e2
        · simp only [Except.ok.injEq] at e1 e2 h
          subst e1 e2 h
          exact ⟨_, _, rfl⟩

section

variable {sq : SquadFn} {s : State} {h : List Event} {ref : FrameRef} {p : ℕ}

/-- `from_dataset`: the frame has the translations and rotations of the dataset at the timestamps of its coordinate. -/
theorem C68_dataset (hsq : SquadLaw sq) (hr : Reachable s h) (href : s.resolve ref = .ok p) (hp : p < s.size) {ds : DSet}
    {translation rotation timestamps : String} {tr ro : DArr} {l : List ℝ} (ht : ds.var translation = some tr) (hro : ds.var rotation = some ro)
    (hl : StampsIn ds timestamps l) (hts : tr.data.shape = [l.length, 3]) (hrs : ro.data.shape = [l.length, 4]) (name : Option String)
    (inverse discrete : Bool) (hinv : inverse = true → ∀ k < l.length, quatRow ro.data k ≠ 0) :
    ∃ s', s.fromDataset ds translation rotation timestamps (some ref) name inverse discrete = (s', .ok s.size) ∧
      TimedFrame sq s' s.size p inverse discrete l (fun k => ⟨vecRow tr.data k, quatRow ro.data k⟩) := by
  obtain ⟨s', e1, e2⟩ := timed_frame hsq hr href hp name (some tr.data) (some ro.data) l inverse discrete (by rintro a ⟨⟩; exact hts)
    (by rintro a ⟨⟩; exact hrs) (by rintro hi a ⟨⟩; exact hinv hi)
  refine ⟨s', ?_, e2⟩
  simp only [State.fromDataset, DSet.item, ht, hro, hl.1, itemOfVars_stamps hl.2.1 hl.2.2, e1]

/-- Arrays that do not fit the timestamps raise ValueError. -/
theorem C68_dataset_refused (hr : Reachable s h) (href : s.resolve ref = .ok p) (hp : p < s.size) {ds : DSet}
    {translation rotation timestamps : String} {tr ro : DArr} {l : List ℝ} (ht : ds.var translation = some tr) (hro : ds.var rotation = some ro)
    (hl : StampsIn ds timestamps l) (hbad : tr.data.shape ≠ [l.length, 3] ∨ ro.data.shape ≠ [l.length, 4]) (name : Option String) (discrete : Bool) :
    (s.fromDataset ds translation rotation timestamps (some ref) name false discrete).2 = .error .valueError := by
  simp only [State.fromDataset, DSet.item, ht, hro, hl.1, itemOfVars_stamps hl.2.1 hl.2.2]
  rw [construct_resolve href hp]
  refine (C29_constructor _ hr hp name (by simp)).2 ?_
  rintro ⟨-, g2, g3, -⟩
  rcases hbad with hb | hb
  · exact hb (g2 _ rfl)
  · exact hb (g3 _ rfl)

/-- An unknown variable raises KeyError and nothing changes. -/
theorem C68_dataset_missing {ds : DSet} (s : State) {translation rotation timestamps : String} (parent : Option FrameRef) (name : Option String)
    (inverse discrete : Bool)
    (hn : ∃ n ∈ [translation, rotation, timestamps], ds.var n = none ∧ ∀ v ∈ ds.vars, dictGet v.2.info.coords n = none ∧ n ∉ v.2.info.dims) :
    ∃ e, s.fromDataset ds translation rotation timestamps parent name inverse discrete = (s, .error e) := by
  obtain ⟨n, hn, h1, h2⟩ := hn
  have h3 : ds.item n = .error .keyError := by
    simp only [DSet.item, h1]
    have : ∀ vars : List (String × DArr), (∀ v ∈ vars, dictGet v.2.info.coords n = none ∧ n ∉ v.2.info.dims) → itemOfVars vars n = .error .keyError := by
      intro vars
      induction vars with
      | nil => intro _; rfl
      | cons v vs ih =>
        intro hv
        simp only [itemOfVars, (hv v (by simp)).1, (hv v (by simp)).2, if_false]
        exact ih fun w hw => hv w (List.mem_cons_of_mem _ hw)
    exact this _ h2
  simp only [State.fromDataset]
  simp only [List.mem_cons, List.not_mem_nil, or_false] at hn
  cases ht : ds.item translation with
  | error e => exact ⟨e, rfl⟩
  | ok t =>
    simp only
    cases hro : ds.item rotation with
    | error e => exact ⟨e, rfl⟩
    | ok r =>
      simp only
      cases hts : ds.item timestamps with
      | error e => exact ⟨e, rfl⟩
      | ok ts =>
        rcases hn with rfl | rfl | rfl
        · rw [ht] at h3; simp at h3
        · rw [hro] at h3; simp at h3
        · rw [hts] at h3; simp at h3

/-- `from_translation_dataarray`: a frame that keeps the orientation of its parent. -/
theorem C68_translation (hsq : SquadLaw sq) (hr : Reachable s h) (href : s.resolve ref = .ok p) (hp : p < s.size) {da : DArr} {timestamps : String} {l : List ℝ}
    {c : Coord} (hc : dictGet da.info.coords timestamps = some c) (hl : c.vals = .num (ofList l)) (hs : da.data.shape = [l.length, 3])
    (name : Option String) (inverse discrete : Bool) :
    ∃ s', s.fromTranslationDataArray da timestamps (some ref) name inverse discrete = (s', .ok s.size) ∧
      TimedFrame sq s' s.size p inverse discrete l (fun k => ⟨vecRow da.data k, 1⟩) := by
  obtain ⟨s', e1, e2⟩ := timed_frame hsq hr href hp name (some da.data) none l inverse discrete (by rintro a ⟨⟩; exact hs) (by simp) (by simp)
  refine ⟨s', ?_, e2⟩
  simp only [State.fromTranslationDataArray, DArr.item, hc, Coord.numbers, hl, e1]

/-- `from_rotation_dataarray`: a frame whose origin is that of its parent. -/
theorem C68_rotation (hsq : SquadLaw sq) (hr : Reachable s h) (href : s.resolve ref = .ok p) (hp : p < s.size) {da : DArr} {timestamps : String} {l : List ℝ}
    {c : Coord} (hc : dictGet da.info.coords timestamps = some c) (hl : c.vals = .num (ofList l)) (hs : da.data.shape = [l.length, 4])
    (name : Option String) (inverse discrete : Bool) (hinv : inverse = true → ∀ k < l.length, quatRow da.data k ≠ 0) :
    ∃ s', s.fromRotationDataArray da timestamps (some ref) name inverse discrete = (s', .ok s.size) ∧
      TimedFrame sq s' s.size p inverse discrete l (fun k => ⟨0, quatRow da.data k⟩) := by
  obtain ⟨s', e1, e2⟩ := timed_frame hsq hr href hp name none (some da.data) l inverse discrete (by simp) (by rintro a ⟨⟩; exact hs)
    (by rintro hi a ⟨⟩; exact hinv hi)
  refine ⟨s', ?_, e2⟩
  simp only [State.fromRotationDataArray, DArr.item, hc, Coord.numbers, hl, e1]

theorem counting_eq (n : ℕ) : counting n = ofList ((List.range n).map fun k : ℕ => (k : ℝ)) := by
  simp only [counting, ofList, List.length_map, List.length_range]
  congr 1
  funext idx
  split_ifs with h
  · generalize idx.getD 0 0 = j at h ⊢
    rw [List.getD_eq_getElem?_getD, List.getElem?_map, List.getElem?_range h]; rfl
  · rw [List.getD_eq_getElem?_getD, List.getElem?_eq_none (by simpa using h)]; rfl

/-- A dimension without coordinate counts the samples from 0: row `k` of the array is the pose at time `k`. -/
theorem C68_dimension (hsq : SquadLaw sq) (hr : Reachable s h) (href : s.resolve ref = .ok p) (hp : p < s.size) {da : DArr} {timestamps : String} {n : ℕ}
    (hc : dictGet da.info.coords timestamps = none) (name : Option String) (inverse discrete : Bool) :
    (∀ dim, da.info.dims = [timestamps, dim] → da.data.shape = [n, 3] →
      ∃ s', s.fromTranslationDataArray da timestamps (some ref) name inverse discrete = (s', .ok s.size) ∧
        TimedFrame sq s' s.size p inverse discrete ((List.range n).map fun k : ℕ => (k : ℝ)) (fun k => ⟨vecRow da.data k, 1⟩)) ∧
    (∀ dim, da.info.dims = [timestamps, dim] → da.data.shape = [n, 4] → (inverse = true → ∀ k < n, quatRow da.data k ≠ 0) →
      ∃ s', s.fromRotationDataArray da timestamps (some ref) name inverse discrete = (s', .ok s.size) ∧
        TimedFrame sq s' s.size p inverse discrete ((List.range n).map fun k : ℕ => (k : ℝ)) (fun k => ⟨0, quatRow da.data k⟩)) ∧
    (timestamps ∉ da.info.dims → s.fromTranslationDataArray da timestamps (some ref) name inverse discrete = (s, .error .keyError) ∧
      s.fromRotationDataArray da timestamps (some ref) name inverse discrete = (s, .error .keyError)) := by
  refine ⟨fun dim hd hs => ?_, fun dim hd hs hinv => ?_, fun hd => ?_⟩
  · obtain ⟨s', e1, e2⟩ := timed_frame hsq hr href hp name (some da.data) none ((List.range n).map fun k : ℕ => (k : ℝ)) inverse discrete
      (by rintro a ⟨⟩; simpa using hs) (by simp) (by simp)
    refine ⟨s', ?_, e2⟩
    simp only [State.fromTranslationDataArray, DArr.item, hc, hd, hs, List.mem_cons, true_or, if_true, List.idxOf_cons_self, List.getD_cons_zero, counting_eq, e1]
  · obtain ⟨s', e1, e2⟩ := timed_frame hsq hr href hp name none (some da.data) ((List.range n).map fun k : ℕ => (k : ℝ)) inverse discrete
      (by simp) (by rintro a ⟨⟩; simpa using hs) (by rintro hi a ⟨⟩; simpa using hinv hi)
    refine ⟨s', ?_, e2⟩
    simp only [State.fromRotationDataArray, DArr.item, hc, hd, hs, List.mem_cons, true_or, if_true, List.idxOf_cons_self, List.getD_cons_zero, counting_eq, e1]
  · simp only [State.fromTranslationDataArray, State.fromRotationDataArray, DArr.item, hc, hd, if_false, and_self]

theorem argPose_quatArr (q : Quat) (inverse : Bool) : argPose ⟨none, some (quatArr q), none, inverse, false⟩ none = ⟨0, q⟩ := by
  simp only [argPose, quatArr]
  congr 1

theorem matrix_frame (sq : SquadFn) (ext : FitExt) (he : FitLaw ext) (hr : Reachable s h) (href : s.resolve ref = .ok p) (hp : p < s.size) {mat : ND ℝ}
    (hs : mat.shape = [3, 3]) (name : Option String) (inverse : Bool) :
    ∃ s', s.fromRotationMatrix ext mat (some ref) name inverse = (s', .ok s.size) ∧ s'.parent s.size = some p ∧
      s'.lookupTransform sq (if inverse then p else s.size) (.byObj (if inverse then s.size else p)) = .ok (.one 0, .one (ext.quatOf (matOf mat)), none) := by
  set q := ext.quatOf (matOf mat) with hq
  have hne : q ≠ 0 := (he.unit _).ne_zero
  set args : FrameArgs := ⟨none, some (quatArr q), none, inverse, false⟩ with hargs
  have hn : nStamps args = none := rfl
  have hok : ArgsOk args := by
    refine ⟨by simp [hargs], by intro x hx; simp [hargs] at hx, ?_, by simp [hargs]⟩
    intro x hx
    simp only [hargs, Option.some.injEq] at hx
    rw [← hx]; rfl
  have hpose : argPose args none = ⟨0, q⟩ := argPose_quatArr q inverse
  obtain ⟨c1, -⟩ := C29_constructor args hr hp name (by
    intro hi k hk
    have : k = none := by simpa only [argRow, hn] using hk
    rw [this, hpose]; exact hne)
  obtain ⟨d1, d2, d3⟩ := c1 hok
  refine ⟨(s.construct name (some (.byObj p)) args).1, ?_, d2, ?_⟩
  · simp only [State.fromRotationMatrix, hs, ne_eq, not_true, if_false]
    rw [construct_resolve href hp]
    exact Prod.ext rfl d1
  · cases hi : inverse with
    | true =>
      have := (C18_inverse_static sq hr hp name hok hi rfl (by rw [hpose]; exact hne)).2
      rw [hpose] at this
      simpa using this
    | false =>
      obtain ⟨s2, hw2, hpar, hsz, e⟩ := construct_parent hr hp name args
      have hw3 : WF (s.construct name (some (.byObj p)) args).1 := by
        rw [e]
        split
        · exact hw2
        · split
          · exact hw2
          · exact wf_setData hw2 _ _
      have hdat := d3 hi
      simp only [dataOf, hn, hpose] at hdat
      exact (lookup_static_parent sq hw3 d2 (P := ⟨0, q⟩) ⟨false, hdat⟩ hne).1

/-- `from_rotation_matrix` with a rotation matrix: vectors of the frame are rotated by the matrix into the parent (`inverse`: vectors of the parent into the
frame). -/
theorem C68_matrix (sq : SquadFn) (ext : FitExt) (he : FitLaw ext) (hr : Reachable s h) (href : s.resolve ref = .ok p) (hp : p < s.size) {mat : ND ℝ}
    (hs : mat.shape = [3, 3]) (horth : (matOf mat).transpose * matOf mat = 1) (hdet : (matOf mat).det = 1) (name : Option String) (inverse : Bool) :
    ∃ s' q, s.fromRotationMatrix ext mat (some ref) name inverse = (s', .ok s.size) ∧ s'.parent s.size = some p ∧
      s'.lookupTransform sq (if inverse then p else s.size) (.byObj (if inverse then s.size else p)) = .ok (.one 0, .one q, none) ∧
      IsUnitQ q ∧ ∀ v, rot q v = (matOf mat).mulVec v := by
  obtain ⟨s', e1, e2, e3⟩ := matrix_frame sq ext he hr href hp hs name inverse
  refine ⟨s', _, e1, e2, e3, he.unit _, fun v => ?_⟩
  rw [← rotMat_mulVec (he.unit _).ne_zero, quatOf_rot he horth hdet]

/-- Any other 3 × 3 matrix is replaced by a rotation that agrees with it best. -/
theorem C68_matrix_nearest (sq : SquadFn) (ext : FitExt) (he : FitLaw ext) (hr : Reachable s h) (href : s.resolve ref = .ok p) (hp : p < s.size) {mat : ND ℝ}
    (hs : mat.shape = [3, 3]) (name : Option String) (inverse : Bool) :
    ∃ s' q, s.fromRotationMatrix ext mat (some ref) name inverse = (s', .ok s.size) ∧
      s'.lookupTransform sq (if inverse then p else s.size) (.byObj (if inverse then s.size else p)) = .ok (.one 0, .one q, none) ∧
      IsUnitQ q ∧ ∀ q', IsUnitQ q' → agreement q' (matOf mat) ≤ agreement q (matOf mat) := by
  obtain ⟨s', e1, e2, e3⟩ := matrix_frame sq ext he hr href hp hs name inverse
  exact ⟨s', _, e1, e3, he.unit _, he.best _⟩

/-- Other shapes raise ValueError, and nothing changes. -/
theorem C68_matrix_refused (ext : FitExt) (s : State) {mat : ND ℝ} (hs : mat.shape ≠ [3, 3]) (parent : Option FrameRef) (name : Option String) (inverse : Bool) :
    s.fromRotationMatrix ext mat parent name inverse = (s, .error .valueError) := by
  simp only [State.fromRotationMatrix, ne_eq, hs, not_false_eq_true, if_true]

/-- A frame made from the dataset of a lookup, with the frame `into` as parent, moves like the frame that was looked up: its transformation into `into` is
the same, if there are at least two timestamps. -/
theorem C68_roundtrip (hsq : SquadLaw sq) (hr : Reachable s h) {a b : ℕ} {outof into : FrameRef} (h1 : s.resolve outof = .ok a) (h2 : s.resolve into = .ok b)
    (ha : a < s.size) (hb : b < s.size) (hpath : PathAll s a b (FrameOk true s)) {tl : List Vec} {rl : List Quat} {l : List ℝ}
    (hlook : s.lookupTransform sq a (.byObj b) = .ok (.many tl, .many rl, some l)) (hlen : 2 ≤ l.length) (name : Option String) :
    ∃ ds s', topLookupTransform sq s outof into true false = .ok (.ds ds) ∧
      s.fromDataset ds "translation" "rotation" "time" (some into) name = (s', .ok s.size) ∧
      s'.lookupTransform sq s.size (.byObj b) = s.lookupTransform sq a (.byObj b) := by
  obtain ⟨c0, la0, lb0, hc0, hla0, hlb0, _⟩ := id hpath
  rcases lookup_facts sq hsq hr ha hb hpath (l := la0 ++ lb0.reverse) ⟨c0, la0, lb0, hc0, hla0, hlb0, rfl⟩ with ⟨A, e, -⟩ | ⟨_, ts, T, e, hinc, hT, _⟩
  · rw [hlook] at e; simp at e
  rw [hlook] at e
  simp only [Except.ok.injEq, Prod.mk.injEq, Arr.many.injEq, Option.some.injEq] at e
  obtain ⟨rfl, rfl, rfl⟩ := e
  obtain ⟨ds, lin, ang, d1, d2, d3, d4, d5, d6, d7, -⟩ := makeDataset_spec (t := ND.ofVecs (.many (l.map fun τ => (T τ).t)))
    (r := ND.ofQuats (.many (l.map fun τ => (T τ).r))) (ts := some l) (s.name a) false (by simp [ND.ofVecs, sampleShape]) (by simp [ND.ofQuats, sampleShape])
  simp only [Bool.false_eq_true, if_false] at d2 d3 d6 d7
  have hst : StampsIn ds "time" l := by
    obtain ⟨v1, v2, hv⟩ := makeDataset_vars d1
    simp only [DSet.var, hv] at d2 d3
    rw [show dictGet [("translation", v1), ("rotation", v2)] "translation" = some v1 from rfl, Option.some.injEq] at d2
    rw [show dictGet [("translation", v1), ("rotation", v2)] "rotation" = some v2 from rfl, Option.some.injEq] at d3
    subst d2 d3
    refine ⟨by simp only [DSet.var, hv]; rfl, ⟨_, by rw [hv]; exact List.mem_cons_self, _, d6.stamps l rfl⟩, ?_⟩
    intro v hvm _
    rw [hv] at hvm
    simp only [List.mem_cons, List.not_mem_nil, or_false] at hvm
    rcases hvm with rfl | rfl
    · exact ⟨_, d6.stamps l rfl, rfl⟩
    · exact ⟨_, d7.stamps l rfl, rfl⟩
  obtain ⟨s', f1, f2⟩ := C68_dataset hsq hr h2 hb d2 d3 hst (by rw [d6.shape]; rfl) (by rw [d7.shape]; rfl) name false false (by simp)
  refine ⟨ds, s', ?_, f1, ?_⟩
  · simp only [topLookupTransform, h1, h2, hlook, d1, bind, Except.bind, Pure.pure, Except.pure, if_true]
  · have hrow : ∀ k < l.length, ∃ τ, l[k]? = some τ ∧ vecRow lin.data k = (T τ).t ∧ quatRow ang.data k = (T τ).r := by
      intro k hk
      refine ⟨l[k], List.getElem?_eq_getElem hk, ?_, ?_⟩
      · rw [vecRow, d4, ofVecs_row, List.getD_eq_getElem?_getD, List.getElem?_map, List.getElem?_eq_getElem hk]; rfl
      · rw [quatRow, d5, ofQuats_row, List.getD_eq_getElem?_getD, List.getElem?_map, List.getElem?_eq_getElem hk]; rfl
    have := f2.lookup hlen hinc (by
      intro k hk
      obtain ⟨τ, t1, -, t3⟩ := hrow k hk
      simp only
      rw [t3]
      exact isTransformAt_unit hr.wf hsq hpath (hT τ (List.mem_of_getElem? t1))) rfl
    simp only [Bool.false_eq_true, if_false] at this
    rw [this, hlook]
    have e1 : ((List.range l.length).map fun k => vecRow lin.data k) = l.map fun τ => (T τ).t := by
      apply List.ext_getElem?
      intro k
      by_cases hk : k < l.length
      · obtain ⟨τ, t1, t2, -⟩ := hrow k hk
        simp [hk, t2, t1]
        rw [List.getElem?_eq_getElem hk] at t1
        rw [Option.some.inj t1]
      · simp [hk]
    have e2 : ((List.range l.length).map fun k => quatRow ang.data k) = l.map fun τ => (T τ).r := by
      apply List.ext_getElem?
      intro k
      by_cases hk : k < l.length
      · obtain ⟨τ, t1, -, t3⟩ := hrow k hk
        simp [hk, t3, t1]
        rw [List.getElem?_eq_getElem hk] at t1
        rw [Option.some.inj t1]
      · simp [hk]
    rw [e1, e2]

end

/-- Non-vacuous: the motion of `u` in `world`, and a frame made from it. -/
example : ∃ ds s', topLookupTransform Ex.ext.squad Ex.u2 (.byName "u") (.byName "world") true false = .ok (.ds ds) ∧
      Ex.u2.fromDataset ds "translation" "rotation" "time" (some (.byName "world")) (some "copy") = (s', .ok 2) ∧
      s'.lookupTransform Ex.ext.squad 2 (.byObj 0) = Ex.u2.lookupTransform Ex.ext.squad 1 (.byObj 0) := by
  obtain ⟨h, hr⟩ := Ex.reachU
  have hsz : Ex.u2.size = 2 := by rw [Ex.u2_eq]
  have r1 : Ex.u2.resolve (.byName "u") = .ok 1 := by rw [Ex.u2_eq]; rfl
  have r0 : Ex.u2.resolve (.byName "world") = .ok 0 := by rw [Ex.u2_eq]; rfl
  have := C68_roundtrip Ex.ext_squad hr r1 r0 (by rw [hsz]; norm_num) (by rw [hsz]; norm_num) Ex.pathU.1 exU_lookup (by simp) (some "copy")
  rwa [hsz] at this

/-- Non-vacuous: a frame from a rotation matrix (a quarter turn about z), whose `x` axis is the `y` axis of its parent. -/
example : ∃ ext, FitLaw ext ∧ ∃ s' q, Ex.m3.fromRotationMatrix ext (Ex.arr2 3 [[0, -1, 0], [1, 0, 0], [0, 0, 1]]) (some (.byName "world")) none = (s', .ok 3) ∧
    s'.parent 3 = some 0 ∧ s'.lookupTransform Ex.holdSquad 3 (.byObj 0) = .ok (.one 0, .one q, none) ∧ rot q ![1, 0, 0] = ![0, 1, 0] := by
  obtain ⟨ext, he⟩ := exists_fitLaw
  have hm : matOf (Ex.arr2 3 [[0, -1, 0], [1, 0, 0], [0, 0, 1]]) = !![0, -1, 0; 1, 0, 0; 0, 0, 1] := by
    ext i j; fin_cases i <;> fin_cases j <;> simp [matOf, Ex.arr2]
  have hsz : Ex.m3.size = 3 := by rw [Ex.m3_eq]
  obtain ⟨s', q, e1, e2, e3, -, e4⟩ := C68_matrix (h := Ex.hm3) Ex.holdSquad ext he Ex.reachM (ref := .byName "world") (p := 0) (by rw [Ex.m3_eq]; rfl) (by rw [hsz]; norm_num)
    (mat := Ex.arr2 3 [[0, -1, 0], [1, 0, 0], [0, 0, 1]]) rfl (by rw [hm]; ext i j; fin_cases i <;> fin_cases j <;> simp [Matrix.mul_apply, Fin.sum_univ_three])
    (by rw [hm]; simp [Matrix.det_fin_three]) none false
  rw [hsz] at e1 e2 e3
  refine ⟨ext, he, s', q, e1, e2, e3, ?_⟩
  rw [e4, hm]
  ext i; fin_cases i <;> simp [Matrix.mulVec, dotProduct, Fin.sum_univ_three]

/-- A dataset with the timestamps 0, 1, 3, a position and an orientation. -/
noncomputable def exDsC : DSet :=
  let c : Coord := ⟨["time"], .num (ofList [0, 1, 3])⟩
  ⟨[("position", ⟨Ex.arr2 3 [[1, 0, 0], [2, 0, 0], [4, 0, 0]], ⟨[("time", c)], ["time", "cartesian_axis"], none, []⟩⟩),
    ("orientation", ⟨Ex.arr2 4 [[1, 0, 0, 0], [0, 1, 0, 0], [0, 0, 1, 0]], ⟨[("time", c)], ["time", "quaternion_axis"], none, []⟩⟩)]⟩

theorem exDs_stamps : StampsIn exDsC "time" [0, 1, 3] := by
  refine ⟨by simp [DSet.var, exDsC, dictGet], ⟨_, List.mem_cons_self .., _, rfl⟩, ?_⟩
  intro v hv _
  simp only [exDsC, List.mem_cons, List.not_mem_nil, or_false] at hv
  rcases hv with rfl | rfl <;> exact ⟨_, rfl, rfl⟩

/-- The position / orientation of that dataset. -/
noncomputable def exPosC : DArr := ⟨Ex.arr2 3 [[1, 0, 0], [2, 0, 0], [4, 0, 0]],
  ⟨[("time", ⟨["time"], .num (ofList [0, 1, 3])⟩)], ["time", "cartesian_axis"], none, []⟩⟩
noncomputable def exOriC : DArr := ⟨Ex.arr2 4 [[1, 0, 0, 0], [0, 1, 0, 0], [0, 0, 1, 0]],
  ⟨[("time", ⟨["time"], .num (ofList [0, 1, 3])⟩)], ["time", "quaternion_axis"], none, []⟩⟩

theorem exOri_ne : ∀ k < ([0, 1, 3] : List ℝ).length, quatRow exOriC.data k ≠ 0 := by
  intro k hk h
  simp only [List.length_cons, List.length_nil] at hk
  have h0 := congrArg QuaternionAlgebra.re h
  have h1 := congrArg QuaternionAlgebra.imI h
  have h2 := congrArg QuaternionAlgebra.imJ h
  interval_cases k <;> simp [quatRow, quat4, exOriC, Ex.arr2] at h0 h1 h2

/-- Frames from the dataset and from its variables, also if these describe the motion of the parent in the new frame; with the variables swapped the
dataset is refused, and it has no variable "velocity". -/
example : (∃ s', Ex.m3.fromDataset exDsC "position" "orientation" "time" (some (.byName "world")) (some "new") true = (s', .ok 3) ∧
      TimedFrame Ex.holdSquad s' 3 0 true false [0, 1, 3] fun k => ⟨vecRow exPosC.data k, quatRow exOriC.data k⟩) ∧
    (∃ s', Ex.m3.fromTranslationDataArray exPosC "time" (some (.byName "world")) (some "new") = (s', .ok 3) ∧
      TimedFrame Ex.holdSquad s' 3 0 false false [0, 1, 3] fun k => ⟨vecRow exPosC.data k, 1⟩) ∧
    (∃ s', Ex.m3.fromRotationDataArray exOriC "time" (some (.byName "world")) (some "new") true true = (s', .ok 3) ∧
      TimedFrame Ex.holdSquad s' 3 0 true true [0, 1, 3] fun k => ⟨0, quatRow exOriC.data k⟩) ∧
    (Ex.m3.fromDataset exDsC "orientation" "position" "time" (some (.byName "world")) (some "new")).2 = .error .valueError ∧
    (∃ e, Ex.m3.fromDataset exDsC "velocity" "orientation" "time" (some (.byName "world")) (some "new") = (Ex.m3, .error e)) ∧
    ∀ ext, Ex.m3.fromRotationMatrix ext ⟨[3, 4], fun _ => 0⟩ (some (.byName "world")) none = (Ex.m3, .error .valueError) := by
  have hsz : Ex.m3.size = 3 := by rw [Ex.m3_eq]
  have hw : Ex.m3.resolve (.byName "world") = .ok 0 := by rw [Ex.m3_eq]; rfl
  have h0 : 0 < Ex.m3.size := by rw [hsz]; norm_num
  have hp : exDsC.var "position" = some exPosC := rfl
  have ho : exDsC.var "orientation" = some exOriC := rfl
  refine ⟨?_, ?_, ?_, ?_, ?_, fun ext => C68_matrix_refused ext _ (by simp) _ _ _⟩
  · have := C68_dataset Ex.holdSquad_law Ex.reachM hw h0 hp ho exDs_stamps rfl rfl (some "new") true false fun _ => exOri_ne
    rwa [hsz] at this
  · have := C68_translation Ex.holdSquad_law Ex.reachM hw h0 (da := exPosC) (timestamps := "time") (l := [0, 1, 3]) rfl rfl rfl (some "new") false false
    rwa [hsz] at this
  · have := C68_rotation Ex.holdSquad_law Ex.reachM hw h0 (da := exOriC) (timestamps := "time") (l := [0, 1, 3]) rfl rfl rfl (some "new") true true
      fun _ => exOri_ne
    rwa [hsz] at this
  · exact C68_dataset_refused Ex.reachM hw h0 ho hp exDs_stamps (.inl (by simp [exOriC, Ex.arr2])) (some "new") false
  · refine C68_dataset_missing Ex.m3 _ _ false false ⟨"velocity", by simp, by simp [DSet.var, exDsC, dictGet], ?_⟩
    intro v hv
    simp only [exDsC, List.mem_cons, List.not_mem_nil, or_false] at hv
    rcases hv with rfl | rfl <;> simp [dictGet]

/-- A dimension without coordinate, and a missing one. -/
example : (∃ s', Ex.m3.fromTranslationDataArray ⟨Ex.arr2 3 [[1, 0, 0], [2, 0, 0]], ⟨[], ["time", "cartesian_axis"], none, []⟩⟩ "time"
      (some (.byName "world")) (some "new") = (s', .ok 3) ∧
      TimedFrame Ex.holdSquad s' 3 0 false false [0, 1] fun k => ⟨vecRow (Ex.arr2 3 [[1, 0, 0], [2, 0, 0]]) k, 1⟩) ∧
    Ex.m3.fromTranslationDataArray ⟨Ex.arr2 3 [[1, 0, 0], [2, 0, 0]], ⟨[], ["time", "cartesian_axis"], none, []⟩⟩ "when"
      (some (.byName "world")) (some "new") = (Ex.m3, .error .keyError) := by
  have hsz : Ex.m3.size = 3 := by rw [Ex.m3_eq]
  have hw : Ex.m3.resolve (.byName "world") = .ok 0 := by rw [Ex.m3_eq]; rfl
  have h0 : 0 < Ex.m3.size := by rw [hsz]; norm_num
  constructor
  · have := (C68_dimension (n := 2) Ex.holdSquad_law Ex.reachM hw h0 (da := ⟨Ex.arr2 3 [[1, 0, 0], [2, 0, 0]], ⟨[], ["time", "cartesian_axis"], none, []⟩⟩)
      (timestamps := "time") rfl (some "new") false false).1 "cartesian_axis" rfl rfl
    rw [hsz] at this
    simpa [List.range_succ] using this
  · exact ((C68_dimension (n := 2) Ex.holdSquad_law Ex.reachM hw h0 (da := ⟨Ex.arr2 3 [[1, 0, 0], [2, 0, 0]], ⟨[], ["time", "cartesian_axis"], none, []⟩⟩)
      (timestamps := "when") rfl (some "new") false false).2.2 (by simp)).1

end RBM.Props
