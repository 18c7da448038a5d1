import Verif.Lemmas.Match
import Verif.Props.TransformStatic
import Verif.Props.TransformLaws

/-!
Series of vectors (constant or timestamped) through `lookup_transform` and `transform_vectors`.
-/

namespace RBM.Props

open RBM.Spec

theorem outStamps_eq_self {s : State} {l : List ℕ} {ts : List ℝ} (hi : StrictlyIncreasing ts)
    (h : ∀ τ ∈ ts, ∀ i ∈ l, ∀ y, stampsOf s false i = some y → InRange y τ) : outStamps s l ts = ts := by
  rw [outStamps, commonStamps, List.filter_eq_self]
  intro τ hτ
  simp only [decide_eq_true_eq, List.forall_mem_cons]
  refine ⟨inRange_mem hi hτ, fun y hy => ?_⟩
  obtain ⟨i, hi, hy⟩ := List.mem_filterMap.mp hy
  exact h τ hτ i hi y hy

/-- Summary of what a lookup along well-formed frames gives. -/
theorem lookup_facts (sq : SquadFn) (hsq : SquadLaw sq) {s : State} {h : List Event} (hr : Reachable s h)
    {a b : ℕ} (ha : a < s.size) (hb : b < s.size) (hp : PathAll s a b (FrameOk true s)) {l : List ℕ} (hl : Route s a b l) :
    (∃ A, s.lookupTransform sq a (.byObj b) = .ok (.one A.t, .one A.r, none) ∧ (∀ τ, IsTransformAt sq s a b τ A) ∧ ¬ Moving s l ∧
      PathAll s a b (FrameOk false s)) ∨
    (Moving s l ∧ ∃ (ts : List ℝ) (T : ℝ → Pose), s.lookupTransform sq a (.byObj b) =
        .ok (.many (ts.map fun τ => (T τ).t), .many (ts.map fun τ => (T τ).r), some ts) ∧ StrictlyIncreasing ts ∧
      (∀ τ ∈ ts, IsTransformAt sq s a b τ (T τ)) ∧ outStamps s l ts = ts) := by
  obtain ⟨c, la, lb, hc, hla, hlb, hok, rfl⟩ := pathAll_route hr.wf hp hl
  have hmem : ∀ i, i ∈ la ++ lb.reverse ↔ i ∈ la ++ lb := by intro i; simp
  rcases lookup_good sq hsq hr.wf ha hb hc hla hlb hok with ⟨h1, h2, Pa, Pb, h3, h4, e⟩ | ⟨h1, ts, T, e, h2, h3, h4⟩
  · left
    refine ⟨_, e, fun τ => (C15_lookup_agrees sq (mv := true) (fun _ => hsq) hr ha hb hp (.inl e)).1, ?_, ?_⟩
    · rintro ⟨i, hi, disc, y, hy⟩
      cases disc
      · have : y ∈ (la ++ lb.reverse).filterMap (stampsOf s false) := List.mem_filterMap.mpr ⟨i, hi, hy⟩
        rw [h1] at this; simp at this
      · have : y ∈ (la ++ lb.reverse).filterMap (stampsOf s true) := List.mem_filterMap.mpr ⟨i, hi, hy⟩
        rw [h2] at this; simp at this
    · refine ⟨c, la, lb, hc, hla, hlb, ?_⟩
      have key : ∀ {l Ps}, List.Forall₂ (fun i P => StaticPoseOf s i P ∧ IsUnitQ P.r) l Ps → ∀ i ∈ l, FrameOk false s i := by
        intro l Ps hf
        induction hf with
        | nil => simp
        | cons hx _ ih =>
          intro i hi
          rcases List.mem_cons.mp hi with rfl | hi
          · simp only [FrameOk, Bool.false_eq_true, if_false]; exact ⟨_, hx.1, hx.2.ne_zero⟩
          · exact ih i hi
      intro i hi
      rcases List.mem_append.mp hi with hi | hi
      · exact key h3 i hi
      · exact key h4 i hi
  · right
    have hmov : Moving s (la ++ lb.reverse) := by
      rcases h1 with h1 | h1
      · obtain ⟨y, hy⟩ := List.exists_mem_of_ne_nil _ h1
        obtain ⟨i, hi, hy⟩ := List.mem_filterMap.mp hy
        exact ⟨i, hi, _, y, hy⟩
      · obtain ⟨y, hy⟩ := List.exists_mem_of_ne_nil _ h1
        obtain ⟨i, hi, hy⟩ := List.mem_filterMap.mp hy
        exact ⟨i, hi, _, y, hy⟩
    have hinc : StrictlyIncreasing ts := by
      rcases h2 with ⟨x, xs, hx, hts⟩ | ⟨_, hts⟩
      · obtain ⟨out, e1, e2, _⟩ := C20_timestamps sq hsq hr ha hb hp hl e hx
        cases e1; exact e2
      · rw [hts]; exact npUnique_sorted _
    refine ⟨hmov, ts, T, e, hinc, fun τ hτ => ?_, outStamps_eq_self hinc ?_⟩
    · obtain ⟨k, hk⟩ := List.mem_iff_getElem?.mp hτ
      refine (C15_lookup_agrees sq (mv := true) (fun _ => hsq) hr ha hb hp (A := T τ) (.inr ⟨_, _, _, k, e, hk, ?_, ?_⟩)).1
      · rw [List.getElem?_map, hk]; rfl
      · rw [List.getElem?_map, hk]; rfl
    · intro τ hτ i hi y hy
      have hyc : y ∈ (la ++ lb.reverse).filterMap (stampsOf s false) := List.mem_filterMap.mpr ⟨i, hi, hy⟩
      rcases h2 with ⟨x, xs, hx, hts⟩ | ⟨hx, _⟩
      · rw [hts] at hτ
        have := (List.mem_filter.mp hτ).2
        simp only [decide_eq_true_eq] at this
        exact this y hyc
      · rw [hx] at hyc; simp at hyc

theorem ofList_vec1 (l : List ℝ) : ND.vec1 l = ofList l := rfl

/-- `transform_vectors` of a series: every sample is rotated into the target frame at its time. -/
theorem transform_series (sq : SquadFn) (hsq : SquadLaw sq) {s : State} {h : List Event} (hr : Reachable s h)
    {a b : ℕ} (ha : a < s.size) (hb : b < s.size) (hp : PathAll s a b (FrameOk true s)) {l : List ℕ} (hl : Route s a b l)
    {arr : ND ℝ} {ats : Option (List ℝ)} (hs : IsSeries arr ats) (h2 : ∀ y, ats = some y → 2 ≤ (outStamps s l y).length)
    (h2' : ats = none → ∀ t r ts, s.lookupTransform sq a (.byObj b) = .ok (t, r, some ts) → 2 ≤ ts.length) (rt : Bool) :
    ∃ out ots, s.transformVectors sq a arr (.byObj b) { timestamps := stampArg ats, returnTimestamps := rt } = .ok (returned rt out ots) ∧
      IsSeries out ots ∧
      (∀ τ w, SampleAt out ots τ w → ∃ A w0, IsTransformAt sq s a b τ A ∧ SampleAt arr ats τ w0 ∧ w = rot A.r w0) ∧
      (∀ y, ats = some y → ots = some (outStamps s l y)) ∧
      (ats = none → ∃ t r, s.lookupTransform sq a (.byObj b) = .ok (t, r, ots)) := by
  cases ats with
  | some y =>
    obtain ⟨hsh, h2y, hinc⟩ := hs
    have hd : arr.ndim = 2 := by simp [ND.ndim, hsh]
    obtain ⟨out, e1, e2, e3⟩ := C15_vectors_timed sq hsq hr ha hb hp hl arr { timestamps := stampArg (some y), returnTimestamps := rt }
      (p := 1) (q := 0) (ta := 0) (ats := y) ⟨by omega, .inr (by rw [hd]; rfl)⟩ (by simp [hsh]) rfl ⟨by omega, .inl rfl⟩ rfl
      ⟨by omega, by simp [hsh], h2y, hinc⟩ (by omega) (by omega) (.inl (by omega))
    have hosh : out.shape = [(outStamps s l y).length, 3] := by rw [e2, hsh]; rfl
    refine ⟨out, some (outStamps s l y), e1, ⟨hosh, h2 y rfl, outStamps_sorted hinc⟩, ?_, fun y' hy' => by cases hy'; rfl, by simp⟩
    rintro τ w ⟨i, hi, rfl⟩
    have hmem : τ ∈ y := (mem_outStamps.mp (List.mem_of_getElem? hi)).1
    obtain ⟨k, hk⟩ := List.mem_iff_getElem?.mp hmem
    obtain ⟨A, hA, hrow⟩ := e3 i k τ hi hk
    refine ⟨A, vec3 arr 1 [k, 0], hA, ⟨k, hk, rfl⟩, ?_⟩
    have := hrow [k, 0] (by rw [hsh]; exact ⟨(List.getElem?_eq_some_iff.mp hk).1, by omega, trivial⟩)
    simpa using this
  | none =>
    have hsh : arr.shape = [3] := hs
    rcases lookup_facts sq hsq hr ha hb hp hl with ⟨A, e, hA, _, hps⟩ | ⟨hm, ts, T, e, hinc, hT, _⟩
    · obtain ⟨B, out, f1, f2, f3, f4, f5⟩ := C15_vectors_static sq hr ha hb hps arr { returnTimestamps := rt } (p := 0)
        ⟨by simp [ND.ndim, hsh], .inr (by simp [ND.ndim, hsh])⟩ (by simp [hsh]) rfl
        (by intro t ht; cases ht; exact ⟨by simp [ND.ndim, hsh], .inl rfl⟩)
      refine ⟨out, none, f3, by rw [IsSeries, f4, hsh], ?_, by simp, fun _ => ⟨_, _, e⟩⟩
      intro τ w hw
      refine ⟨B, vec3 arr 0 [0], f1 τ, rfl, ?_⟩
      rw [show w = vec3 out 0 [0] from hw]
      exact f5 [0] (by rw [hsh]; exact ⟨by omega, trivial⟩)
    · obtain ⟨out, ts', tl, rl, f1, f2, f3, f4⟩ := C30_single_vector_partial sq hsq hr ha hb hp hl hm arr hsh rt
      rw [e] at f2
      cases f2
      refine ⟨out, some ts, f1, ⟨f3, h2' rfl _ _ _ e, hinc⟩, ?_, by simp, fun _ => ⟨_, _, e⟩⟩
      rintro τ w ⟨i, hi, rfl⟩
      obtain ⟨A, hA, hrow⟩ := f4 i τ hi
      exact ⟨A, vec3 arr 0 [0], hA, rfl, hrow⟩

end RBM.Props
