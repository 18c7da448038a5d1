import Verif.Lemmas.Stack
import Verif.Props.LinearTransform

/-!
C94: the velocity transforms on stacks of series, shape `(n, m, 3)`.
-/

namespace RBM.Props

open RBM.Spec

section

variable {ext : Ext} {s : State} {h : List Event} {a b m : ℕ} {l : List ℕ}

theorem cell_eq (v : ND ℝ) (i j k : ℕ) : vec3 v 2 ([k, j, 0].set 0 i) = cell v i j := by
  ext c; fin_cases c <;> rfl

theorem cell_ext {v w : ND ℝ} {i j i' j' : ℕ} (h : cell v i j = cell w i' j') (c : ℕ) (hc : c < 3) : v.get [i, j, c] = w.get [i', j', c] :=
  congrFun h ⟨c, hc⟩

/-- `transform_vectors` of a stack. -/
theorem transform_stack (hsq : SquadLaw ext.squad) (hr : Reachable s h) (ha : a < s.size) (hb : b < s.size)
    (hp : PathAll s a b (FrameOk true s)) (hl : Route s a b l) {v : ND ℝ} {ats : List ℝ} (hv : IsStack v m ats) (rt : Bool) :
    ∃ out, s.transformVectors ext.squad a v (.byObj b) { timestamps := stampArg (some ats), returnTimestamps := rt } =
        .ok (returned rt out (some (outStamps s l ats))) ∧ out.shape = [(outStamps s l ats).length, m, 3] ∧
      ∀ (i k : ℕ) τ, (outStamps s l ats)[i]? = some τ → ats[k]? = some τ → ∃ A, IsTransformAt ext.squad s a b τ A ∧
        ∀ j, j < m → cell out i j = rot A.r (cell v k j) := by
  have hd : v.ndim = 3 := by simp [ND.ndim, hv.shape]
  obtain ⟨out, e1, e2, e3⟩ := C15_vectors_timed ext.squad hsq hr ha hb hp hl v { timestamps := stampArg (some ats), returnTimestamps := rt }
      (p := 2) (q := 0) (ta := 0) (ats := ats) ⟨by omega, .inr (by rw [hd]; rfl)⟩ (by simp [hv.shape]) rfl ⟨by omega, .inl rfl⟩ rfl
      ⟨by omega, by simp [hv.shape], hv.two, hv.sorted⟩ (by omega) (by omega) (.inl (by omega))
  refine ⟨out, e1, by rw [e2, hv.shape]; rfl, fun i k τ hi hk => ?_⟩
  obtain ⟨A, hA, hrow⟩ := e3 i k τ hi hk
  refine ⟨A, hA, fun j hj => ?_⟩
  have hkl := (List.getElem?_eq_some_iff.mp hk).1
  have := hrow [k, j, 0] (by rw [hv.shape]; exact ⟨hkl, hj, by omega, trivial⟩)
  rwa [cell_eq, cell_eq] at this

theorem column_series {v : ND ℝ} {ats : List ℝ} (hv : IsStack v m ats) (j : ℕ) : IsSeries (column v j) (some ats) :=
  ⟨by simp [column, hv.shape], hv.two, hv.sorted⟩

theorem column_row (v : ND ℝ) (i j : ℕ) : vec3 (column v j) 1 [i, 0] = cell v i j := by
  ext c; fin_cases c <;> rfl

/-- `transform_vectors` (and hence `what="representation_frame"` of both velocity transforms, see `C37_representation_frame`,
`C38_representation_frame`) acts on a stack like on each series. -/
theorem C94_vectors (hsq : SquadLaw ext.squad) (hr : Reachable s h) (ha : a < s.size) (hb : b < s.size)
    (hp : PathAll s a b (FrameOk true s)) (hl : Route s a b l) {v : ND ℝ} {ats : List ℝ} (hv : IsStack v m ats) :
    ColumnWise (fun x => s.transformVectors ext.squad a x (.byObj b) { timestamps := stampArg (some ats), returnTimestamps := true }) v m ∧
    (∀ cutoff, ColumnWise (fun x => s.transformAngularVelocity ext a x (.byObj b) "representation_frame"
      { timestamps := stampArg (some ats), returnTimestamps := true } cutoff) v m) ∧
    (∀ mf rf outlier cutoff, ColumnWise (fun x => s.transformLinearVelocity ext a x (.byObj b) "representation_frame" mf rf
      { timestamps := stampArg (some ats), returnTimestamps := true } outlier cutoff) v m) := by
  have key : ColumnWise (fun x => s.transformVectors ext.squad a x (.byObj b) { timestamps := stampArg (some ats), returnTimestamps := true }) v m := by
    obtain ⟨out, e1, e2, e3⟩ := transform_stack hsq hr ha hb hp hl hv true
    refine ⟨out, _, e1, e2, fun j hj => ?_⟩
    have hc := column_series hv j
    have hd : (column v j).ndim = 2 := by simp [ND.ndim, column]
    obtain ⟨w, w1, w2, w3⟩ := C15_vectors_timed ext.squad hsq hr ha hb hp hl (column v j) { timestamps := stampArg (some ats), returnTimestamps := true }
      (p := 1) (q := 0) (ta := 0) (ats := ats) ⟨by omega, .inr (by rw [hd]; rfl)⟩ (by simp [column]) rfl ⟨by omega, .inl rfl⟩ rfl
      ⟨by omega, by simp [column, hv.shape], hv.two, hv.sorted⟩ (by omega) (by omega) (.inl (by omega))
    refine ⟨w, w1, by rw [w2]; rfl, fun i c hi hc3 => ?_⟩
    have hti := List.getElem?_eq_getElem hi
    obtain ⟨k, hk⟩ := List.mem_iff_getElem?.mp (mem_outStamps.mp (List.getElem_mem hi)).1
    have hkl := (List.getElem?_eq_some_iff.mp hk).1
    obtain ⟨A, hA, hrow⟩ := e3 i k _ hti hk
    obtain ⟨B, hB, hrow'⟩ := w3 i k _ hti hk
    have hAB : A = B := isTransformAt_unique hr.wf (fun _ => hsq) hp hA hB
    subst hAB
    have h1 := hrow' [k, 0] (by rw [hc.1]; exact ⟨hkl, by omega, trivial⟩)
    have h2 := hrow j hj
    rw [show ([k, 0] : List ℕ).set 0 k = [k, 0] from rfl, column_row] at h1
    rw [← h1] at h2
    have := congrFun h2 ⟨c, hc3⟩
    rw [show out.get [i, j, c] = cell out i j ⟨c, hc3⟩ from rfl, this]
    rcases (show c = 0 ∨ c = 1 ∨ c = 2 by omega) with rfl | rfl | rfl <;> rfl
  refine ⟨key, fun cutoff => ?_, fun mf rf outlier cutoff => ?_⟩
  · simp only [(C37_representation_frame _ _ _ _).1]; exact key
  · simp only [(C38_representation_frame _ _ _ _ _ _ _).1]; exact key

theorem bget_series {R : ND ℝ} {K i j c : ℕ} (hR : R.shape = [K, 3]) (hc : c < 3) : R.bget [i, j, c] = R.get [if K = 1 then 0 else j, c] := by
  have h2 : R.ndim = 2 := by simp [ND.ndim, hR]
  simp [ND.bget, h2, hR, ND.bidx]

theorem addAngular_stack (hsq : SquadLaw ext.squad) (hr : Reachable s h) (ha : a < s.size) (hb : b < s.size)
    (hp : PathAll s a b (FrameOk true s)) (hl : Route s a b l) {v : ND ℝ} {ats : List ℝ} (hv : IsStack v m ats)
    (h2 : 2 ≤ (outStamps s l ats).length) {ang : ND ℝ} {angTs : Option (List ℝ)} (hang : IsSeries ang angTs) {ots : List ℝ}
    (hots : sharedStamps [some (outStamps s l ats), angTs] = some ots) (rt : Bool) :
    (ots.length ≠ 1 → m ≠ ots.length →
      s.addAngular ext a v (.byObj b) { timestamps := stampArg (some ats), returnTimestamps := rt } ang angTs = .error .valueError) ∧
    (ots.length = 1 ∨ m = ots.length → ∃ out,
      s.addAngular ext a v (.byObj b) { timestamps := stampArg (some ats), returnTimestamps := rt } ang angTs = .ok (returned rt out (some ots)) ∧
      out.shape = [ots.length, m, 3] ∧ ∀ (i j k : ℕ) τ τ', ots[i]? = some τ → ats[k]? = some τ → j < m → ots[if ots.length = 1 then 0 else j]? = some τ' →
        ∃ A ω, IsTransformAt ext.squad s a b τ A ∧ ValueAt ang angTs τ' ω ∧ cell out i j = rot A.r (cell v k j) + ω) := by
  obtain ⟨w, e1, e2, e3⟩ := transform_stack hsq hr ha hb hp hl hv true
  obtain ⟨X, outs, x1, x2, x3, x4⟩ := matchArrays_first ext.squad e2 (by simp) h2 (outStamps_sorted hv.sorted) (l := [⟨ang, angTs⟩]) (by simpa using hang) hots
  rcases x4 with _ | ⟨⟨hY, vY⟩, _ | _⟩
  rename_i Y
  have hadd : s.addAngular ext a v (.byObj b) { timestamps := stampArg (some ats), returnTimestamps := rt } ang angTs =
      (ND.iadd X Y).bind fun c => .ok (returned rt c (some ots)) := by
    simp only [State.addAngular, e1, returned, if_true, unpackPair, bind, Except.bind, x1, Pure.pure, Except.pure]
    cases ND.iadd X Y with
    | error e => rfl
    | ok c => simp only [pyReturn_eq]; rfl
  constructor
  · intro hK hm
    rw [hadd]
    have : ND.iadd X Y = .error .valueError := by
      simp only [ND.iadd, ND.bop, x2, hY, bshape_stack, if_neg hm, if_neg hK]
      split_ifs with h1
      · simp only
        rw [if_neg (by simp; omega)]
      · rfl
    rw [this]; rfl
  · intro hcase
    have hsh : ND.bshape [ots.length, m, 3] [ots.length, 3] = some [ots.length, m, 3] := by
      rw [bshape_stack]
      rcases hcase with h1 | rfl
      · simp only [h1]; split_ifs <;> simp_all
      · simp
    have hiadd : ND.iadd X Y = .ok ⟨[ots.length, m, 3], fun idx => X.bget idx + Y.bget idx⟩ := by
      simp only [ND.iadd, ND.bop, x2, hY, hsh, if_true]
    refine ⟨_, by rw [hadd, hiadd]; rfl, rfl, fun i j k τ τ' hi hk hj hj' => ?_⟩
    have hτ : τ ∈ outStamps s l ats := mem_sharedStamps hots (List.mem_of_getElem? hi)
    obtain ⟨i', hi'⟩ := List.mem_iff_getElem?.mp hτ
    obtain ⟨A, hA, hrow⟩ := e3 i' k τ hi' hk
    refine ⟨A, _, hA, vY _ τ' hj', ?_⟩
    rw [← hrow j hj]
    have hil := (List.getElem?_eq_some_iff.mp hi).1
    ext c
    show X.bget [i, j, (c : ℕ)] + Y.bget [i, j, (c : ℕ)] = w.get [i', j, (c : ℕ)] + _
    rw [bget_valid X (by rw [x2]; exact ⟨hil, hj, c.isLt, trivial⟩), x3 i i' τ _ hi hi', bget_series hY c.isLt]
    congr 1
    fin_cases c <;> rfl

/-- `transform_angular_velocity` of a stack of `m` series with `K` resulting samples, `what="reference_frame"`. Columnwise behaviour
(every row `i` gets the angular velocity of the frame at the time of row `i`) holds for `K = 1` only. For `K ≠ 1` and `m ≠ K` the call raises `ValueError`;
for `m = K` it succeeds, but column `j`
gets, in every row, the angular velocity of the frame at the time of row `j`. -/
theorem C94_reference_frame_partial (hsq : SquadLaw ext.squad) (hr : Reachable s h) (ha : a < s.size) (hb : b < s.size)
    (hp : PathAll s a b (FrameOk true s)) (hl : Route s a b l) {v : ND ℝ} {ats : List ℝ} (hv : IsStack v m ats)
    (h2 : 2 ≤ (outStamps s l ats).length) {cutoff : Option ℝ} {ang : ND ℝ} {angTs : Option (List ℝ)}
    (hlook : s.lookupAngularVelocity ext a (some (.byObj b)) (some (.byObj b)) { cutoff := cutoff, allowStatic := true, returnTimestamps := true } =
      .ok (.withTs ang angTs)) (hang : IsSeries ang angTs) {ots : List ℝ}
    (hots : sharedStamps [some (outStamps s l ats), angTs] = some ots) (rt : Bool) :
    (ots.length ≠ 1 → m ≠ ots.length →
      s.transformAngularVelocity ext a v (.byObj b) "reference_frame" { timestamps := stampArg (some ats), returnTimestamps := rt } cutoff = .error .valueError) ∧
    (ots.length = 1 ∨ m = ots.length → ∃ out,
      s.transformAngularVelocity ext a v (.byObj b) "reference_frame" { timestamps := stampArg (some ats), returnTimestamps := rt } cutoff =
        .ok (returned rt out (some ots)) ∧
      out.shape = [ots.length, m, 3] ∧ ∀ (i j k : ℕ) τ τ', ots[i]? = some τ → ats[k]? = some τ → j < m → ots[if ots.length = 1 then 0 else j]? = some τ' →
        ∃ A ω, IsTransformAt ext.squad s a b τ A ∧ ValueAt ang angTs τ' ω ∧ cell out i j = rot A.r (cell v k j) + ω) := by
  have e : s.transformAngularVelocity ext a v (.byObj b) "reference_frame" { timestamps := stampArg (some ats), returnTimestamps := rt } cutoff =
      s.addAngular ext a v (.byObj b) { timestamps := stampArg (some ats), returnTimestamps := rt } ang angTs := by
    simp only [State.transformAngularVelocity, if_true, bind, Except.bind, hlook, unpackPair]
  rw [e]
  exact addAngular_stack hsq hr ha hb hp hl hv h2 hang hots rt

/-- The same for `what="moving_frame"`. -/
theorem C94_moving_frame_partial (hsq : SquadLaw ext.squad) (hr : Reachable s h) (ha : a < s.size) (hb : b < s.size)
    (hp : PathAll s a b (FrameOk true s)) (hl : Route s a b l) {v : ND ℝ} {ats : List ℝ} (hv : IsStack v m ats)
    (h2 : 2 ≤ (outStamps s l ats).length) {cutoff : Option ℝ} {ang : ND ℝ} {angTs : Option (List ℝ)}
    (hlook : s.lookupAngularVelocity ext b (some (.byObj a)) (some (.byObj b)) { cutoff := cutoff, allowStatic := true, returnTimestamps := true } =
      .ok (.withTs ang angTs)) (hang : IsSeries ang angTs) {ots : List ℝ}
    (hots : sharedStamps [some (outStamps s l ats), angTs] = some ots) (rt : Bool) :
    (ots.length ≠ 1 → m ≠ ots.length →
      s.transformAngularVelocity ext a v (.byObj b) "moving_frame" { timestamps := stampArg (some ats), returnTimestamps := rt } cutoff = .error .valueError) ∧
    (ots.length = 1 ∨ m = ots.length → ∃ out,
      s.transformAngularVelocity ext a v (.byObj b) "moving_frame" { timestamps := stampArg (some ats), returnTimestamps := rt } cutoff =
        .ok (returned rt out (some ots)) ∧
      out.shape = [ots.length, m, 3] ∧ ∀ (i j k : ℕ) τ τ', ots[i]? = some τ → ats[k]? = some τ → j < m → ots[if ots.length = 1 then 0 else j]? = some τ' →
        ∃ A ω, IsTransformAt ext.squad s a b τ A ∧ ValueAt ang angTs τ' ω ∧ cell out i j = rot A.r (cell v k j) + ω) := by
  have hres : s.resolve (.byObj b) = .ok b := rfl
  have e : s.transformAngularVelocity ext a v (.byObj b) "moving_frame" { timestamps := stampArg (some ats), returnTimestamps := rt } cutoff =
      s.addAngular ext a v (.byObj b) { timestamps := stampArg (some ats), returnTimestamps := rt } ang angTs := by
    simp only [State.transformAngularVelocity, if_neg (show "moving_frame" ≠ "reference_frame" by decide), if_true, bind, Except.bind, hres, hlook, unpackPair]
  rw [e]
  exact addAngular_stack hsq hr ha hb hp hl hv h2 hang hots rt

theorem bget_stack {R : ND ℝ} {K M i j c : ℕ} (hR : R.shape = [K, M, 3]) (hi : i < K) : R.bget [i, j, c] = R.get [i, if M = 1 then 0 else j, c] := by
  have h2 : R.ndim = 3 := by simp [ND.ndim, hR]
  simp only [ND.bget, h2, hR, ND.bidx, List.length_cons, List.length_nil, Nat.reduceAdd, Nat.reduceSub, List.drop_zero]
  congr 2
  split_ifs with h
  · omega
  · rfl

theorem addLinear_stack (hsq : SquadLaw ext.squad) (hr : Reachable s h) (ha : a < s.size) (hb : b < s.size)
    (hp : PathAll s a b (FrameOk true s)) (hl : Route s a b l) {v : ND ℝ} {ats : List ℝ} (hv : IsStack v m ats)
    (h2 : 2 ≤ (outStamps s l ats).length) {t : Arr Vec} {r : Arr Quat} {lts : Option (List ℝ)} (he : s.lookupTransform ext.squad a (.byObj b) = .ok (t, r, lts))
    {lin ang : ND ℝ} {linTs angTs : Option (List ℝ)}
    (hlin : IsSeries lin linTs) (hang : IsSeries ang angTs) {tr : Arr Vec} {trTs : Option (List ℝ)} (htr : IsSeries (ND.ofVecs tr) trTs)
    (h2' : ∀ y, arrayStamps s l lts trTs = some y → 2 ≤ y.length) {ots : List ℝ}
    (hots : sharedStamps [some (outStamps s l ats), linTs, angTs, arrayStamps s l lts trTs] = some ots) (rt : Bool) :
    (ots.length ≠ 1 → m ≠ ots.length → m ≠ 1 →
      s.addLinear ext a v (.byObj b) { timestamps := stampArg (some ats), returnTimestamps := rt } lin ang linTs angTs tr trTs = .error .valueError) ∧
    (ots.length = 1 ∨ m = ots.length ∨ m = 1 → ∃ out lever,
      s.addLinear ext a v (.byObj b) { timestamps := stampArg (some ats), returnTimestamps := rt } lin ang linTs angTs tr trTs =
        .ok (returned rt out (some ots)) ∧
      out.shape = [ots.length, if ots.length = 1 then m else ots.length, 3] ∧
      IsSeries lever (arrayStamps s l lts trTs) ∧
      (∀ τ d, SampleAt lever (arrayStamps s l lts trTs) τ d → ∃ A p, IsTransformAt ext.squad s a b τ A ∧ SampleAt (ND.ofVecs tr) trTs τ p ∧ d = rot A.r p) ∧
      ∀ (i j k : ℕ) τ τ', ots[i]? = some τ → ats[k]? = some τ → (j < if ots.length = 1 then m else ots.length) →
        ots[if ots.length = 1 then 0 else j]? = some τ' →
        ∃ A u ω d, IsTransformAt ext.squad s a b τ A ∧ ValueAt lin linTs τ' u ∧ ValueAt ang angTs τ' ω ∧ ValueAt lever (arrayStamps s l lts trTs) τ' d ∧
          cell out i j = rot A.r (cell v k (if m = 1 then 0 else j)) + u + cross ω d) := by
  obtain ⟨w, e1, e2, e3⟩ := transform_stack hsq hr ha hb hp hl hv true
  obtain ⟨lever, g1, g2, g3⟩ := series_pair hsq hr ha hb hp hl htr he h2'
  obtain ⟨X, outs, x1, x2, x3, x4⟩ := matchArrays_first ext.squad e2 (by simp) h2 (outStamps_sorted hv.sorted)
    (l := [⟨lin, linTs⟩, ⟨ang, angTs⟩, ⟨lever, arrayStamps s l lts trTs⟩]) (by simp [hlin, hang, g2]) hots
  rcases x4 with _ | ⟨⟨hY, vY⟩, _ | ⟨⟨hZ, vZ⟩, _ | ⟨⟨hW, vW⟩, _ | _⟩⟩⟩
  rename_i Y Z W
  obtain ⟨C, c1, c2, c3⟩ := npCross_same (sh := [ots.length]) hZ hW
  have hadd : s.addLinear ext a v (.byObj b) { timestamps := stampArg (some ats), returnTimestamps := rt } lin ang linTs angTs tr trTs =
      (ND.bop (fun x y => x + y) X Y).bind fun c => (ND.bop (fun x y => x + y) c C).bind fun c => .ok (returned rt c (some ots)) := by
    simp only [State.addLinear, e1, returned, if_true, unpackPair, bind, Except.bind, x1, g1, Pure.pure, Except.pure]
    cases ND.bop (fun x y => x + y) X Y with
    | error e => rfl
    | ok c =>
      simp only [c1]
      cases ND.bop (fun x y => x + y) c C with
      | error e => rfl
      | ok c => simp only [pyReturn_eq]; rfl
  constructor
  · intro hK hm h1
    rw [hadd]
    have : ND.bop (fun x y => x + y) X Y = .error .valueError := by
      simp only [ND.bop, x2, hY, bshape_stack, if_neg hm, if_neg hK, if_neg h1]
    rw [this]; rfl
  · intro hcase
    set M := if ots.length = 1 then m else ots.length with hM
    have hsh : ND.bshape [ots.length, m, 3] [ots.length, 3] = some [ots.length, M, 3] := by
      rw [bshape_stack, hM]
      split_ifs <;> simp_all
    have hsh' : ND.bshape [ots.length, M, 3] [ots.length, 3] = some [ots.length, M, 3] := by
      rw [bshape_stack, hM]
      split_ifs <;> simp_all
    have hb1 : ND.bop (fun x y => x + y) X Y = .ok ⟨[ots.length, M, 3], fun idx => X.bget idx + Y.bget idx⟩ := by
      simp only [ND.bop, x2, hY, hsh]
    have c2' : C.shape = [ots.length, 3] := c2
    have hb2 : ND.bop (fun x y => x + y) (⟨[ots.length, M, 3], fun idx => X.bget idx + Y.bget idx⟩ : ND ℝ) C =
        .ok ⟨[ots.length, M, 3], fun idx => (⟨[ots.length, M, 3], fun idx => X.bget idx + Y.bget idx⟩ : ND ℝ).bget idx + C.bget idx⟩ := by
      simp only [ND.bop, c2', hsh']
    refine ⟨_, lever, by rw [hadd, hb1]; simp only [Except.bind]; rw [hb2], rfl, g2, g3, fun i j k τ τ' hi hk hj hj' => ?_⟩
    have hτ : τ ∈ outStamps s l ats := mem_sharedStamps hots (List.mem_of_getElem? hi)
    obtain ⟨i', hi'⟩ := List.mem_iff_getElem?.mp hτ
    obtain ⟨A, hA, hrow⟩ := e3 i' k τ hi' hk
    refine ⟨A, _, _, _, hA, vY _ τ' hj', vZ _ τ' hj', vW _ τ' hj', ?_⟩
    have hil := (List.getElem?_eq_some_iff.mp hi).1
    have hjl := (List.getElem?_eq_some_iff.mp hj').1
    have hjm : (if m = 1 then 0 else j) < m := by
      split_ifs with h1
      · omega
      · rcases hcase with h | h | h
        · rw [hM, if_pos h] at hj; exact hj
        · rw [hM] at hj; split_ifs at hj <;> omega
        · omega
    rw [← hrow _ hjm]
    ext c
    show (⟨[ots.length, M, 3], fun idx => X.bget idx + Y.bget idx⟩ : ND ℝ).bget [i, j, (c : ℕ)] + C.bget [i, j, (c : ℕ)] = w.get [i', _, (c : ℕ)] + _ + _
    rw [bget_valid _ (show Valid [ots.length, M, 3] [i, j, (c : ℕ)] from ⟨hil, hj, c.isLt, trivial⟩)]
    simp only
    rw [bget_stack x2 hil, x3 i i' τ _ hi hi', bget_series hY c.isLt, bget_series c2' c.isLt]
    have hC := c3 [if ots.length = 1 then 0 else j] ⟨hjl, trivial⟩ c
    simp only [List.cons_append, List.nil_append] at hC
    rw [hC]
    congr 1
    · congr 1
      fin_cases c <;> rfl

/-- `transform_linear_velocity` of a stack of `m` series with `K` resulting samples, `what="reference_frame"`. Columnwise behaviour holds for `K = 1` only.
For `K ≠ 1` and `m` other than `1`, `K` the call raises `ValueError`; for `m = K` column `j` gets, in every row, the
velocity of the frame at the time of row `j`; a stack of one series (`m = 1`) is returned with shape `(K, K, 3)`. -/
theorem C94_linear_reference_frame_partial (hsq : SquadLaw ext.squad) (hr : Reachable s h) (ha : a < s.size) (hb : b < s.size) {mv : ℕ} (hm : mv < s.size)
    (hp : PathAll s a b (FrameOk true s)) (hpm : PathAll s mv a (FrameOk true s)) (hl : Route s a b l) {v : ND ℝ} {ats : List ℝ} (hv : IsStack v m ats)
    {t : Arr Vec} {r : Arr Quat} {lts : Option (List ℝ)} (he : s.lookupTransform ext.squad a (.byObj b) = .ok (t, r, lts))
    {tr : Arr Vec} {ro : Arr Quat} {trTs : Option (List ℝ)} (hem : s.lookupTransform ext.squad mv (.byObj a) = .ok (tr, ro, trTs))
    (h2 : ∀ y, some (outStamps s l ats) = some y ∨ arrayStamps s l lts trTs = some y ∨ trTs = some y → 2 ≤ y.length)
    {outlier cutoff : Option ℝ} {lin ang : ND ℝ} {twTs : Option (List ℝ)}
    (htw : s.lookupTwist ext a (some (.byObj b)) (some (.byObj b)) { cutoff := cutoff, outlier := outlier, allowStatic := true, returnTimestamps := true } =
      .ok (.triple lin ang twTs)) (hlin : IsSeries lin twTs) (hang : IsSeries ang twTs) {mref : FrameRef} (hmref : s.resolve mref = .ok mv)
    (rf : Option FrameRef) {ots : List ℝ}
    (hots : sharedStamps [some (outStamps s l ats), twTs, twTs, arrayStamps s l lts trTs] = some ots) (rt : Bool) :
    (ots.length ≠ 1 → m ≠ ots.length → m ≠ 1 →
      s.transformLinearVelocity ext a v (.byObj b) "reference_frame" (some mref) rf { timestamps := stampArg (some ats), returnTimestamps := rt } outlier cutoff =
        .error .valueError) ∧
    (ots.length = 1 ∨ m = ots.length ∨ m = 1 → ∃ out lever,
      s.transformLinearVelocity ext a v (.byObj b) "reference_frame" (some mref) rf { timestamps := stampArg (some ats), returnTimestamps := rt } outlier cutoff =
        .ok (returned rt out (some ots)) ∧
      out.shape = [ots.length, if ots.length = 1 then m else ots.length, 3] ∧
      IsSeries lever (arrayStamps s l lts trTs) ∧
      (∀ τ d, SampleAt lever (arrayStamps s l lts trTs) τ d → ∃ A C, IsTransformAt ext.squad s a b τ A ∧ IsTransformAt ext.squad s mv a τ C ∧ d = rot A.r C.t) ∧
      ∀ (i j k : ℕ) τ τ', ots[i]? = some τ → ats[k]? = some τ → (j < if ots.length = 1 then m else ots.length) →
        ots[if ots.length = 1 then 0 else j]? = some τ' →
        ∃ A u ω d, IsTransformAt ext.squad s a b τ A ∧ ValueAt lin twTs τ' u ∧ ValueAt ang twTs τ' ω ∧ ValueAt lever (arrayStamps s l lts trTs) τ' d ∧
          cell out i j = rot A.r (cell v k (if m = 1 then 0 else j)) + u + cross ω d) := by
  obtain ⟨q1, q2⟩ := translation_series hsq hr hm ha hpm hem (fun y hy => h2 y (.inr (.inr hy)))
  have e : s.transformLinearVelocity ext a v (.byObj b) "reference_frame" (some mref) rf { timestamps := stampArg (some ats), returnTimestamps := rt } outlier cutoff =
      s.addLinear ext a v (.byObj b) { timestamps := stampArg (some ats), returnTimestamps := rt } lin ang twTs twTs tr trTs := by
    simp only [State.transformLinearVelocity, if_true, bind, Except.bind, htw, unpackTriple, State.resolveOpt, hmref, hem]
  rw [e]
  obtain ⟨k1, k2⟩ := addLinear_stack hsq hr ha hb hp hl hv (h2 _ (.inl rfl)) he hlin hang q1 (fun y hy => h2 y (.inr (.inl hy))) hots rt
  refine ⟨k1, fun hcase => ?_⟩
  obtain ⟨out, lever, o1, o2, o3, o4, o5⟩ := k2 hcase
  refine ⟨out, lever, o1, o2, o3, fun τ d hd => ?_, o5⟩
  obtain ⟨A, p, hA, hpp, e⟩ := o4 τ d hd
  obtain ⟨C, hC, rfl⟩ := q2 τ p hpp
  exact ⟨A, C, hA, hC, e⟩

/-- The same for `what="moving_frame"`. -/
theorem C94_linear_moving_frame_partial (hsq : SquadLaw ext.squad) (hr : Reachable s h) (ha : a < s.size) (hb : b < s.size)
    (hp : PathAll s a b (FrameOk true s)) (hp' : PathAll s b a (FrameOk true s)) (hl : Route s a b l) {v : ND ℝ} {ats : List ℝ} (hv : IsStack v m ats)
    {t : Arr Vec} {r : Arr Quat} {lts : Option (List ℝ)} (he : s.lookupTransform ext.squad a (.byObj b) = .ok (t, r, lts))
    {tr : Arr Vec} {ro : Arr Quat} {trTs : Option (List ℝ)} (heb : s.lookupTransform ext.squad b (.byObj a) = .ok (tr, ro, trTs))
    (h2 : ∀ y, some (outStamps s l ats) = some y ∨ arrayStamps s l lts trTs = some y ∨ trTs = some y → 2 ≤ y.length)
    {outlier cutoff : Option ℝ} {lin ang : ND ℝ} {linTs angTs : Option (List ℝ)} {rf : Option FrameRef}
    (hlook : s.lookupLinearVelocity ext b (some (.byObj a)) (some (.byObj b)) { cutoff := cutoff, outlier := outlier, allowStatic := true, returnTimestamps := true } =
      .ok (.withTs lin linTs))
    (hlook' : s.lookupAngularVelocity ext a rf (some (.byObj b)) { cutoff := cutoff, allowStatic := true, returnTimestamps := true } =
      .ok (.withTs ang angTs)) (hlin : IsSeries lin linTs) (hang : IsSeries ang angTs) (mf : Option FrameRef) {ots : List ℝ}
    (hots : sharedStamps [some (outStamps s l ats), linTs, angTs, arrayStamps s l lts trTs] = some ots) (rt : Bool) :
    (ots.length ≠ 1 → m ≠ ots.length → m ≠ 1 →
      s.transformLinearVelocity ext a v (.byObj b) "moving_frame" mf rf { timestamps := stampArg (some ats), returnTimestamps := rt } outlier cutoff =
        .error .valueError) ∧
    (ots.length = 1 ∨ m = ots.length ∨ m = 1 → ∃ out lever,
      s.transformLinearVelocity ext a v (.byObj b) "moving_frame" mf rf { timestamps := stampArg (some ats), returnTimestamps := rt } outlier cutoff =
        .ok (returned rt out (some ots)) ∧
      out.shape = [ots.length, if ots.length = 1 then m else ots.length, 3] ∧
      IsSeries lever (arrayStamps s l lts trTs) ∧
      (∀ τ d, SampleAt lever (arrayStamps s l lts trTs) τ d → ∃ A C, IsTransformAt ext.squad s a b τ A ∧ IsTransformAt ext.squad s b a τ C ∧ d = rot A.r C.t) ∧
      ∀ (i j k : ℕ) τ τ', ots[i]? = some τ → ats[k]? = some τ → (j < if ots.length = 1 then m else ots.length) →
        ots[if ots.length = 1 then 0 else j]? = some τ' →
        ∃ A u ω d, IsTransformAt ext.squad s a b τ A ∧ ValueAt lin linTs τ' u ∧ ValueAt ang angTs τ' ω ∧ ValueAt lever (arrayStamps s l lts trTs) τ' d ∧
          cell out i j = rot A.r (cell v k (if m = 1 then 0 else j)) + u + cross ω d) := by
  obtain ⟨q1, q2⟩ := translation_series hsq hr hb ha hp' heb (fun y hy => h2 y (.inr (.inr hy)))
  have hres : s.resolve (.byObj b) = .ok b := rfl
  have e : s.transformLinearVelocity ext a v (.byObj b) "moving_frame" mf rf { timestamps := stampArg (some ats), returnTimestamps := rt } outlier cutoff =
      s.addLinear ext a v (.byObj b) { timestamps := stampArg (some ats), returnTimestamps := rt } lin ang linTs angTs tr trTs := by
    simp only [State.transformLinearVelocity, if_neg (show "moving_frame" ≠ "reference_frame" by decide), if_true, bind, Except.bind, hres, hlook, hlook',
      unpackPair, heb]
  rw [e]
  obtain ⟨k1, k2⟩ := addLinear_stack hsq hr ha hb hp hl hv (h2 _ (.inl rfl)) he hlin hang q1 (fun y hy => h2 y (.inr (.inl hy))) hots rt
  refine ⟨k1, fun hcase => ?_⟩
  obtain ⟨out, lever, o1, o2, o3, o4, o5⟩ := k2 hcase
  refine ⟨out, lever, o1, o2, o3, fun τ d hd => ?_, o5⟩
  obtain ⟨A, p, hA, hpp, e⟩ := o4 τ d hd
  obtain ⟨C, hC, rfl⟩ := q2 τ p hpp
  exact ⟨A, C, hA, hC, e⟩

theorem add_zeros {v : ND ℝ} {sh : List ℕ} (hs : v.shape = sh ++ [3]) : ∃ c, ND.bop (fun x y => x + y) v zeros3 = .ok c ∧ c.shape = v.shape ∧
    ∀ idx, Valid v.shape idx → c.get idx = v.get idx := by
  have hb : ND.bshape v.shape zeros3.shape = some v.shape := by
    refine bshape_pad' ?_
    rw [hs]
    simp only [zeros3, List.length_append, List.length_cons, List.length_nil, Nat.zero_add, Nat.add_sub_cancel]
    refine Bcast.append ?_ (.cons (.inl rfl) .nil)
    clear hs
    induction sh with
    | nil => exact .nil
    | cons n sh ih => exact .cons (.inr rfl) ih
  refine ⟨⟨v.shape, fun idx => v.bget idx + zeros3.bget idx⟩, by simp only [ND.bop, hb], rfl, fun idx hv => ?_⟩
  show v.bget idx + zeros3.bget idx = _
  rw [bget_valid v hv]
  show _ + (0 : ℝ) = _
  rw [add_zero]

/-- On a static path, velocities without timestamps of any shape `(…, 3)`: nothing is added, both velocity transforms
rotate every vector, like `transform_vectors`. -/
theorem C94_static (hr : Reachable s h) (ha : a < s.size) (hb : b < s.size) (hp : PathAll s a b (FrameOk false s)) {v : ND ℝ} {sh : List ℕ}
    (hs : v.shape = sh ++ [3]) (rt : Bool) (ta : Option ℤ) (hta : NoSwap ta v.ndim) (cutoff outlier : Option ℝ) :
    ∃ A out, (∀ τ, IsTransformAt ext.squad s a b τ A) ∧
      s.transformAngularVelocity ext a v (.byObj b) "reference_frame" { timeAxis := ta, returnTimestamps := rt } cutoff = .ok (returned rt out none) ∧
      (∀ {mv : ℕ} {mref : FrameRef} (rf : Option FrameRef), s.resolve mref = .ok mv → mv < s.size → PathAll s mv a (FrameOk false s) → ∃ out',
        s.transformLinearVelocity ext a v (.byObj b) "reference_frame" (some mref) rf { timeAxis := ta, returnTimestamps := rt } outlier cutoff =
          .ok (returned rt out' none) ∧ out'.shape = v.shape ∧ ∀ idx, Valid v.shape idx → out'.get idx = out.get idx) ∧
      out.shape = v.shape ∧ ∀ idx, Valid v.shape idx → vec3 out sh.length idx = rot A.r (vec3 v sh.length idx) := by
  have hd : v.ndim = sh.length + 1 := by simp [ND.ndim, hs]
  have hax : AxisIs (-1) v.ndim sh.length := ⟨by omega, .inr (by rw [hd]; push_cast; ring)⟩
  obtain ⟨A, w, h1, h2, h3, h4, h5⟩ := C15_vectors_static ext.squad hr ha hb hp v { timeAxis := ta, returnTimestamps := true } (p := sh.length) hax (by simp [hs]) rfl hta
  obtain ⟨c, c1, c2, c3⟩ := add_zeros (h4.trans hs)
  have hz := lookup_static_zero (ext := ext) (resolveOr_obj (s := s) (a := a) b) (resolveOr_obj b) h2
  have hza := (hz { cutoff := cutoff, allowStatic := true, returnTimestamps := true }).1
  have hzt := (hz { cutoff := cutoff, outlier := outlier, allowStatic := true, returnTimestamps := true }).2.2
  simp only [if_true] at hza hzt
  refine ⟨A, c, h1, ?_, ?_, c2.trans h4, fun idx hi => ?_⟩
  · simp only [State.transformAngularVelocity, if_true, bind, Except.bind, hza, unpackPair, State.addAngular, h3, returned, matchArrays_static ext.squad
      (l := [⟨w, none⟩, ⟨zeros3, none⟩]) (by simp), List.map_cons, List.map_nil, ND.iadd, c1, c2, Pure.pure, Except.pure, pyReturn_eq]
  · intro mv mref rf hmref hmv hpm
    obtain ⟨B, _, _, _, _, _, _, hB⟩ := core_static ext.squad hr.wf hmv ha hpm v
    have hBd : (ND.ofVecs (.one B.t)).ndim = 1 := rfl
    obtain ⟨A', w', _, _, k3, k4, _⟩ := C15_vectors_static ext.squad hr ha hb hp (ND.ofVecs (.one B.t)) { returnTimestamps := true } (p := 0)
      ⟨by rw [hBd]; omega, .inr (by rw [hBd]; rfl)⟩ rfl rfl (fun t ht => by cases ht; exact ⟨by rw [hBd]; omega, .inl rfl⟩)
    obtain ⟨C, d1, d2, d3⟩ := npCross_same (a := zeros3) (b := w') (sh := []) rfl k4
    have hC0 : ∀ j : ℕ, j < 3 → C.get [j] = 0 := by
      intro j hj
      have := d3 [] trivial ⟨j, hj⟩
      simp only [List.nil_append] at this
      rw [this]
      show Spec.cross (0 : Vec) _ _ = 0
      have : Spec.cross (0 : Vec) (fun k : Fin 3 => w'.get [(k : ℕ)]) = 0 := by ext i; fin_cases i <;> simp [Spec.cross]
      rw [this]; rfl
    have hbs : ND.bshape c.shape C.shape = some c.shape := by
      have : ND.bshape w.shape zeros3.shape = some w.shape := by
        simp only [ND.bop] at c1
        split at c1
        · cases c1
        · rename_i sh' e; cases c1; rw [e]; exact congrArg some c2
      rw [c2, d2]; exact this
    have hbop : ND.bop (fun x y => x + y) c C = .ok ⟨c.shape, fun idx => c.bget idx + C.bget idx⟩ := by simp only [ND.bop, hbs]
    refine ⟨⟨c.shape, fun idx => c.bget idx + C.bget idx⟩, ?_, c2.trans h4, fun idx hi => ?_⟩
    · have e1 : s.transformVectors ext.squad a (ND.ofVecs (.one B.t)) (.byObj b) { timestamps := stampArg none, returnTimestamps := true } = .ok (.withTs w' none) := k3
      simp only [State.transformLinearVelocity, if_true, bind, Except.bind, hzt, unpackTriple, State.resolveOpt, hmref, hB, State.addLinear, h3, returned, unpackPair, e1,
        matchArrays_static ext.squad (l := [⟨w, none⟩, ⟨zeros3, none⟩, ⟨zeros3, none⟩, ⟨w', none⟩]) (by simp), List.map_cons, List.map_nil, c1, d1, hbop,
        Pure.pure, Except.pure, pyReturn_eq]
    · show c.bget idx + C.bget idx = c.get idx
      rw [bget_valid c (by rw [c2, h4]; exact hi)]
      have hCd : C.ndim = 1 := by simp [ND.ndim, d2]
      have : C.bget idx = 0 := by
        simp only [ND.bget, hCd, d2, List.nil_append]
        rw [hs] at hi
        obtain ⟨pre, x, rfl, _, hx⟩ := valid_snoc hi
        simp only [List.length_append, List.length_cons, List.length_nil, Nat.zero_add, Nat.add_sub_cancel, List.drop_left, ND.bidx]
        exact hC0 _ (by simpa using hx)
      rw [this, add_zero]
  · rw [← h5 idx hi]
    have hk : ∀ k, k < 3 → c.get (idx.set sh.length k) = w.get (idx.set sh.length k) := fun k hk => c3 _ (by
      rw [h4, hs] at *
      obtain ⟨pre, x, rfl, hpre, _⟩ := valid_snoc hi
      rw [← hpre.length, List.set_append_right _ _ (le_refl _), Nat.sub_self, List.set_cons_zero]
      exact (valid_append hpre.length).mpr ⟨hpre, hk, trivial⟩)
    ext k
    fin_cases k
    · exact hk 0 (by omega)
    · exact hk 1 (by omega)
    · exact hk 2 (by omega)

end

end RBM.Props
