import Verif.Spec.Selection
import Verif.Props.TransformMore

/-!
C83: the result at a timestamp depends only on the sample with that timestamp; transforming selected samples selects from the transformed samples.
-/

namespace RBM.Props

open RBM RBM.Spec

theorem vec3_get {v w : ND ℝ} {p : ℕ} {i j : List ℕ} (h : ∀ c, v.get (i.set p c) = w.get (j.set p c)) : vec3 v p i = vec3 w p j := by
  simp only [vec3, h]

/-- For two timestamped arrays that have the same points at a common timestamp, the transformed arrays have the same points at that timestamp. -/
theorem C83_sample_points (sq : SquadFn) (hsq : SquadLaw sq) {s : State} {h : List Event} (hr : Reachable s h)
    {a b : ℕ} (ha : a < s.size) (hb : b < s.size) (hp : PathAll s a b (FrameOk true s)) (v w : ND ℝ) (o o' : TArgs) {p q : ℕ} {ta : ℤ} {ats bts : List ℝ}
    (hnd : w.ndim = v.ndim) (hax : AxisIs o.axis v.ndim p) (h3 : v.shape.getD p 0 = 3) (h3' : w.shape.getD p 0 = 3) (hta : o.timeAxis = some ta)
    (hq : AxisIs ta v.ndim q) (hts : o.timestamps = some (ofList ats)) (htd : TimedArray v q ats) (htd' : TimedArray w q bts)
    (hp0 : p ≠ 0) (hpq : p ≠ q) (hlast : p + 1 = v.ndim) (ho' : o' = { o with timestamps := some (ofList bts) }) :
    ∃ out out' T T', s.transformPoints sq a v (.byObj b) o = .ok (returned o.returnTimestamps out (some T)) ∧
      s.transformPoints sq a w (.byObj b) o' = .ok (returned o.returnTimestamps out' (some T')) ∧
      out.shape = v.shape.set q T.length ∧ out'.shape = w.shape.set q T'.length ∧ StrictlyIncreasing T ∧ StrictlyIncreasing T' ∧
      (∀ τ, τ ∈ ats → τ ∈ bts → (τ ∈ T ↔ τ ∈ T')) ∧ (∀ τ ∈ T, τ ∈ ats) ∧ (∀ τ ∈ T', τ ∈ bts) ∧
      ∀ (i j k l : ℕ) τ, T[i]? = some τ → T'[j]? = some τ → ats[k]? = some τ → bts[l]? = some τ → ∀ idx, Valid v.shape idx → Valid w.shape idx →
        vec3 w p (idx.set q l) = vec3 v p (idx.set q k) → vec3 out' p (idx.set q j) = vec3 out p (idx.set q i) := by
  obtain ⟨c, la, lb, hc, hla, hlb, hok⟩ := hp
  have hl : Route s a b (la ++ lb.reverse) := ⟨c, la, lb, hc, hla, hlb, rfl⟩
  have hp : PathAll s a b (FrameOk true s) := ⟨c, la, lb, hc, hla, hlb, hok⟩
  obtain ⟨out, e1, e2, e3⟩ := C15_points_timed sq hsq hr ha hb hp hl v o hax h3 hta hq hts htd hp0 hpq hlast
  obtain ⟨out', f1, f2, f3⟩ := C15_points_timed sq hsq hr ha hb hp hl w o' (p := p) (q := q) (ta := ta) (ats := bts)
    (by rw [ho', hnd]; exact hax) h3' (by rw [ho']; exact hta) (by rw [hnd]; exact hq) (by rw [ho']) htd' hp0 hpq (by rw [hnd]; exact hlast)
  rw [show o'.returnTimestamps = o.returnTimestamps by rw [ho']] at f1
  have t1 := C20_array_timestamps (s := s) (l := la ++ lb.reverse) htd.sorted
  have t2 := C20_array_timestamps (s := s) (l := la ++ lb.reverse) htd'.sorted
  refine ⟨out, out', _, _, e1, f1, e2, f2, t1.1, t2.1, fun τ h1 h2 => ?_, fun τ hτ => ((t1.2.2 τ).mp hτ).1, fun τ hτ => ((t2.2.2 τ).mp hτ).1,
    fun i j k l τ hi hj hk hl idx hv hw hvw => ?_⟩
  · rw [t1.2.2, t2.2.2]; simp only [h1, h2, true_and]
  · obtain ⟨A, hA, e3⟩ := e3 i k τ hi hk
    obtain ⟨B, hB, f3⟩ := f3 j l τ hj hl
    rw [f3 idx hw, e3 idx hv, hvw, isTransformAt_unique hr.wf (mv := true) (fun _ => hsq) hp hA hB]

/-- The same for vectors. -/
theorem C83_sample_vectors (sq : SquadFn) (hsq : SquadLaw sq) {s : State} {h : List Event} (hr : Reachable s h)
    {a b : ℕ} (ha : a < s.size) (hb : b < s.size) (hp : PathAll s a b (FrameOk true s)) (v w : ND ℝ) (o o' : TArgs) {p q : ℕ} {ta : ℤ} {ats bts : List ℝ}
    (hnd : w.ndim = v.ndim) (hax : AxisIs o.axis v.ndim p) (h3 : v.shape.getD p 0 = 3) (h3' : w.shape.getD p 0 = 3) (hta : o.timeAxis = some ta)
    (hq : AxisIs ta v.ndim q) (hts : o.timestamps = some (ofList ats)) (htd : TimedArray v q ats) (htd' : TimedArray w q bts)
    (hp0 : p ≠ 0) (hpq : p ≠ q) (hlast : p + 1 = v.ndim) (ho' : o' = { o with timestamps := some (ofList bts) }) :
    ∃ out out' T T', s.transformVectors sq a v (.byObj b) o = .ok (returned o.returnTimestamps out (some T)) ∧
      s.transformVectors sq a w (.byObj b) o' = .ok (returned o.returnTimestamps out' (some T')) ∧
      out.shape = v.shape.set q T.length ∧ out'.shape = w.shape.set q T'.length ∧ StrictlyIncreasing T ∧ StrictlyIncreasing T' ∧
      (∀ τ, τ ∈ ats → τ ∈ bts → (τ ∈ T ↔ τ ∈ T')) ∧ (∀ τ ∈ T, τ ∈ ats) ∧ (∀ τ ∈ T', τ ∈ bts) ∧
      ∀ (i j k l : ℕ) τ, T[i]? = some τ → T'[j]? = some τ → ats[k]? = some τ → bts[l]? = some τ → ∀ idx, Valid v.shape idx → Valid w.shape idx →
        vec3 w p (idx.set q l) = vec3 v p (idx.set q k) → vec3 out' p (idx.set q j) = vec3 out p (idx.set q i) := by
  obtain ⟨c, la, lb, hc, hla, hlb, hok⟩ := hp
  have hl : Route s a b (la ++ lb.reverse) := ⟨c, la, lb, hc, hla, hlb, rfl⟩
  have hp : PathAll s a b (FrameOk true s) := ⟨c, la, lb, hc, hla, hlb, hok⟩
  obtain ⟨out, e1, e2, e3⟩ := C15_vectors_timed sq hsq hr ha hb hp hl v o hax h3 hta hq hts htd hp0 hpq (.inl hlast)
  obtain ⟨out', f1, f2, f3⟩ := C15_vectors_timed sq hsq hr ha hb hp hl w o' (p := p) (q := q) (ta := ta) (ats := bts)
    (by rw [ho', hnd]; exact hax) h3' (by rw [ho']; exact hta) (by rw [hnd]; exact hq) (by rw [ho']) htd' hp0 hpq (.inl (by rw [hnd]; exact hlast))
  rw [show o'.returnTimestamps = o.returnTimestamps by rw [ho']] at f1
  have t1 := C20_array_timestamps (s := s) (l := la ++ lb.reverse) htd.sorted
  have t2 := C20_array_timestamps (s := s) (l := la ++ lb.reverse) htd'.sorted
  refine ⟨out, out', _, _, e1, f1, e2, f2, t1.1, t2.1, fun τ h1 h2 => ?_, fun τ hτ => ((t1.2.2 τ).mp hτ).1, fun τ hτ => ((t2.2.2 τ).mp hτ).1,
    fun i j k l τ hi hj hk hl idx hv hw hvw => ?_⟩
  · rw [t1.2.2, t2.2.2]; simp only [h1, h2, true_and]
  · obtain ⟨A, hA, e3⟩ := e3 i k τ hi hk
    obtain ⟨B, hB, f3⟩ := f3 j l τ hj hl
    rw [f3 idx hw, e3 idx hv, hvw, isTransformAt_unique hr.wf (mv := true) (fun _ => hsq) hp hA hB]

/-- The same for `(n, 4)` arrays of unit orientations. -/
theorem C83_sample_orientations (sq : SquadFn) (hsq : SquadLaw sq) {s : State} {h : List Event} (hr : Reachable s h)
    {a b : ℕ} (ha : a < s.size) (hb : b < s.size) (hp : PathAll s a b (FrameOk true s)) (v w : ND ℝ) (o o' : TArgs) {ats bts : List ℝ}
    (hsv : v.shape = [ats.length, 4]) (hsw : w.shape = [bts.length, 4]) (hoa : o.axis = -1) (hta : o.timeAxis = some 0)
    (hts : o.timestamps = some (ofList ats)) (hat : 2 ≤ ats.length) (hbt : 2 ≤ bts.length) (hai : StrictlyIncreasing ats) (hbi : StrictlyIncreasing bts)
    (hu : ∀ i < ats.length, IsUnitQ (quat4 v 1 [i, 0])) (hu' : ∀ i < bts.length, IsUnitQ (quat4 w 1 [i, 0]))
    (ho' : o' = { o with timestamps := some (ofList bts) }) :
    ∃ out out' T T', s.transformQuaternions sq a v (.byObj b) o = .ok (returned o.returnTimestamps out (some T)) ∧
      s.transformQuaternions sq a w (.byObj b) o' = .ok (returned o.returnTimestamps out' (some T')) ∧
      out.shape = [T.length, 4] ∧ out'.shape = [T'.length, 4] ∧ StrictlyIncreasing T ∧ StrictlyIncreasing T' ∧
      (∀ τ, τ ∈ ats → τ ∈ bts → (τ ∈ T ↔ τ ∈ T')) ∧ (∀ τ ∈ T, τ ∈ ats) ∧ (∀ τ ∈ T', τ ∈ bts) ∧
      ∀ (i j k l : ℕ) τ, T[i]? = some τ → T'[j]? = some τ → ats[k]? = some τ → bts[l]? = some τ →
        quat4 w 1 [l, 0] = quat4 v 1 [k, 0] → quat4 out' 1 [j, 0] = quat4 out 1 [i, 0] := by
  obtain ⟨c, la, lb, hc, hla, hlb, hok⟩ := hp
  have hl : Route s a b (la ++ lb.reverse) := ⟨c, la, lb, hc, hla, hlb, rfl⟩
  have hp : PathAll s a b (FrameOk true s) := ⟨c, la, lb, hc, hla, hlb, hok⟩
  have n1 : v.ndim = 2 := by simp [ND.ndim, hsv]
  have n2 : w.ndim = 2 := by simp [ND.ndim, hsw]
  obtain ⟨out, e1, e2, e3⟩ := C16_orientations_timed sq hsq hr ha hb hp hl v o (p := 1) (q := 0) (ta := 0) (ats := ats)
    (by rw [hoa, n1]; exact ⟨by norm_num, .inr (by norm_num)⟩) (by simp [hsv]) hta (by rw [n1]; exact ⟨by norm_num, .inl rfl⟩) hts
    ⟨by omega, by simp [hsv], hat, hai⟩ (by norm_num) (by norm_num) (.inl ⟨n1, hu⟩)
  obtain ⟨out', f1, f2, f3⟩ := C16_orientations_timed sq hsq hr ha hb hp hl w o' (p := 1) (q := 0) (ta := 0) (ats := bts)
    (by rw [ho', hoa, n2]; exact ⟨by norm_num, .inr (by norm_num)⟩) (by simp [hsw]) (by rw [ho']; exact hta) (by rw [n2]; exact ⟨by norm_num, .inl rfl⟩) (by rw [ho'])
    ⟨by omega, by simp [hsw], hbt, hbi⟩ (by norm_num) (by norm_num) (.inl ⟨n2, hu'⟩)
  rw [show o'.returnTimestamps = o.returnTimestamps by rw [ho']] at f1
  have t1 := C20_array_timestamps (s := s) (l := la ++ lb.reverse) hai
  have t2 := C20_array_timestamps (s := s) (l := la ++ lb.reverse) hbi
  refine ⟨out, out', _, _, e1, f1, by rw [e2, hsv]; rfl, by rw [f2, hsw]; rfl, t1.1, t2.1, fun τ h1 h2 => ?_, fun τ hτ => ((t1.2.2 τ).mp hτ).1,
    fun τ hτ => ((t2.2.2 τ).mp hτ).1, fun i j k l τ hi hj hk hl hvw => ?_⟩
  · rw [t1.2.2, t2.2.2]; simp only [h1, h2, true_and]
  · obtain ⟨A, hA, e3⟩ := e3 i k τ hi hk
    obtain ⟨B, hB, f3⟩ := f3 j l τ hj hl
    have x1 := e3 [0, 0] (by rw [hsv]; exact ⟨by omega, by norm_num, trivial⟩)
    have x2 := f3 [0, 0] (by rw [hsw]; exact ⟨by omega, by norm_num, trivial⟩)
    simp only [List.set_cons_zero] at x1 x2
    rw [x1, x2, hvw, isTransformAt_unique hr.wf (mv := true) (fun _ => hsq) hp hA hB]

/-! ### Selections -/

theorem select_stamps {ats : List ℝ} (hi : StrictlyIncreasing ats) {sel : List ℕ} (hs : Selection sel ats.length) :
    StrictlyIncreasing (sel.map fun k => ats.getD k 0) := by
  refine List.pairwise_map.mpr (hs.sorted.imp_of_mem fun {x y} hx hy hxy => ?_)
  have h1 := hs.lt x hx
  have h2 := hs.lt y hy
  rw [List.getD_eq_getElem?_getD, List.getD_eq_getElem?_getD, List.getElem?_eq_getElem h1, List.getElem?_eq_getElem h2]
  exact List.pairwise_iff_getElem.mp hi x y h1 h2 hxy

theorem select_timed {v : ND ℝ} {q : ℕ} {ats : List ℝ} (h : TimedArray v q ats) {sel : List ℕ} (hs : Selection sel ats.length) :
    TimedArray (selectSamples v q sel) q (sel.map fun k => ats.getD k 0) := by
  have hq := h.axis
  simp only [ND.ndim] at hq
  refine ⟨by simpa [ND.ndim, selectSamples] using hq, by simp [selectSamples, hq], by simpa using hs.two, select_stamps h.sorted hs⟩

theorem select_get {v : ND ℝ} {p q : ℕ} (hpq : p ≠ q) {sel : List ℕ} {idx : List ℕ} (hq : q < idx.length) (l c : ℕ) :
    (selectSamples v q sel).get ((idx.set q l).set p c) = v.get ((idx.set q (sel.getD l 0)).set p c) := by
  have e : ((idx.set q l).set p c).getD q 0 = l := by
    rw [List.getD_eq_getElem?_getD, List.getElem?_set_ne hpq, List.getElem?_set_self hq, Option.getD_some]
  have e2 : ((idx.set q l).set p c).set q (sel.getD l 0) = (idx.set q (sel.getD l 0)).set p c := by
    rw [List.set_comm _ _ hpq, List.set_set]
  show v.get (((idx.set q l).set p c).set q (sel.getD (((idx.set q l).set p c).getD q 0) 0)) = _
  rw [e, e2]

/-- Processing in parts: transforming a selection of the samples gives the selection of the transformed samples, with the timestamps that were selected. -/
theorem C83_select_points (sq : SquadFn) (hsq : SquadLaw sq) {s : State} {h : List Event} (hr : Reachable s h)
    {a b : ℕ} (ha : a < s.size) (hb : b < s.size) (hp : PathAll s a b (FrameOk true s)) (v : ND ℝ) (o o' : TArgs) {p q : ℕ} {ta : ℤ} {ats : List ℝ}
    (hax : AxisIs o.axis v.ndim p) (h3 : v.shape.getD p 0 = 3) (hta : o.timeAxis = some ta)
    (hq : AxisIs ta v.ndim q) (hts : o.timestamps = some (ofList ats)) (htd : TimedArray v q ats) (hp0 : p ≠ 0) (hpq : p ≠ q) (hlast : p + 1 = v.ndim)
    {sel : List ℕ} (hs : Selection sel ats.length) (ho' : o' = { o with timestamps := some (ofList (sel.map fun k => ats.getD k 0)) }) :
    ∃ out out' T T', s.transformPoints sq a v (.byObj b) o = .ok (returned o.returnTimestamps out (some T)) ∧
      s.transformPoints sq a (selectSamples v q sel) (.byObj b) o' = .ok (returned o.returnTimestamps out' (some T')) ∧
      out.shape = v.shape.set q T.length ∧ out'.shape = v.shape.set q T'.length ∧ StrictlyIncreasing T ∧ StrictlyIncreasing T' ∧
      (∀ τ, τ ∈ T' ↔ τ ∈ T ∧ ∃ k ∈ sel, ats[k]? = some τ) ∧
      ∀ (i j : ℕ) τ, T[i]? = some τ → T'[j]? = some τ → ∀ idx, Valid v.shape idx → vec3 out' p (idx.set q j) = vec3 out p (idx.set q i) := by
  have htd' := select_timed htd hs
  have hqn := htd.axis
  simp only [ND.ndim] at hqn
  have mem : ∀ τ, τ ∈ (sel.map fun k => ats.getD k 0) ↔ ∃ k ∈ sel, ats[k]? = some τ := by
    intro τ
    simp only [List.mem_map]
    constructor
    · rintro ⟨k, hk, rfl⟩
      exact ⟨k, hk, by rw [List.getD_eq_getElem?_getD, List.getElem?_eq_getElem (hs.lt k hk)]; rfl⟩
    · rintro ⟨k, hk, h⟩
      exact ⟨k, hk, by rw [List.getD_eq_getElem?_getD, h]; rfl⟩
  obtain ⟨out, out', T, T', c1, c2, c3, c4, c5, c6, c7, c8, c9, c10⟩ := C83_sample_points sq hsq hr ha hb hp v (selectSamples v q sel) o o'
    (by simp [ND.ndim, selectSamples]) hax h3 (by simpa [selectSamples, List.getElem?_set_ne (Ne.symm hpq)] using h3) hta hq hts htd htd' hp0 hpq hlast ho'
  refine ⟨out, out', T, T', c1, c2, c3, by rw [c4]; simp [selectSamples], c5, c6, fun τ => ⟨fun hτ => ?_, fun ⟨hτ, hk⟩ => ?_⟩, fun i j τ hi hj idx hv => ?_⟩
  · have h2 := c9 τ hτ
    obtain ⟨k, hk, hk'⟩ := (mem τ).mp h2
    exact ⟨(c7 τ (List.mem_of_getElem? hk') h2).mpr hτ, k, hk, hk'⟩
  · exact (c7 τ (c8 τ hτ) ((mem τ).mpr hk)).mp hτ
  · obtain ⟨k, hk, hk'⟩ := (mem τ).mp (c9 τ (List.mem_of_getElem? hj))
    obtain ⟨l, hl, rfl⟩ := List.mem_iff_getElem.mp hk
    have hb : (sel.map fun k => ats.getD k 0)[l]? = some τ := by
      rw [List.getElem?_map, List.getElem?_eq_getElem hl, Option.map_some, List.getD_eq_getElem?_getD, hk', Option.getD_some]
    have hqi : q < idx.length := by rw [hv.length]; exact hqn
    have hsame : vec3 (selectSamples v q sel) p ((idx.set q 0).set q l) = vec3 v p ((idx.set q 0).set q sel[l]) := by
      refine vec3_get fun c => ?_
      rw [select_get hpq (by simpa using hqi), List.getD_eq_getElem?_getD, List.getElem?_eq_getElem hl, Option.getD_some]
    have := c10 i j sel[l] l τ hi hj hk' hb (idx.set q 0) (valid_set hv (by rw [htd.length]; have := htd.two; omega))
      (by
        show Valid (v.shape.set q sel.length) (idx.set q 0)
        exact valid_set_set hv (by have := hs.two; omega)) hsame
    simpa only [List.set_set] using this

/-- The same for vectors. -/
theorem C83_select_vectors (sq : SquadFn) (hsq : SquadLaw sq) {s : State} {h : List Event} (hr : Reachable s h)
    {a b : ℕ} (ha : a < s.size) (hb : b < s.size) (hp : PathAll s a b (FrameOk true s)) (v : ND ℝ) (o o' : TArgs) {p q : ℕ} {ta : ℤ} {ats : List ℝ}
    (hax : AxisIs o.axis v.ndim p) (h3 : v.shape.getD p 0 = 3) (hta : o.timeAxis = some ta)
    (hq : AxisIs ta v.ndim q) (hts : o.timestamps = some (ofList ats)) (htd : TimedArray v q ats) (hp0 : p ≠ 0) (hpq : p ≠ q) (hlast : p + 1 = v.ndim)
    {sel : List ℕ} (hs : Selection sel ats.length) (ho' : o' = { o with timestamps := some (ofList (sel.map fun k => ats.getD k 0)) }) :
    ∃ out out' T T', s.transformVectors sq a v (.byObj b) o = .ok (returned o.returnTimestamps out (some T)) ∧
      s.transformVectors sq a (selectSamples v q sel) (.byObj b) o' = .ok (returned o.returnTimestamps out' (some T')) ∧
      out.shape = v.shape.set q T.length ∧ out'.shape = v.shape.set q T'.length ∧ StrictlyIncreasing T ∧ StrictlyIncreasing T' ∧
      (∀ τ, τ ∈ T' ↔ τ ∈ T ∧ ∃ k ∈ sel, ats[k]? = some τ) ∧
      ∀ (i j : ℕ) τ, T[i]? = some τ → T'[j]? = some τ → ∀ idx, Valid v.shape idx → vec3 out' p (idx.set q j) = vec3 out p (idx.set q i) := by
  have htd' := select_timed htd hs
  have hqn := htd.axis
  simp only [ND.ndim] at hqn
  have mem : ∀ τ, τ ∈ (sel.map fun k => ats.getD k 0) ↔ ∃ k ∈ sel, ats[k]? = some τ := by
    intro τ
    simp only [List.mem_map]
    constructor
    · rintro ⟨k, hk, rfl⟩
      exact ⟨k, hk, by rw [List.getD_eq_getElem?_getD, List.getElem?_eq_getElem (hs.lt k hk)]; rfl⟩
    · rintro ⟨k, hk, h⟩
      exact ⟨k, hk, by rw [List.getD_eq_getElem?_getD, h]; rfl⟩
  obtain ⟨out, out', T, T', c1, c2, c3, c4, c5, c6, c7, c8, c9, c10⟩ := C83_sample_vectors sq hsq hr ha hb hp v (selectSamples v q sel) o o'
    (by simp [ND.ndim, selectSamples]) hax h3 (by simpa [selectSamples, List.getElem?_set_ne (Ne.symm hpq)] using h3) hta hq hts htd htd' hp0 hpq hlast ho'
  refine ⟨out, out', T, T', c1, c2, c3, by rw [c4]; simp [selectSamples], c5, c6, fun τ => ⟨fun hτ => ?_, fun ⟨hτ, hk⟩ => ?_⟩, fun i j τ hi hj idx hv => ?_⟩
  · have h2 := c9 τ hτ
    obtain ⟨k, hk, hk'⟩ := (mem τ).mp h2
    exact ⟨(c7 τ (List.mem_of_getElem? hk') h2).mpr hτ, k, hk, hk'⟩
  · exact (c7 τ (c8 τ hτ) ((mem τ).mpr hk)).mp hτ
  · obtain ⟨k, hk, hk'⟩ := (mem τ).mp (c9 τ (List.mem_of_getElem? hj))
    obtain ⟨l, hl, rfl⟩ := List.mem_iff_getElem.mp hk
    have hb : (sel.map fun k => ats.getD k 0)[l]? = some τ := by
      rw [List.getElem?_map, List.getElem?_eq_getElem hl, Option.map_some, List.getD_eq_getElem?_getD, hk', Option.getD_some]
    have hqi : q < idx.length := by rw [hv.length]; exact hqn
    have hsame : vec3 (selectSamples v q sel) p ((idx.set q 0).set q l) = vec3 v p ((idx.set q 0).set q sel[l]) := by
      refine vec3_get fun c => ?_
      rw [select_get hpq (by simpa using hqi), List.getD_eq_getElem?_getD, List.getElem?_eq_getElem hl, Option.getD_some]
    have := c10 i j sel[l] l τ hi hj hk' hb (idx.set q 0) (valid_set hv (by rw [htd.length]; have := htd.two; omega))
      (by
        show Valid (v.shape.set q sel.length) (idx.set q 0)
        exact valid_set_set hv (by have := hs.two; omega)) hsame
    simpa only [List.set_set] using this

theorem select_get2 {v : ND ℝ} {sel : List ℕ} (l c : ℕ) : (selectSamples v 0 sel).get [l, c] = v.get [sel.getD l 0, c] := rfl

/-- The same for `(n, 4)` arrays of unit orientations. -/
theorem C83_select_orientations (sq : SquadFn) (hsq : SquadLaw sq) {s : State} {h : List Event} (hr : Reachable s h)
    {a b : ℕ} (ha : a < s.size) (hb : b < s.size) (hp : PathAll s a b (FrameOk true s)) (v : ND ℝ) (o o' : TArgs) {ats : List ℝ}
    (hsv : v.shape = [ats.length, 4]) (hoa : o.axis = -1) (hta : o.timeAxis = some 0) (hts : o.timestamps = some (ofList ats)) (hai : StrictlyIncreasing ats)
    (hu : ∀ i < ats.length, IsUnitQ (quat4 v 1 [i, 0])) {sel : List ℕ} (hs : Selection sel ats.length)
    (ho' : o' = { o with timestamps := some (ofList (sel.map fun k => ats.getD k 0)) }) :
    ∃ out out' T T', s.transformQuaternions sq a v (.byObj b) o = .ok (returned o.returnTimestamps out (some T)) ∧
      s.transformQuaternions sq a (selectSamples v 0 sel) (.byObj b) o' = .ok (returned o.returnTimestamps out' (some T')) ∧
      out.shape = [T.length, 4] ∧ out'.shape = [T'.length, 4] ∧ StrictlyIncreasing T ∧ StrictlyIncreasing T' ∧
      (∀ τ, τ ∈ T' ↔ τ ∈ T ∧ ∃ k ∈ sel, ats[k]? = some τ) ∧
      ∀ (i j : ℕ) τ, T[i]? = some τ → T'[j]? = some τ → quat4 out' 1 [j, 0] = quat4 out 1 [i, 0] := by
  have mem : ∀ τ, τ ∈ (sel.map fun k => ats.getD k 0) ↔ ∃ k ∈ sel, ats[k]? = some τ := by
    intro τ
    simp only [List.mem_map]
    constructor
    · rintro ⟨k, hk, rfl⟩
      exact ⟨k, hk, by rw [List.getD_eq_getElem?_getD, List.getElem?_eq_getElem (hs.lt k hk)]; rfl⟩
    · rintro ⟨k, hk, h⟩
      exact ⟨k, hk, by rw [List.getD_eq_getElem?_getD, h]; rfl⟩
  have hq : ∀ l, quat4 (selectSamples v 0 sel) 1 [l, 0] = quat4 v 1 [sel.getD l 0, 0] := fun l => rfl
  have h2 : 2 ≤ ats.length := by
    obtain ⟨h1, h2, h3⟩ := hs
    match sel, h1 with
    | x :: y :: l, _ =>
      have := (List.pairwise_cons.mp h2).1 y (by simp)
      have := h3 y (by simp)
      omega
  obtain ⟨out, out', T, T', c1, c2, c3, c4, c5, c6, c7, c8, c9, c10⟩ := C83_sample_orientations sq hsq hr ha hb hp v (selectSamples v 0 sel) o o'
    hsv (bts := sel.map fun k => ats.getD k 0) (by simp [selectSamples, hsv]) hoa hta hts h2 (by simpa using hs.two) hai (select_stamps hai hs) hu
    (fun i hi => by
      rw [hq]
      rw [List.length_map] at hi
      rw [List.getD_eq_getElem?_getD, List.getElem?_eq_getElem hi, Option.getD_some]
      exact hu _ (hs.lt _ (List.getElem_mem hi))) ho'
  refine ⟨out, out', T, T', c1, c2, c3, c4, c5, c6, fun τ => ⟨fun hτ => ?_, fun ⟨hτ, hk⟩ => ?_⟩, fun i j τ hi hj => ?_⟩
  · have h2 := c9 τ hτ
    obtain ⟨k, hk, hk'⟩ := (mem τ).mp h2
    exact ⟨(c7 τ (List.mem_of_getElem? hk') h2).mpr hτ, k, hk, hk'⟩
  · exact (c7 τ (c8 τ hτ) ((mem τ).mpr hk)).mp hτ
  · obtain ⟨k, hk, hk'⟩ := (mem τ).mp (c9 τ (List.mem_of_getElem? hj))
    obtain ⟨l, hl, rfl⟩ := List.mem_iff_getElem.mp hk
    have hb : (sel.map fun k => ats.getD k 0)[l]? = some τ := by
      rw [List.getElem?_map, List.getElem?_eq_getElem hl, Option.map_some, List.getD_eq_getElem?_getD, hk', Option.getD_some]
    exact c10 i j sel[l] l τ hi hj hk' hb (by rw [hq, List.getD_eq_getElem?_getD, List.getElem?_eq_getElem hl, Option.getD_some])

/-- Non-vacuous: of three points at `[-1, 0, 1]` the first two; the moving frame covers `[0, 1]`, so that one of the two remains. -/
example : ∃ out out' T T', Ex.m3.transformPoints Ex.holdSquad 1 (Ex.arr2 3 [[1, 2, 3], [4, 5, 6], [7, 8, 9]]) (.byObj 2)
        { timestamps := some (ofList [-1, 0, 1]) } = .ok (returned false out (some T)) ∧
      Ex.m3.transformPoints Ex.holdSquad 1 (selectSamples (Ex.arr2 3 [[1, 2, 3], [4, 5, 6], [7, 8, 9]]) 0 [0, 1]) (.byObj 2)
        { timestamps := some (ofList [-1, 0]) } = .ok (returned false out' (some T')) ∧
      (∀ τ, τ ∈ T' ↔ τ ∈ T ∧ ∃ k ∈ [0, 1], ([-1, 0, 1] : List ℝ)[k]? = some τ) := by
  obtain ⟨out, out', T, T', c1, c2, _, _, _, _, c3, _⟩ := C83_select_points Ex.holdSquad Ex.holdSquad_law Ex.reachM (by rw [Ex.m3_eq]; norm_num) (by rw [Ex.m3_eq]; norm_num)
    ex_pathAll_moving (Ex.arr2 3 [[1, 2, 3], [4, 5, 6], [7, 8, 9]]) { timestamps := some (ofList [-1, 0, 1]) }
    { timestamps := some (ofList [-1, 0]) } (p := 1) (q := 0) (ta := 0) (ats := [-1, 0, 1])
    ⟨by simp [ND.ndim, Ex.arr2], .inr (by simp [ND.ndim, Ex.arr2])⟩ rfl rfl ⟨by simp [ND.ndim, Ex.arr2], .inl rfl⟩ rfl
    ⟨by simp [ND.ndim, Ex.arr2], rfl, by simp, by simp [StrictlyIncreasing]⟩ (by norm_num) (by norm_num) rfl
    (sel := [0, 1]) ⟨by simp, by simp, by simp⟩ (by simp)
  exact ⟨out, out', T, T', c1, c2, c3⟩

end RBM.Props
