import Verif.Lemmas.Qinterp
import Verif.Props.Quaternions
import Verif.Props.TopLevel
import Verif.Props.StaticArrays

/-!
C67: quaternion interpolation.
-/

namespace RBM.Props

open RBM.Spec

theorem pyModAxis_of {axis : ℤ} {n p : ℕ} (h : AxisIs axis n p) : pyModAxis axis n = .ok p := by
  obtain ⟨h1, h2⟩ := h
  rw [pyModAxis, if_neg (by omega)]
  congr 1
  rcases h2 with rfl | rfl
  · rw [Int.emod_eq_of_lt (by omega) (by omega)]; simp
  · rw [Int.sub_emod_right, Int.emod_eq_of_lt (by omega) (by omega)]; simp

/-- The quaternions along axis `p` are sampled at the times `tin` along axis `d`: at least two, strictly increasing; no axis is empty. -/
structure Sampled (q : ND ℝ) (p d : ℕ) (tin : List ℝ) : Prop where
  quat : p < q.ndim
  four : q.shape.getD p 0 = 4
  axis : d < q.ndim
  ne : d ≠ p
  times : q.shape.getD d 0 = tin.length
  two : 2 ≤ tin.length
  inc : StrictlyIncreasing tin
  full : ∀ n ∈ q.shape, n ≠ 0

/-- The lane through `idx`: the quaternions at all times. -/
noncomputable def lane (q : ND ℝ) (p d n : ℕ) (idx : List ℕ) : List Quat := (List.range n).map fun k => quat4 q p (idx.set d k)

/-- `qinterp` of a float array: quaternions along any axis, interpolated along any other axis: each lane separately, at the new times; all other axes are kept. -/
theorem C67_values_partial (sq : SquadFn) (q : ND ℝ) {axis qaxis : ℤ} {p d : ℕ} {tin tout : List ℝ} (hs : Sampled q p d tin)
    (hq : AxisIs qaxis q.ndim p) (hd : AxisIs axis q.ndim d) (hout : tout ≠ []) :
    ∃ out, qinterp sq (.float q) tin tout axis qaxis = .ok (.float out) ∧ out.shape = q.shape.set d tout.length ∧
      ∀ idx, Valid out.shape idx → quat4 out p idx = sq (lane q p d tin.length idx) tin (tout.getD (idx.getD d 0) 0) := by
  have hpn : AxisIs (p : ℤ) q.ndim p := ⟨hs.quat, .inl rfl⟩
  obtain ⟨w2, Q, e1, e2, hQs, hQg⟩ := quat_read q hpn hs.four
  have hlen : (swapL (q.ndim - 1) p q.shape).dropLast.length = q.ndim - 1 := by simp [ND.ndim]
  have hQn : Q.ndim = q.ndim - 1 := by rw [ND.ndim, hQs, hlen]
  have hlt := swappedAxis_lt hs.quat hs.axis hs.ne
  have hQd : Q.shape.getD (swappedAxis q.ndim p d) 0 = q.shape.getD d 0 := by rw [hQs, swapped_getD (n := q.ndim) rfl hs.quat hs.axis hs.ne]
  obtain ⟨R, r1, r2, r3⟩ := interpAxis_spec sq Q (d := swappedAxis q.ndim p d) (by omega) (tin := tin) (tout := tout) (by
    intro n hn
    rw [hQs] at hn
    exact hs.full n (mem_swapL (by have := hs.quat; simp only [ND.ndim] at this ⊢; omega) hs.quat (List.mem_of_mem_dropLast hn))) hout (by rw [hQd, hs.times]) hs.two
  set w : ND ℝ := ⟨q.shape.set d tout.length, fun _ => 0⟩ with hw
  have hwn : w.ndim = q.ndim := by simp [ND.ndim, hw]
  have hw4 : w.shape.getD p 0 = 4 := by
    rw [hw, getD_set' hs.axis, if_neg (Ne.symm hs.ne)]; exact hs.four
  obtain ⟨out, o1, o2, o3⟩ := quat_write w (axis := (p : ℤ)) (p := p) (by rw [hwn]; exact hpn) hw4 R (by
    rw [r2, hwn, hQs, hw]
    exact (swapped_set (n := q.ndim) rfl hs.quat hs.axis hs.ne _).symm)
  refine ⟨out, ?_, o2, ?_⟩
  · simp only [qinterp, pyModAxis_of hd, pyModAxis_of hq, bind, Except.bind, e1, e2]
    have e3 : (if d + 1 = q.ndim then p else d) = swappedAxis q.ndim p d := rfl
    simp only [e3, r1, o1, Pure.pure, Except.pure]
  · intro idx hv
    have hil : idx.length = q.ndim := by rw [hv.length, o2]; simp [ND.ndim, hw]
    have hil' : (swapL (q.ndim - 1) p idx).dropLast.length = Q.ndim := by rw [hQn]; simp [hil]
    rw [o3 idx (by rw [hwn]; exact hil), hwn, r3 _ hil', swapped_getD hil hs.quat hs.axis hs.ne]
    congr 1
    unfold lane
    apply List.map_congr_left
    intro k _
    rw [← swapped_set hil hs.quat hs.axis hs.ne, hQg _ (by simp [hil])]

/-- At the old sample times the samples are reproduced, and all interpolated quaternions inside the range of the samples are unit quaternions. -/
theorem C67_interpolates_partial {sq : SquadFn} (hsq : SquadLaw sq) (q : ND ℝ) {axis qaxis : ℤ} {p d : ℕ} {tin tout : List ℝ} (hs : Sampled q p d tin)
    (hq : AxisIs qaxis q.ndim p) (hd : AxisIs axis q.ndim d) (hout : tout ≠ []) (hu : ∀ idx, Valid q.shape idx → IsUnitQ (quat4 q p idx)) :
    ∃ out, qinterp sq (.float q) tin tout axis qaxis = .ok (.float out) ∧ out.shape = q.shape.set d tout.length ∧
      (∀ idx (j k : ℕ) τ, Valid q.shape idx → tin[k]? = some τ → tout[j]? = some τ → quat4 out p (idx.set d j) = quat4 q p (idx.set d k)) ∧
      (∀ idx (j : ℕ) τ, Valid q.shape idx → tout[j]? = some τ → (∀ x, tin.head? = some x → x ≤ τ) → (∀ x, tin.getLast? = some x → τ ≤ x) →
        IsUnitQ (quat4 out p (idx.set d j))) := by
  obtain ⟨out, h1, h2, h3⟩ := C67_values_partial sq q hs hq hd hout
  have hval : ∀ idx (j : ℕ), Valid q.shape idx → j < tout.length → Valid out.shape (idx.set d j) := by
    intro idx j hv hj
    rw [h2, valid_iff]
    have hl := hv.length
    refine ⟨by simp [hl], fun i hi => ?_⟩
    rw [getD_set' (by rw [hl]; exact hs.axis), getD_set' hs.axis]
    split_ifs with e
    · exact hj
    · exact (valid_iff.mp hv).2 i (by simpa using hi)
  have hlane : ∀ idx j, (lane q p d tin.length (idx.set d j)) = lane q p d tin.length idx := by
    intro idx j; simp [lane]
  have hgd : ∀ idx (j : ℕ), Valid q.shape idx → (idx.set d j).getD d 0 = j := by
    intro idx j hv
    rw [getD_set' (by rw [hv.length]; exact hs.axis), if_pos rfl]
  have hlu : ∀ idx, Valid q.shape idx → ∀ x ∈ lane q p d tin.length idx, IsUnitQ x := by
    intro idx hv x hx
    obtain ⟨k, hk, rfl⟩ := List.mem_map.mp hx
    exact hu _ (valid_set hv (by rw [hs.times]; exact List.mem_range.mp hk))
  refine ⟨out, h1, h2, ?_, ?_⟩
  · intro idx j k τ hv hk hj
    have hkl : k < tin.length := (List.getElem?_eq_some_iff.mp hk).1
    have hjl : j < tout.length := (List.getElem?_eq_some_iff.mp hj).1
    rw [h3 _ (hval idx j hv hjl), hlane, hgd idx j hv, List.getD_eq_getElem?_getD, hj]
    exact hsq.knot _ _ k _ _ (by simp [lane]) hs.two hs.inc (hlu idx hv) (by simp [lane, List.getElem?_map, List.getElem?_range hkl]) hk
  · intro idx j τ hv hj hl hr
    have hjl : j < tout.length := (List.getElem?_eq_some_iff.mp hj).1
    rw [h3 _ (hval idx j hv hjl), hlane, hgd idx j hv, List.getD_eq_getElem?_getD, hj]
    exact hsq.unit _ _ _ (by simp [lane]) hs.two hs.inc (hlu idx hv) hl hr

/-- Interpolating at the times of the samples changes nothing. -/
theorem C67_identity {sq : SquadFn} (hsq : SquadLaw sq) (q : ND ℝ) {axis qaxis : ℤ} {p d : ℕ} {tin : List ℝ} (hs : Sampled q p d tin)
    (hq : AxisIs qaxis q.ndim p) (hd : AxisIs axis q.ndim d) (hu : ∀ idx, Valid q.shape idx → IsUnitQ (quat4 q p idx)) :
    ∃ out, qinterp sq (.float q) tin tin axis qaxis = .ok (.float out) ∧ ND.Same out q := by
  have hne : tin ≠ [] := by intro h; have := hs.two; rw [h] at this; simp at this
  obtain ⟨out, h1, h2, h3, _⟩ := C67_interpolates_partial hsq q hs hq hd hne hu
  have hself : ∀ {l : List ℕ} {i : ℕ}, i < l.length → l.set i (l.getD i 0) = l := by
    intro l i hi
    apply list_ext_getD (by simp)
    intro j _
    rw [getD_set' hi]
    split_ifs with e
    · rw [e]
    · rfl
  have hsh : out.shape = q.shape := by rw [h2, ← hs.times]; exact hself hs.axis
  refine ⟨out, h1, same_of_quat4 hsh hs.quat hs.four fun idx hv => ?_⟩
  have hi : idx.getD d 0 < tin.length := by rw [← hs.times]; exact (valid_iff.mp hv).2 d hs.axis
  have := h3 idx (idx.getD d 0) (idx.getD d 0) _ hv (List.getElem?_eq_getElem hi) (List.getElem?_eq_getElem hi)
  rwa [hself (by rw [hv.length]; exact hs.axis)] at this

/-- The same for arrays of quaternion dtype. -/
theorem C67_dtype_partial (sq : SquadFn) (q : ND Quat) {axis qaxis : ℤ} {d : ℕ} {tin tout : List ℝ} (hd : AxisIs axis q.ndim d) (hout : tout ≠ [])
    (hin : q.shape.getD d 0 = tin.length) (h2 : 2 ≤ tin.length) (hfull : ∀ n ∈ q.shape, n ≠ 0) :
    ∃ out, qinterp sq (.quat q) tin tout axis qaxis = .ok (.quat out) ∧ out.shape = q.shape.set d tout.length ∧
      ∀ idx, Valid out.shape idx → out.get idx = sq ((List.range tin.length).map fun k => q.get (idx.set d k)) tin (tout.getD (idx.getD d 0) 0) := by
  obtain ⟨R, r1, r2, r3⟩ := interpAxis_spec sq q (d := d) hd.1 (tin := tin) (tout := tout) hfull hout hin.symm h2
  refine ⟨R, ?_, r2, fun idx hv => r3 idx ?_⟩
  · simp only [qinterp, pyModAxis_of hd, bind, Except.bind, r1, Pure.pure, Except.pure]
  · rw [hv.length, r2]; simp [ND.ndim]

/-- If the number of times does not fit to the number of samples, there is an error. -/
theorem C67_times_mismatch (sq : SquadFn) (q : ND ℝ) {axis qaxis : ℤ} {p d : ℕ} {tin tout : List ℝ} (hp : AxisIs qaxis q.ndim p) (h4 : q.shape.getD p 0 = 4)
    (hd : AxisIs axis q.ndim d) (hne : d ≠ p) (hfull : ∀ n ∈ q.shape, n ≠ 0) (hout : tout ≠ []) (hin : q.shape.getD d 0 ≠ tin.length) :
    qinterp sq (.float q) tin tout axis qaxis = .error .runtimeError := by
  have hpn : AxisIs (p : ℤ) q.ndim p := ⟨hp.1, .inl rfl⟩
  obtain ⟨w2, Q, e1, e2, hQs, hQg⟩ := quat_read q hpn h4
  have hQn : Q.ndim = q.ndim - 1 := by rw [ND.ndim, hQs]; simp [ND.ndim]
  have hlt := swappedAxis_lt hp.1 hd.1 hne
  have hQd : Q.shape.getD (swappedAxis q.ndim p d) 0 = q.shape.getD d 0 := by rw [hQs, swapped_getD (n := q.ndim) rfl hp.1 hd.1 hne]
  have hlt' : swappedAxis q.ndim p d < Q.shape.length := by have : Q.shape.length = q.ndim - 1 := hQn; omega
  have hsw : Q.swapaxesZ (swappedAxis q.ndim p d : ℕ) 0 = .ok (Q.swapaxes (swappedAxis q.ndim p d) 0) := by
    simp only [ND.swapaxesZ, normAxis_nat (show swappedAxis q.ndim p d < Q.ndim from hlt'), normAxis_zero (show 0 < Q.ndim by omega)]
  have hhead : (swapL (swappedAxis q.ndim p d) 0 Q.shape).getD 0 0 = q.shape.getD d 0 := by
    rw [swapL_comm hlt' (by omega), swap0_head hlt', hQd]
  have hmem : ∀ y ∈ swapL (swappedAxis q.ndim p d) 0 Q.shape, y ≠ 0 := by
    intro y hy
    have := mem_swapL hlt' (by omega) hy
    rw [hQs] at this
    exact hfull y (mem_swapL (by have := hp.1; simp only [ND.ndim] at this ⊢; omega) hp.1 (List.mem_of_mem_dropLast this))
  have e5 : squadAxis0 sq (Q.swapaxes (swappedAxis q.ndim p d) 0) tin tout = .error .runtimeError := by
    simp only [squadAxis0, ND.swapaxes]
    cases hc : swapL (swappedAxis q.ndim p d) 0 Q.shape with
    | nil => have := congrArg List.length hc; rw [swapL_length] at this; simp only [List.length_nil] at this; omega
    | cons n rest =>
      rw [hc] at hhead hmem
      simp only [List.getD_cons_zero] at hhead
      simp only
      rw [if_neg (by simp only [not_or]; exact ⟨prod_ne_zero_of hmem, hout⟩), if_pos (by rw [hhead]; exact Ne.symm hin)]
  have e3 : (if d + 1 = q.ndim then p else d) = swappedAxis q.ndim p d := rfl
  simp only [qinterp, pyModAxis_of hd, pyModAxis_of hp, bind, Except.bind, e1, e2, e3, interpAxis, hsw, e5]

/-! ### The accessor -/

theorem mem_keys_of_dictGet {α : Type} {l : List (String × α)} {k : String} (h : (dictGet l k).isSome) : k ∈ l.map Prod.fst := by
  obtain ⟨c, hc⟩ := Option.isSome_iff_exists.mp h
  exact List.mem_map.mpr ⟨_, mem_of_dictGet hc, rfl⟩

theorem not_mem_of_dictGet_none {α : Type} {l : List (String × α)} {k : String} (h : dictGet l k = none) : k ∉ l.map Prod.fst := by
  induction l with
  | nil => simp
  | cons a l ih =>
    obtain ⟨k', v⟩ := a
    unfold dictGet at h
    by_cases e : k = k'
    · subst e; simp at h
    · have hb : (k == k') = false := by simpa using e
      rw [List.lookup_cons, hb] at h
      simp only [List.map_cons, List.mem_cons, not_or]
      exact ⟨e, ih h⟩

/-- The resampled coordinates fit to an array with the new number of samples. -/
theorem mk_resampled (x : XrOps) (hx : XrLaw x) {d : DArr} (hok : DArr.Ok d) {td : String} {q : ℕ} (hq : DimAt d td q) {arr : ND ℝ} {ts : List ℝ}
    (hs : arr.shape = d.data.shape.set q ts.length) :
    mkDArr arr { d.info with coords := accCoords x td ts d.info.coords } = .ok ⟨arr, { d.info with coords := accCoords x td ts d.info.coords }⟩ := by
  obtain ⟨hm, hi, hqn⟩ := idxOf_of_dimAt hok hq
  have hq' : q < d.data.shape.length := hqn
  have hgetq : (d.data.shape.set q ts.length).getD q 0 = ts.length := by simp [hq']
  have hget : ∀ e, e ∈ d.info.dims → e ≠ td → (d.data.shape.set q ts.length).getD (d.info.dims.idxOf e) 0 = d.data.shape.getD (d.info.dims.idxOf e) 0 := by
    intro e he hne
    have : q ≠ d.info.dims.idxOf e := by
      intro h
      rw [← hi] at h
      exact hne ((List.idxOf_inj hm).mp h).symm
    simp [List.getD_eq_getElem?_getD, List.getElem?_set_ne this]
  have hndim : d.info.dims.length = arr.ndim := by rw [hok.ndim]; simp [ND.ndim, hs]
  have key : ∀ c ∈ resampleCoords x td ts d.info.coords, c.1 ≠ td → (∀ e ∈ c.2.dims, e ∈ d.info.dims) ∧
      c.2.vals.shape = c.2.dims.map fun e => arr.shape.getD (d.info.dims.idxOf e) 0 := by
    intro c hcm hne
    obtain ⟨c', hc', rfl⟩ := List.mem_map.mp hcm
    have hd' := hok.coordDims c' hc'
    have hs' := hok.coordShape c' hc'
    have hlen : c'.2.vals.shape.length = c'.2.dims.length := by rw [hs']; simp
    have key : (List.zipWith (fun e (n : ℕ) => if e = td then ts.length else n) c'.2.dims c'.2.vals.shape) =
        c'.2.dims.map fun e => arr.shape.getD (d.info.dims.idxOf e) 0 := by
      rw [hs', zipWith_map_self, hs]
      apply List.map_congr_left
      intro e he
      by_cases h : e = td
      · subst h; rw [if_pos rfl, hi, hgetq]
      · rw [if_neg h, hget e (hd' e he) h]
    by_cases hsp : td ∈ c'.2.dims ∧ c'.1 ≠ td
    · simp only [hsp, and_self, if_true, not_false_eq_true, ne_eq]
      by_cases hnum : c'.2.vals.isNum
      · simp only [hnum, if_true, hx.interp_dims, hx.interp_shape _ _ _ hlen, key]
        exact ⟨hd', trivial⟩
      · simp only [hnum, hx.sel_dims, hx.sel_shape _ _ _ hlen, key, Bool.false_eq_true, if_false]
        exact ⟨hd', trivial⟩
    · have hne' : c'.1 ≠ td := by simpa only [if_neg hsp] using hne
      have hnt : td ∉ c'.2.dims := fun h => hsp ⟨h, hne'⟩
      simp only [if_neg hsp]
      refine ⟨hd', ?_⟩
      rw [hs', hs]
      apply List.map_congr_left
      intro e he
      rw [hget e (hd' e he) (fun h => hnt (h ▸ he))]
  have hsame : (resampleCoords x td ts d.info.coords).map Prod.fst = d.info.coords.map Prod.fst := by
    simp only [resampleCoords, List.map_map]
    apply List.map_congr_left
    intro c _
    simp only [Function.comp]
    split <;> rfl
  refine mkDArr_intro hndim fun c hcm => ?_
  simp only [accCoords] at hcm
  split at hcm
  · rcases mem_dictSet' (by rw [hsame]; exact hok.keys) hcm with rfl | ⟨hcm, hne⟩
    · refine ⟨fun e he => ?_, ?_⟩
      · have : e = td := by simpa using he
        rw [this]; exact hm
      · simp only [CVals.shape, ND.vec1, List.map_cons, List.map_nil, hi, hs, hgetq]
    · exact key c hcm hne
  · rename_i hno
    refine key c hcm fun (e : c.1 = td) => ?_
    have h1 := not_mem_of_dictGet_none (by simpa using hno : dictGet d.info.coords td = none)
    rw [← hsame] at h1
    have h2 := List.mem_map_of_mem (f := Prod.fst) hcm
    rw [e] at h2
    exact h1 h2

/-- The accessor `DataArray.rbm.qinterp`: dimensions, name and attributes are kept; the coordinate of the dimension are the new times; coordinates
independent of it are kept; the quaternions of every lane are interpolated at the new times. -/
theorem C67_accessor_partial (sq : SquadFn) (x : XrOps) (hx : XrLaw x) {d : DArr} (hok : DArr.Ok d) {dim qdim : String} {p t : ℕ} (hp : DimAt d qdim p) (ht : DimAt d dim t)
    {tin new : List ℝ} (hc : dictGet d.info.coords dim = some ⟨[dim], .num (ofList tin)⟩) (hs : Sampled d.data p t tin) (hne : new ≠ []) :
    ∃ out, accQinterp sq x d [(dim, ofList new)] qdim = .ok out ∧ out.info.dims = d.info.dims ∧ out.info.name = d.info.name ∧
      out.info.attrs = d.info.attrs ∧ HasStamps out dim new ∧
      (∀ k, k ≠ dim → (∀ c ∈ d.info.coords, c.1 = k → dim ∉ c.2.dims) → dictGet out.info.coords k = dictGet d.info.coords k) ∧
      out.data.shape = d.data.shape.set t new.length ∧
      ∀ idx, Valid out.data.shape idx → quat4 out.data p idx = sq (lane d.data p t tin.length idx) tin (new.getD (idx.getD t 0) 0) := by
  obtain ⟨hm, hi, htn⟩ := idxOf_of_dimAt hok ht
  obtain ⟨hm', hi', hpn⟩ := idxOf_of_dimAt hok hp
  obtain ⟨out, o1, o2, o3⟩ := C67_values_partial sq d.data hs (axisIs_nat hpn) (axisIs_nat htn) hne
  have e0 : (ofList new).entries = new := vec1_entries new
  have e1 : (ofList tin).entries = tin := vec1_entries tin
  refine ⟨⟨out, { d.info with coords := accCoords x dim new d.info.coords }⟩, ?_, ?_⟩
  · simp only [accQinterp]
    rw [if_neg (not_not.mpr hm), if_neg (by simp [ND.ndim, ofList]), if_neg (not_not.mpr hm')]
    simp only [coordTimes, hc, e0, e1, bind, Except.bind, hi, hi', o1, QArr.floats]
    exact mk_resampled x hx hok ht o2
  · refine ⟨rfl, rfl, rfl, ?_, ?_, o2, o3⟩
    · refine ⟨⟨[dim], .num (ND.vec1 new)⟩, ND.vec1 new, ?_, rfl, rfl, rfl, fun i hi => by simp [ND.vec1, hi]⟩
      simp only [accCoords, hc, Option.isSome_some, if_true, dictGet_set]
    · intro k hk hkd
      simp only [accCoords, hc, Option.isSome_some, if_true, dictGet_set, if_neg (Ne.symm hk)]
      exact resample_lookup x dim new k d.info.coords hkd

/-- Without a coordinate for the dimension the samples are at `0, 1, ..`; the result has no such coordinate either. -/
theorem C67_accessor_no_coord (sq : SquadFn) (x : XrOps) (hx : XrLaw x) {d : DArr} (hok : DArr.Ok d) {dim qdim : String} {p t n : ℕ} (hp : DimAt d qdim p)
    (ht : DimAt d dim t) (hc : dictGet d.info.coords dim = none) (hn : d.data.shape.getD t 0 = n) {new : List ℝ}
    (hs : Sampled d.data p t ((List.range n).map fun i : ℕ => (i : ℝ))) (hne : new ≠ []) :
    ∃ out, accQinterp sq x d [(dim, ofList new)] qdim = .ok out ∧ dictGet out.info.coords dim = none ∧
      out.data.shape = d.data.shape.set t new.length ∧
      ∀ idx, Valid out.data.shape idx →
        quat4 out.data p idx = sq (lane d.data p t n idx) ((List.range n).map fun i : ℕ => (i : ℝ)) (new.getD (idx.getD t 0) 0) := by
  obtain ⟨hm, hi, htn⟩ := idxOf_of_dimAt hok ht
  obtain ⟨hm', hi', hpn⟩ := idxOf_of_dimAt hok hp
  obtain ⟨out, o1, o2, o3⟩ := C67_values_partial sq d.data hs (axisIs_nat hpn) (axisIs_nat htn) hne
  have e0 : (ofList new).entries = new := vec1_entries new
  refine ⟨⟨out, { d.info with coords := accCoords x dim new d.info.coords }⟩, ?_, ?_⟩
  · simp only [accQinterp]
    rw [if_neg (not_not.mpr hm), if_neg (by simp [ND.ndim, ofList]), if_neg (not_not.mpr hm')]
    simp only [coordTimes, hc, e0, bind, Except.bind, hi, hi', hn, o1, QArr.floats]
    exact mk_resampled x hx hok ht o2
  · refine ⟨?_, o2, by simpa using o3⟩
    simp only [accCoords, hc, Option.isSome_none, Bool.false_eq_true, if_false]
    rw [resample_lookup x dim new dim d.info.coords, hc]
    intro c hcm h
    exact absurd (h ▸ List.mem_map_of_mem (f := Prod.fst) hcm) (not_mem_of_dictGet_none hc)

/-- What the accessor refuses: several (or no) dimensions, an unknown dimension, new coordinates that are not one dimensional, an unknown dimension of the
quaternions. -/
theorem C67_accessor_errors (sq : SquadFn) (x : XrOps) (d : DArr) (qdim : String) :
    (∀ coords, coords.length ≠ 1 → accQinterp sq x d coords qdim = .error .notImplementedError) ∧
    (∀ dim new, dim ∉ d.info.dims → accQinterp sq x d [(dim, new)] qdim = .error .valueError) ∧
    (∀ dim new, dim ∈ d.info.dims → new.ndim ≠ 1 → accQinterp sq x d [(dim, new)] qdim = .error .notImplementedError) ∧
    (∀ dim new, qdim ∉ d.info.dims → new.ndim = 1 → accQinterp sq x d [(dim, new)] qdim = .error .valueError) ∧
    (qdim ∉ d.info.dims → accQinv d qdim = .error .valueError) := by
  refine ⟨?_, ?_, ?_, ?_, ?_⟩
  · intro coords h
    match coords with
    | [] => rfl
    | [c] => simp at h
    | c :: c' :: l => rfl
  · intro dim new h
    simp only [accQinterp, if_pos h]
  · intro dim new h h1
    simp only [accQinterp, if_neg (not_not.mpr h), if_pos h1]
  · intro dim new h h1
    simp only [accQinterp]
    by_cases hd : dim ∈ d.info.dims
    · rw [if_neg (not_not.mpr hd), if_neg (not_not.mpr h1), if_pos h]
    · rw [if_pos hd]
  · intro h
    simp only [accQinv, if_pos h]

/-- The accessor `DataArray.rbm.qinv`: labels are kept, every quaternion is inverted. -/
theorem C67_accessor_inverse {d : DArr} (hok : DArr.Ok d) {qdim : String} {p : ℕ} (hp : DimAt d qdim p) (h4 : d.data.shape.getD p 0 = 4)
    (hne : ∀ idx, Valid d.data.shape idx → quat4 d.data p idx ≠ 0) :
    ∃ out, accQinv d qdim = .ok out ∧ out.info = d.info ∧ out.data.shape = d.data.shape ∧
      ∀ idx, Valid d.data.shape idx → quat4 out.data p idx * quat4 d.data p idx = 1 ∧ quat4 d.data p idx * quat4 out.data p idx = 1 := by
  obtain ⟨hm, hi, hpn⟩ := idxOf_of_dimAt hok hp
  obtain ⟨out, o1, o2, o3⟩ := C40_inverse d.data (qaxis := (p : ℤ)) (p := p) ⟨axisIs_nat hpn, h4⟩ hne
  refine ⟨⟨out, d.info⟩, ?_, rfl, o2, o3⟩
  simp only [accQinv, if_neg (not_not.mpr hm), hi, o1, bind, Except.bind, QArr.floats, Pure.pure, Except.pure]

/-! ### Degenerate cases -/

/-- Interpolating at no times at all works for two dimensional arrays. -/
theorem C67_empty (sq : SquadFn) (q : ND ℝ) {axis qaxis : ℤ} {p d : ℕ} {tin : List ℝ} (h2 : q.ndim = 2) (hp : AxisIs qaxis q.ndim p)
    (h4 : q.shape.getD p 0 = 4) (hd : AxisIs axis q.ndim d) (hne : d ≠ p) :
    ∃ out, qinterp sq (.float q) tin [] axis qaxis = .ok (.float out) ∧ out.shape = q.shape.set d 0 := by
  have hpn : AxisIs (p : ℤ) q.ndim p := ⟨hp.1, .inl rfl⟩
  obtain ⟨w2, Q, e1, e2, hQs, -⟩ := quat_read q hpn h4
  have hlt := swappedAxis_lt hp.1 hd.1 hne
  have e3 : (if d + 1 = q.ndim then p else d) = swappedAxis q.ndim p d := rfl
  have e4 : swappedAxis q.ndim p d = 0 := by omega
  have hQn : Q.shape.length = 1 := by rw [hQs]; simp only [List.length_dropLast, swapL_length]; have : q.shape.length = 2 := h2; omega
  have e5 : interpAxis sq Q tin [] 0 = .ok ((⟨[0], fun _ => 0⟩ : ND Quat).swapaxes 0 0) := by
    obtain ⟨sh, g⟩ := Q
    match sh, hQn with
    | [n], _ =>
      have : squadAxis0 sq ((⟨[n], g⟩ : ND Quat).swapaxes 0 0) tin [] = .ok ⟨[0], fun _ => 0⟩ := by
        simp only [squadAxis0, ND.swapaxes, swapL]
        simp
      simp only [interpAxis, bind, Except.bind]
      have h0 : (⟨[n], g⟩ : ND Quat).swapaxesZ ((0 : ℕ) : ℤ) 0 = .ok ((⟨[n], g⟩ : ND Quat).swapaxes 0 0) := rfl
      rw [h0]
      simp only [this]
      rfl
  simp only [qinterp, pyModAxis_of hd, pyModAxis_of hp, bind, Except.bind, e1, e2, e3, e4, e5]
  have hsh : q.shape = [q.shape.getD 0 0, q.shape.getD 1 0] := by
    have h2' : q.shape.length = 2 := h2
    match q.shape, h2' with
    | [_, _], _ => rfl
  have hpd : (p = 0 ∧ d = 1) ∨ (p = 1 ∧ d = 0) := by have := hp.1; have := hd.1; omega
  rcases hpd with ⟨rfl, rfl⟩ | ⟨rfl, rfl⟩
  · refine ⟨_, rfl, ?_⟩
    rw [hsh, h4]; rfl
  · refine ⟨_, rfl, ?_⟩
    rw [hsh, h4]; rfl

/-- Interpolating at no times at all should give an array of shape `(0, 2, 4)` for two quaternions at each of two times, but raises. -/
theorem C67_empty_is_false (sq : SquadFn) (f : List ℕ → ℝ) :
    qinterp sq (.float ⟨[2, 2, 4], f⟩) [0, 1] [] = .error .valueError := by
  rfl

/-- .. and loses the other axis for arrays of quaternion dtype. -/
theorem C67_empty_dtype_is_false (sq : SquadFn) (f : List ℕ → Quat) :
    ∃ out, qinterp sq (.quat ⟨[2, 2], f⟩) [0, 1] [] = .ok (.quat out) ∧ out.shape = [0] := by
  exact ⟨_, rfl, rfl⟩

/-- Interpolating "along" the quaternion axis itself is not refused: it is the interpolation along the last axis. -/
theorem C67_axis_clash (sq : SquadFn) (q : ND ℝ) {axis qaxis : ℤ} {p : ℕ} (tin tout : List ℝ) (hp : AxisIs qaxis q.ndim p) (hd : AxisIs axis q.ndim p)
    (hl : p + 1 ≠ q.ndim) : qinterp sq (.float q) tin tout axis qaxis = qinterp sq (.float q) tin tout (-1) qaxis := by
  have h1 : AxisIs (-1) q.ndim (q.ndim - 1) := ⟨by have := hp.1; omega, .inr (by have := hp.1; omega)⟩
  simp only [qinterp, pyModAxis_of hp, pyModAxis_of hd, pyModAxis_of h1, bind, Except.bind]
  rw [if_neg hl, if_pos (by have := hp.1; omega)]

/-- Three orientations at the times 0, 1, 2. -/
noncomputable def exOri : DArr :=
  ⟨Ex.arr2 4 [[1, 0, 0, 0], [0, 1, 0, 0], [0, 0, 0, 1]],
   ⟨[("time", ⟨["time"], .num (ofList [0, 1, 2])⟩), ("sample", ⟨["time"], .num (ofList [1, 2, 3])⟩),
     ("quaternion_axis", labelCoord "quaternion_axis" ["w", "x", "y", "z"])], ["time", "quaternion_axis"], some "orientation", []⟩⟩

theorem exOri_ok : DArr.Ok exOri := by
  refine ⟨rfl, by simp [exOri], ?_, ?_, by simp [exOri], ?_⟩
  · intro c hc
    simp only [exOri, List.mem_cons, List.not_mem_nil, or_false] at hc
    rcases hc with rfl | rfl | rfl <;> simp [labelCoord, exOri]
  · intro c hc
    simp only [exOri, List.mem_cons, List.not_mem_nil, or_false] at hc
    rcases hc with rfl | rfl | rfl <;> simp [labelCoord, exOri, CVals.shape, ofList, Ex.arr2, List.idxOf, List.findIdx, List.findIdx.go]
  · intro k c hc hk
    simp only [exOri, List.mem_cons, List.not_mem_nil, or_false] at hk
    rcases hk with rfl | rfl
    · simp [exOri, dictGet, List.lookup] at hc; subst hc; rfl
    · simp [exOri, dictGet, List.lookup] at hc; subst hc; rfl

theorem exOri_sampled : Sampled exOri.data 1 0 [0, 1, 2] :=
  ⟨by decide, rfl, by decide, by decide, rfl, by simp, by simp [StrictlyIncreasing], by simp [exOri, Ex.arr2]⟩

/-- They are interpolated at the times 1 and 3/2; the first one is the second sample. -/
example : ∃ out, accQinterp Ex.holdSquad exXr exOri [("time", ofList [1, 3 / 2])] = .ok out ∧ out.info.dims = ["time", "quaternion_axis"] ∧
    HasStamps out "time" [1, 3 / 2] ∧ out.data.shape = [2, 4] ∧ quat4 out.data 1 [0, 0] = ⟨0, 1, 0, 0⟩ := by
  obtain ⟨out, h1, h2, -, -, h3, -, h4, h5⟩ := C67_accessor_partial Ex.holdSquad exXr exXr_law exOri_ok (qdim := "quaternion_axis") (dim := "time") (p := 1) (t := 0)
    rfl rfl (tin := [0, 1, 2]) (new := [1, 3 / 2]) rfl exOri_sampled (by simp)
  refine ⟨out, h1, h2, h3, h4, ?_⟩
  rw [h5 [0, 0] (by rw [h4, valid_iff]; simp [exOri, Ex.arr2, Nat.le_one_iff_eq_zero_or_eq_one])]
  have := Ex.holdSquad_law.knot (lane exOri.data 1 0 3 [0, 0]) [0, 1, 2] 1 ⟨0, 1, 0, 0⟩ 1 (by simp [lane]) (by simp) (by simp [StrictlyIncreasing]) (by
      intro x hx
      simp only [lane, List.range_succ, List.range_zero, List.nil_append, List.cons_append, List.map_cons, List.map_nil, List.mem_cons, List.not_mem_nil, or_false] at hx
      rcases hx with rfl | rfl | rfl <;> simp [quat4, exOri, Ex.arr2, IsUnitQ, nsq]) (by
      simp only [lane, List.range_succ, List.range_zero, List.nil_append, List.cons_append, List.map_cons, List.map_nil, List.getElem?_cons_succ, List.getElem?_cons_zero]
      simp [quat4, exOri, Ex.arr2]) (by simp)
  exact this

theorem exOri_unit : ∀ idx, Valid exOri.data.shape idx → IsUnitQ (quat4 exOri.data 1 idx) := by
  intro idx hv
  simp only [exOri, Ex.arr2] at hv
  match idx, hv with
  | [i, j], ⟨hi, _, _⟩ =>
    simp only [List.length_cons, List.length_nil] at hi
    interval_cases i <;> simp [IsUnitQ, nsq, quat4, exOri, Ex.arr2]

/-- The plain function: interpolation at the given times returns the array (`C67_identity`); other times give unit quaternions (`C67_interpolates_partial`,
`C67_values_partial`); the number of times has to fit (`C67_times_mismatch`); without times the result is empty (`C67_empty`). -/
example : (∃ out, qinterp Ex.holdSquad (.float exOri.data) [0, 1, 2] [0, 1, 2] 0 (-1) = .ok (.float out) ∧ ND.Same out exOri.data) ∧
    (∃ out, qinterp Ex.holdSquad (.float exOri.data) [0, 1, 2] [1 / 2] 0 (-1) = .ok (.float out) ∧ out.shape = [1, 4] ∧ IsUnitQ (quat4 out 1 [0, 0])) ∧
    qinterp Ex.holdSquad (.float exOri.data) [0, 1] [1 / 2] 0 (-1) = .error .runtimeError ∧
    ∃ out, qinterp Ex.holdSquad (.float exOri.data) [0, 1, 2] [] 0 (-1) = .ok (.float out) ∧ out.shape = [0, 4] := by
  have hp : AxisIs (-1) exOri.data.ndim 1 := ⟨by simp [ND.ndim, exOri, Ex.arr2], .inr (by simp [ND.ndim, exOri, Ex.arr2])⟩
  have hd : AxisIs 0 exOri.data.ndim 0 := ⟨by simp [ND.ndim, exOri, Ex.arr2], .inl rfl⟩
  refine ⟨C67_identity Ex.holdSquad_law _ exOri_sampled hp hd exOri_unit, ?_, C67_times_mismatch _ _ hp rfl hd (by decide) (by simp [exOri, Ex.arr2]) (by simp) (by simp [exOri, Ex.arr2]),
    C67_empty _ _ rfl hp rfl hd (by decide)⟩
  obtain ⟨out, h1, h2, -, h3⟩ := C67_interpolates_partial Ex.holdSquad_law _ exOri_sampled hp hd (tout := [1 / 2]) (by simp) exOri_unit
  exact ⟨out, h1, h2, h3 [0, 0] 0 (1 / 2) (by simp [Valid, exOri, Ex.arr2]) rfl (by intro x hx; simp at hx; subst hx; norm_num) (by intro x hx; simp at hx; subst hx; norm_num)⟩

/-- Quaternions as elements (`C67_dtype_partial`), the accessor `qinv` (`C67_accessor_inverse`). -/
example : ∃ out, qinterp Ex.holdSquad (.quat ⟨[2], fun i => if i = [0] then 1 else ⟨0, 1, 0, 0⟩⟩) [0, 1] [1 / 2] 0 (-1) = .ok (.quat out) ∧ out.shape = [1] := by
  obtain ⟨out, h1, h2, -⟩ := C67_dtype_partial Ex.holdSquad ⟨[2], fun i => if i = [0] then 1 else ⟨0, 1, 0, 0⟩⟩ (axis := 0) (qaxis := -1) (d := 0) (tin := [0, 1]) (tout := [1 / 2])
    ⟨by simp [ND.ndim], .inl rfl⟩ (by simp) rfl (by simp) (by simp)
  exact ⟨out, h1, h2⟩

example : ∃ out, accQinv exOri "quaternion_axis" = .ok out ∧ out.info = exOri.info ∧ quat4 out.data 1 [1, 0] * quat4 exOri.data 1 [1, 0] = 1 := by
  obtain ⟨out, h1, h2, -, h3⟩ := C67_accessor_inverse exOri_ok (qdim := "quaternion_axis") (p := 1) rfl rfl (fun idx hv => (exOri_unit idx hv).ne_zero)
  exact ⟨out, h1, h2, (h3 [1, 0] (by simp [Valid, exOri, Ex.arr2])).1⟩

end RBM.Props
