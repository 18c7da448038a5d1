import Verif.Props.Relabel
import Verif.Props.FitTransform

/-!
`shortest_arc_rotation` (C45).
-/

namespace RBM.Props

open RBM RBM.Spec

theorem sumKeep_ok (a : ND ℝ) {axis : ℤ} {p : ℕ} (hp : normAxis axis a.ndim = some p) :
    a.sumKeep axis = .ok ⟨a.shape.set p 1, fun idx => ((List.range (a.shape.getD p 0)).map fun k => a.get (idx.set p k)).sum⟩ := by
  simp only [ND.sumKeep, hp]

theorem sum3 (f : ℕ → ℝ) : ((List.range 3).map f).sum = f 0 + f 1 + f 2 := by
  simp [List.range_succ]; ring

theorem sum4 (f : ℕ → ℝ) : ((List.range 4).map f).sum = f 0 + f 1 + f 2 + f 3 := by
  simp [List.range_succ]; ring

theorem valid_of_set1 {sh idx : List ℕ} {p k n : ℕ} (h : Valid (sh.set p 1) idx) (hk : k < n) : Valid (sh.set p n) (idx.set p k) := by
  induction sh generalizing p idx with
  | nil => cases idx <;> simp_all [Valid]
  | cons a sh ih =>
    cases idx with
    | nil => cases p <;> simp [Valid] at h
    | cons i idx =>
      cases p with
      | zero => exact ⟨hk, h.2⟩
      | succ p => exact ⟨h.1, ih h.2⟩

theorem valid_to_set1 {sh idx : List ℕ} {p n : ℕ} (h : Valid (sh.set p n) idx) : Valid (sh.set p 1) (idx.set p 0) := by
  induction sh generalizing p idx with
  | nil => cases idx <;> simp_all [Valid]
  | cons a sh ih =>
    cases idx with
    | nil => cases p <;> simp [Valid] at h
    | cons i idx =>
      cases p with
      | zero => exact ⟨by decide, h.2⟩
      | succ p => exact ⟨h.1, ih h.2⟩

theorem vecAt_eq_vec3 (v : ND ℝ) (p : ℕ) (idx : List ℕ) : v.vecAt p idx = vec3 v p idx := by
  funext k
  fin_cases k <;> rfl

theorem shortestArc_core (v w : ND ℝ) {axis : ℤ} {p : ℕ} (hs : v.shape = w.shape) (hax : AxisIs axis w.ndim p)
    (h3 : w.shape.getD p 0 = 3) :
    ∃ R : ND ℝ, R.shape = w.shape.set p 4 ∧
      (∀ idx, Valid (w.shape.set p 1) idx → quat4 R p idx =
        (Real.sqrt (nsq (arcRaw (vec3 v p idx) (vec3 w p idx))))⁻¹ • arcRaw (vec3 v p idx) (vec3 w p idx)) ∧
      (¬ (∃ idx, Valid (w.shape.set p 1) idx ∧ nsq (arcRaw (vec3 v p idx) (vec3 w p idx)) = 0) → shortestArc v w axis = .ok R) ∧
      ((∃ idx, Valid (w.shape.set p 1) idx ∧ nsq (arcRaw (vec3 v p idx) (vec3 w p idx)) = 0) → shortestArc v w axis = .error .nonfinite) := by
  have hp := axisIs_norm hax
  have hlt : p < w.shape.length := hax.1
  have hpv : normAxis axis v.ndim = some p := by rw [ND.ndim, hs]; exact hp
  have hn1 : ∀ a : ND ℝ, a.shape.length = w.shape.length → normAxis axis a.ndim = some p := by
    intro a ha; rw [ND.ndim, ha]; exact hp
  obtain ⟨C, hC, hCs, hCg⟩ := npCrossAxis_spec v w hs hp h3
  -- the sums
  set sn1 : ND ℝ := ⟨w.shape.set p 1, fun idx => dot (vec3 v p idx) (vec3 v p idx)⟩ with hsn1
  have e1 : (v.map fun x => x ^ 2).sumKeep axis = .ok sn1 := by
    rw [sumKeep_ok _ (hn1 _ (by simp [ND.map, hs]))]
    simp only [ND.map, hs, h3, hsn1, sum3, dot, vec3]
    congr 2
    funext idx
    simp [Matrix.cons_val]; ring
  set sn2 : ND ℝ := ⟨w.shape.set p 1, fun idx => dot (vec3 w p idx) (vec3 w p idx)⟩ with hsn2
  have e2 : (w.map fun x => x ^ 2).sumKeep axis = .ok sn2 := by
    rw [sumKeep_ok _ (hn1 _ (by simp [ND.map]))]
    simp only [ND.map, h3, hsn2, sum3, dot, vec3]
    congr 2
    funext idx
    simp [Matrix.cons_val]; ring
  obtain ⟨pr, e3, prs, prg⟩ : ∃ pr, ND.bop (fun x y : ℝ => x * y) v w = .ok pr ∧ pr.shape = w.shape ∧ ∀ idx, Valid w.shape idx → pr.get idx = v.get idx * w.get idx := by
    refine ⟨_, bop_left _ v w (by rw [hs]; exact Bcast.refl _), rfl, ?_⟩
    intro idx hi
    simp only [bget_valid w hi, bget_valid v (by rw [hs]; exact hi)]
  set d12 : ND ℝ := ⟨w.shape.set p 1, fun idx => ((List.range 3).map fun k => pr.get (idx.set p k)).sum⟩ with hd12
  have e4 : pr.sumKeep axis = .ok d12 := by
    rw [sumKeep_ok _ (hn1 _ (by rw [prs]))]
    simp only [prs, h3, hd12]
  have hset3 : w.shape.set p 3 = w.shape := by rw [← h3, set_getD_self]
  have d12g : ∀ idx, Valid (w.shape.set p 1) idx → d12.get idx = dot (vec3 v p idx) (vec3 w p idx) := by
    intro idx hi
    have hk : ∀ k, k < 3 → Valid w.shape (idx.set p k) := fun k hk => by
      have := valid_of_set1 (n := 3) hi hk
      rwa [hset3] at this
    simp only [hd12, sum3, prg _ (hk 0 (by decide)), prg _ (hk 1 (by decide)), prg _ (hk 2 (by decide)), dot, vec3]
    simp [Matrix.cons_val]
  obtain ⟨ss, e5, sss, ssg⟩ : ∃ ss, ND.bop (fun x y : ℝ => x * y) sn1 sn2 = .ok ss ∧ ss.shape = w.shape.set p 1 ∧
      ∀ idx, Valid (w.shape.set p 1) idx → ss.get idx = dot (vec3 v p idx) (vec3 v p idx) * dot (vec3 w p idx) (vec3 w p idx) := by
    refine ⟨_, bop_left _ sn1 sn2 (Bcast.refl _), rfl, ?_⟩
    intro idx hi
    show sn1.bget idx * sn2.bget idx = _
    rw [bget_valid sn1 hi, bget_valid sn2 hi]
  obtain ⟨re, e6, res, reg⟩ : ∃ re, ND.bop (fun x y : ℝ => x + y) (ss.map Real.sqrt) d12 = .ok re ∧ re.shape = w.shape.set p 1 ∧
      ∀ idx, Valid (w.shape.set p 1) idx → re.get idx = (arcRaw (vec3 v p idx) (vec3 w p idx)).re := by
    refine ⟨_, bop_left _ (ss.map Real.sqrt) d12 (by simp only [ND.map, sss, hd12]; exact Bcast.refl _), rfl, ?_⟩
    intro idx hi
    have h1 : Valid (ss.map Real.sqrt).shape idx := by simpa [ND.map, sss] using hi
    show (ss.map Real.sqrt).bget idx + d12.bget idx = _
    rw [bget_valid _ h1, bget_valid d12 hi, d12g idx hi]
    simp only [ND.map, ssg idx hi, arcRaw]
  -- concatenation
  set rotation : ND ℝ := ⟨w.shape.set p 4, fun idx => if idx.getD p 0 < 1 then re.get idx else C.get (idx.set p (idx.getD p 0 - 1))⟩ with hrot
  have e7 : re.concat2 C axis = .ok rotation := by
    have er : (w.shape.set p 1).eraseIdx p = w.shape.eraseIdx p := by
      apply List.ext_getElem?
      intro k
      simp only [List.getElem?_eraseIdx]
      split
      · rw [List.getElem?_set_ne (by omega)]
      · rw [List.getElem?_set_ne (by omega)]
    have hp2 : normAxis axis w.shape.length = some p := hp
    simp only [ND.concat2, ND.ndim, res, hCs, List.length_set, hp2, er]
    rw [if_neg (by simp)]
    simp only [getD_set_same hlt, h3, set_set_same, hrot]
  have hC' : ∀ idx, Valid (w.shape.set p 1) idx → ∀ k, k < 3 → C.get (idx.set p k) =
      ![(arcRaw (vec3 v p idx) (vec3 w p idx)).imI, (arcRaw (vec3 v p idx) (vec3 w p idx)).imJ, (arcRaw (vec3 v p idx) (vec3 w p idx)).imK] (Fin.ofNat 3 k) := by
    intro idx hi k hk
    have hv : Valid w.shape (idx.set p k) := by
      have := valid_of_set1 (n := 3) hi hk
      rwa [hset3] at this
    have hl : idx.length = w.shape.length := by have := hi.length; simpa using this
    rw [hCg _ hv, vecAt_set, vecAt_set, vecAt_eq_vec3, vecAt_eq_vec3, getD_set_same (by omega)]
    interval_cases k <;> simp [arcRaw, cross_apply, Matrix.vecHead, Matrix.vecTail] <;> rfl
  have hrg : ∀ idx, Valid (w.shape.set p 1) idx → quat4 rotation p idx = arcRaw (vec3 v p idx) (vec3 w p idx) := by
    intro idx hi
    have hl : idx.length = w.shape.length := by have := hi.length; simpa using this
    have hz : idx.set p 0 = idx := by
      have := bidx_set1 (n := 1) hi
      rw [bidx_valid hi] at this
      exact this.symm
    have hr0 := reg idx hi
    have c0 := hC' idx hi 0 (by decide); have c1 := hC' idx hi 1 (by decide); have c2 := hC' idx hi 2 (by decide)
    have g : ∀ k, (idx.set p k).getD p 0 = k := fun k => getD_set_same (by omega)
    ext
    · simp only [quat4, hrot, g, Nat.zero_lt_one, if_true]; rw [hz]; exact hr0
    · simp only [quat4, hrot, g, lt_irrefl, if_false, List.set_set, Nat.sub_self]; rw [c0]; rfl
    · simp only [quat4, hrot, g, List.set_set]; rw [if_neg (by decide), c1]; rfl
    · simp only [quat4, hrot, g, List.set_set]; rw [if_neg (by decide), c2]; rfl
  set sq : ND ℝ := ⟨w.shape.set p 1, fun idx => nsq (quat4 rotation p idx)⟩ with hsq
  have e8 : (rotation.map fun x => x ^ 2).sumKeep axis = .ok sq := by
    rw [sumKeep_ok _ (hn1 _ (by simp [ND.map, hrot]))]
    simp only [ND.map]
    rw [show rotation.shape = w.shape.set p 4 from rfl, set_set_same, getD_set_same hlt]
    simp only [sum4, hsq, nsq, quat4]
  set n : ND ℝ := sq.map Real.sqrt with hn
  have hns : n.shape = w.shape.set p 1 := rfl
  have hb : Bcast n.shape rotation.shape := bcast_set1 _ _ _
  have hcond : (∃ idx, Valid n.shape idx ∧ n.get idx = 0) ↔
      ∃ idx, Valid (w.shape.set p 1) idx ∧ nsq (arcRaw (vec3 v p idx) (vec3 w p idx)) = 0 := by
    apply exists_congr
    intro idx
    constructor
    · rintro ⟨hi, h0⟩
      refine ⟨hi, ?_⟩
      rw [← hrg idx hi]
      have hnn : 0 ≤ nsq (quat4 rotation p idx) := by simp only [nsq]; positivity
      exact (Real.sqrt_eq_zero hnn).mp h0
    · rintro ⟨hi, h0⟩
      refine ⟨hi, ?_⟩
      rw [← hrg idx hi] at h0
      show Real.sqrt (nsq (quat4 rotation p idx)) = 0
      rw [h0, Real.sqrt_zero]
  refine ⟨⟨rotation.shape, fun idx => rotation.bget idx / n.bget idx⟩, rfl, ?_, ?_, ?_⟩
  · intro idx hi
    have hl : idx.length = w.shape.length := by have := hi.length; simpa using this
    have hg : ∀ k, k < 4 → rotation.bget (idx.set p k) / n.bget (idx.set p k) =
        (Real.sqrt (nsq (arcRaw (vec3 v p idx) (vec3 w p idx))))⁻¹ * rotation.get (idx.set p k) := by
      intro k hk
      have hv : Valid rotation.shape (idx.set p k) := valid_of_set1 hi hk
      rw [bget_valid _ hv, bget_same n (by simp [ND.ndim, hns, hl])]
      have hv' : Valid (w.shape.set p 4) (idx.set p k) := hv
      rw [hns, bidx_set1 hv', List.set_set]
      have hi0 : Valid (w.shape.set p 1) (idx.set p 0) := valid_to_set1 hv' |> fun h => by rwa [List.set_set] at h
      have hq : ∀ u : ND ℝ, vec3 u p (idx.set p 0) = vec3 u p idx := fun u => by simp [vec3]
      show _ / Real.sqrt (nsq (quat4 rotation p (idx.set p 0))) = _
      rw [hrg _ hi0, hq, hq, div_eq_mul_inv, mul_comm]
    rw [← hrg idx hi]
    rw [← hrg idx hi] at hg
    ext
    · simp only [quat4, Quaternion.re_smul, smul_eq_mul]; exact hg 0 (by decide)
    · simp only [quat4, Quaternion.imI_smul, smul_eq_mul]; exact hg 1 (by decide)
    · simp only [quat4, Quaternion.imJ_smul, smul_eq_mul]; exact hg 2 (by decide)
    · simp only [quat4, Quaternion.imK_smul, smul_eq_mul]; exact hg 3 (by decide)
  · intro hno
    rw [← hcond] at hno
    simp only [shortestArc, e1, e2, e3, e4, hC, e5, e6, e7, e8, bind, Except.bind]
    rw [← hn, if_neg hno]
    exact bop_right _ rotation n hb
  · intro hyes
    rw [← hcond] at hyes
    simp only [shortestArc, e1, e2, e3, e4, hC, e5, e6, e7, e8, bind, Except.bind]
    rw [← hn, if_pos hyes]
    rfl

/-- What the result is, given the spatial axis `p`: the shortest arcs between the vectors, or not finite if one of the pairs has
none. -/
theorem arc_cases (v w : ND ℝ) {axis : ℤ} {p : ℕ} (hs : v.shape = w.shape) (hax : AxisIs axis v.ndim p) (h3 : v.shape.getD p 0 = 3) :
    ((∀ i, Valid (v.shape.set p 1) i → ArcPair (vec3 v p i) (vec3 w p i)) →
      ∃ R, shortestArc v w axis = .ok R ∧ R.shape = v.shape.set p 4 ∧
        ∀ i, Valid (v.shape.set p 1) i → IsShortestArc (vec3 v p i) (vec3 w p i) (quat4 R p i)) ∧
    (∀ i, Valid (v.shape.set p 1) i → ¬ ArcPair (vec3 v p i) (vec3 w p i) → shortestArc v w axis = .error .nonfinite) := by
  obtain ⟨R, h1, h2, h4, h5⟩ := shortestArc_core v w hs (by rw [ND.ndim, ← hs]; exact hax) (by rw [← hs]; exact h3)
  rw [← hs] at h1 h2 h4 h5
  constructor
  · intro hall
    refine ⟨R, h4 ?_, h1, fun i hi => ?_⟩
    · rintro ⟨i, hi, h0⟩
      exact (arcPair_iff _ _).mp (hall i hi) h0
    · rw [h2 i hi]
      exact arc_spec (hall i hi)
  · intro i hi hno
    apply h5
    refine ⟨i, hi, ?_⟩
    by_contra hcon
    exact hno ((arcPair_iff _ _).mpr hcon)

/-- `shortest_arc_rotation` of two plain arrays of the same shape, any spatial axis (except `axis=0`, which the library takes as
the last one): the shortest arcs, stored along the same axis. -/
theorem C45_plain (x : XrOps) {v w : ND ℝ} {axis : Option ℤ} {p : ℕ} (hs : v.shape = w.shape) (hax : AxisIs (axis.getD (-1)) v.ndim p)
    (h0 : axis ≠ some 0) (h3 : v.shape.getD p 0 = 3)
    (hall : ∀ i, Valid (v.shape.set p 1) i → ArcPair (vec3 v p i) (vec3 w p i)) :
    ∃ R, shortestArcRotation x (.nd v) w none axis = .ok (.nd R) ∧ R.shape = v.shape.set p 4 ∧
      ∀ i, Valid (v.shape.set p 1) i → IsShortestArc (vec3 v p i) (vec3 w p i) (quat4 R p i) := by
  obtain ⟨R, h1, h2, h4⟩ := (arc_cases v w hs hax h3).1 hall
  refine ⟨R, ?_, h2, h4⟩
  simp only [shortestArcRotation, unpackNoTime, orDefault_getD h0, bind, Except.bind, h1]
  rfl

/-- Zero or opposite vectors make the result not finite. -/
theorem C45_singular (x : XrOps) {v w : ND ℝ} {axis : Option ℤ} {p : ℕ} (hs : v.shape = w.shape) (hax : AxisIs (axis.getD (-1)) v.ndim p)
    (h0 : axis ≠ some 0) (h3 : v.shape.getD p 0 = 3) {i : List ℕ} (hi : Valid (v.shape.set p 1) i)
    (hno : ¬ ArcPair (vec3 v p i) (vec3 w p i)) :
    shortestArcRotation x (.nd v) w none axis = .error .nonfinite := by
  have h1 := (arc_cases v w hs hax h3).2 i hi hno
  simp only [shortestArcRotation, unpackNoTime, orDefault_getD h0, bind, Except.bind, h1]

theorem unpackNoTime_da {d : DArr} (hd : DArr.Ok d) {dim : Option String} {axis : Option ℤ} {old : String} {p : ℕ} (hat : DimAt d old p)
    (hdim : dim = some old ∧ axis = none ∨ dim = none ∧ axis ≠ some 0 ∧ AxisIs (axis.getD (-1)) d.data.ndim p) :
    ∃ ax, AxisIs ax d.data.ndim p ∧ unpackAxis d dim axis = .ok (ax, old) := by
  rcases hdim with ⟨rfl, rfl⟩ | ⟨rfl, h0, h⟩
  · exact ⟨p, axisIs_nat (idxOf_of_dimAt hd hat).2.2, unpackAxis_dim hd hat⟩
  · rw [← orDefault_getD h0] at h
    exact ⟨_, h, unpackAxis_axis hd h hat⟩

/-- A DataArray as first argument: the result is a DataArray with the spatial dimension replaced by `quaternion_axis`. -/
theorem C45_dataarray (x : XrOps) {d : DArr} (hd : DArr.Ok d) {w : ND ℝ} (hs : d.data.shape = w.shape) {dim : Option String} {axis : Option ℤ}
    {old : String} {p : ℕ} (hat : DimAt d old p)
    (hdim : dim = some old ∧ axis = none ∨ dim = none ∧ axis ≠ some 0 ∧ AxisIs (axis.getD (-1)) d.data.ndim p)
    (hfirst : p ≠ 0 ∨ d.data.ndim = 1) (hfree : "quaternion_axis" ∉ d.info.dims ∨ "quaternion_axis" = old)
    (h3 : d.data.shape.getD p 0 = 3) (hall : ∀ i, Valid (d.data.shape.set p 1) i → ArcPair (vec3 d.data p i) (vec3 w p i)) :
    ∃ out, shortestArcRotation x (.da d) w dim axis = .ok (.da out) ∧ out.data.shape = d.data.shape.set p 4 ∧
      (∀ i, Valid (d.data.shape.set p 1) i → IsShortestArc (vec3 d.data p i) (vec3 w p i) (quat4 out.data p i)) ∧
      Relabelled d out p old "quaternion_axis" ["w", "x", "y", "z"] := by
  obtain ⟨ax, hax, hu⟩ := unpackNoTime_da hd hat hdim
  obtain ⟨R, h1, h2, h4⟩ := (arc_cases d.data w hs hax h3).1 hall
  obtain ⟨m', e1, e2, e3⟩ := relabel_ok x hd hat hax (into := "quaternion") (n := 3) (ndim := "quaternion_axis") (labels := ["w", "x", "y", "z"])
    rfl hfree (out := R) h2
  refine ⟨⟨R, m'⟩, ?_, h2, h4, e3⟩
  have hc : ¬ (d.data.ndim > 1 ∧ ax % d.data.ndim = 0) := by
    rintro ⟨a, b⟩
    rw [axisIs_emod hax] at b
    rcases hfirst with h | h
    · omega
    · omega
  simp only [shortestArcRotation, unpackNoTime, hu, bind, Except.bind, if_neg hc, Pure.pure, Except.pure, h1, e1, e2]

/-- DataArrays of more than one dimension whose first dimension is the spatial one are rejected. -/
theorem C45_first_dim_fails (x : XrOps) {d : DArr} (hd : DArr.Ok d) (w : ND ℝ) {dim : Option String} {axis : Option ℤ}
    {old : String} (hat : DimAt d old 0)
    (hdim : dim = some old ∧ axis = none ∨ dim = none ∧ axis ≠ some 0 ∧ AxisIs (axis.getD (-1)) d.data.ndim 0) (hn : 1 < d.data.ndim) :
    shortestArcRotation x (.da d) w dim axis = .error .valueError := by
  obtain ⟨ax, hax, hu⟩ := unpackNoTime_da hd hat hdim
  have hc : d.data.ndim > 1 ∧ ax % d.data.ndim = 0 := ⟨hn, by rw [axisIs_emod hax]; rfl⟩
  simp only [shortestArcRotation, unpackNoTime, hu, bind, Except.bind, if_pos hc]
  rfl

/-- Pairs that have a shortest arc, and pairs that have none. -/
example : ArcPair ![1, 0, 0] ![1, 2, 0] ∧ ¬ ArcPair ![1, 0, 0] ![-2, 0, 0] ∧ ¬ ArcPair ![1, 0, 0] ![0, 0, 0] := by
  refine ⟨⟨?_, ?_, ?_⟩, ?_, ?_⟩
  · intro h; have := congrFun h 0; simp at this
  · intro h; have := congrFun h 0; simp at this
  · rintro ⟨c, -, h⟩
    have := congrFun h 1
    simp at this
  · rintro ⟨-, -, h⟩
    apply h
    refine ⟨-2, by norm_num, ?_⟩
    ext i; fin_cases i <;> simp
  · rintro ⟨-, h, -⟩
    apply h
    ext i; fin_cases i <;> simp

/-- The hypotheses of `C45_plain` are met. -/
example (x : XrOps) : ∃ R, shortestArcRotation x (.nd (fitArr [![1, 0, 0], ![0, 3, 0]])) (fitArr [![1, 2, 0], ![0, 1, 0]]) = .ok (.nd R) ∧
    R.shape = [2, 4] ∧ IsShortestArc ![1, 0, 0] ![1, 2, 0] (quat4 R 1 [0, 0]) := by
  have hp : ∀ k, k < 2 → ArcPair (vec3 (fitArr [![1, 0, 0], ![0, 3, 0]]) 1 [k, 0]) (vec3 (fitArr [![1, 2, 0], ![0, 1, 0]]) 1 [k, 0]) := by
    intro k hk
    rw [fitArr_row, fitArr_row]
    interval_cases k
    · refine ⟨?_, ?_, ?_⟩
      · intro h; have := congrFun h 0; simp at this
      · intro h; have := congrFun h 0; simp at this
      · rintro ⟨c, -, h⟩
        have := congrFun h 1
        simp at this
    · refine ⟨?_, ?_, ?_⟩
      · intro h; have := congrFun h 1; simp at this
      · intro h; have := congrFun h 1; simp at this
      · rintro ⟨c, hc, h⟩
        have := congrFun h 1
        simp at this
        linarith
  obtain ⟨R, h1, h2, h3⟩ := C45_plain x (v := fitArr [![1, 0, 0], ![0, 3, 0]]) (w := fitArr [![1, 2, 0], ![0, 1, 0]]) (axis := none) (p := 1)
    (by simp [fitArr]) ⟨by simp [fitArr, ND.ndim], .inr (by simp [fitArr, ND.ndim])⟩ (by simp) (by simp [fitArr]) (by
      intro i hi
      obtain ⟨k, hk, rfl⟩ := List.mem_map.mp (((rowPos_lists 2).2 i).mpr hi)
      exact hp k (List.mem_range.mp hk))
  refine ⟨R, h1, by simpa [fitArr] using h2, ?_⟩
  have := h3 [0, 0] (by simp [Valid, fitArr])
  rw [fitArr_row, fitArr_row] at this
  exact this

/-- Opposite directions have no unique shortest arc (`C45_singular`). -/
example (x : XrOps) : shortestArcRotation x (.nd (fitArr [![1, 0, 0]])) (fitArr [![-2, 0, 0]]) = .error .nonfinite := by
  refine C45_singular x (v := fitArr [![1, 0, 0]]) (w := fitArr [![-2, 0, 0]]) (axis := none) (p := 1) (by simp [fitArr])
    ⟨by simp [fitArr, ND.ndim], .inr (by simp [fitArr, ND.ndim])⟩ (by simp) (by simp [fitArr]) (i := [0, 0]) (by simp [Valid, fitArr]) ?_
  rw [fitArr_row, fitArr_row]
  rintro ⟨-, -, h⟩
  apply h
  refine ⟨-2, by norm_num, ?_⟩
  ext i; fin_cases i <;> simp

end RBM.Props
