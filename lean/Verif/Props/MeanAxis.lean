import Verif.Props.Mean
import Verif.Props.Plumbing
import Verif.Lemmas.Reshape

/-!
`qmean` of arrays, along all or some axes (C41).
-/

namespace RBM.Props

open RBM.Spec RBM

theorem dropAxesFrom_eq (axes : List ℕ) (l : List ℕ) (k : ℕ) :
    dropAxesFrom axes k l = ((List.range l.length).filter fun j => decide (k + j ∉ axes)).map fun j => l.getD j 0 := by
  induction l generalizing k with
  | nil => rfl
  | cons x l ih =>
    rw [dropAxesFrom, List.length_cons, List.range_succ_eq_map, List.filter_cons, List.filter_map, ih]
    have e : ((fun j => decide (k + j ∉ axes)) ∘ Nat.succ) = fun j => decide (k + 1 + j ∉ axes) := by
      funext j; simp only [Function.comp, Nat.succ_eq_add_one]; congr 2; rw [show k + (j + 1) = k + 1 + j by omega]
    rw [e]
    by_cases h : k ∈ axes
    · simp [h, Function.comp_def]
    · simp [h, Function.comp_def]

theorem dropAxes_eq (axes l : List ℕ) : dropAxes axes l = remaining axes l := by
  rw [dropAxes, dropAxesFrom_eq, remaining]; simp

theorem meanGroup_isGroup (q : ND Quat) (axes idx : List ℕ) : IsGroup q axes idx (meanGroup q axes idx) := by
  refine ⟨(allIdx q.shape).filter fun i => decide (dropAxes axes i = idx), (nodup_allIdx _).filter _, ?_, rfl⟩
  intro i
  simp [mem_allIdx, dropAxes_eq]

theorem isGroup_perm {q : ND Quat} {axes idx : List ℕ} {qs qs' : List Quat} (h : IsGroup q axes idx qs) (h' : IsGroup q axes idx qs') : qs.Perm qs' := by
  obtain ⟨a, a1, a2, rfl⟩ := h
  obtain ⟨b, b1, b2, rfl⟩ := h'
  exact ((List.perm_ext_iff_of_nodup a1 b1).mpr fun i => by rw [a2, b2]).map _

theorem meanOuter_perm {qs qs' : List Quat} (h : qs.Perm qs') : meanOuter qs = meanOuter qs' := by
  funext i j
  simp only [meanOuter, h.length_eq]
  rw [(h.map fun q => qvec q i * qvec q j).sum_eq]

theorem isMean_perm {qs qs' : List Quat} (h : qs.Perm qs') {m : Quat} (hm : IsMeanDirection qs m) : IsMeanDirection qs' m := by
  refine ⟨hm.1, fun x hx => ?_⟩
  rw [← (h.map fun q => qdot x q ^ 2).sum_eq, ← (h.map fun q => qdot m q ^ 2).sum_eq]
  exact hm.2 x hx

theorem meanAxes_ok {axis : AxisArg} {n : ℕ} {axes : List ℕ} (h : MeanAxes axis n axes) : meanAxes axis n = .ok axes := by
  cases axis with
  | none =>
    have h : axes = List.range n := h
    subst h
    simp only [meanAxes, C55_none, bind, Except.bind, List.map_map, Function.comp_def, Int.toNat_natCast, List.map_id']
    rw [if_pos List.nodup_range]; rfl
  | int a =>
    obtain ⟨p, h1, rfl⟩ := h
    simp only [meanAxes, (C55_int a n).1 p h1, bind, Except.bind, Int.toNat_natCast]; rfl
  | tuple l =>
    obtain ⟨h1, h2⟩ := h
    simp only [meanAxes, (C55_tuple l n).1 axes h1, bind, Except.bind, List.map_map, Function.comp_def, Int.toNat_natCast, List.map_id']
    rw [if_pos h2]; rfl

theorem outerMean_eq (qs : List Quat) : outerMean qs = meanOuter qs := rfl

theorem descending_ne {eig : Mat4 → (Fin 4 → ℝ) × Mat4} (he : EigLaw eig) {qs : List Quat} (hd : Descending eig qs) : qs ≠ [] := by
  rintro rfl
  have hs := meanOuter_symm []
  have hz : ∀ j, (eig (meanOuter [])).1 j = 0 := by
    intro j
    have h1 := fun i => he.eigenpair _ hs i j
    have h2 := he.normalised _ hs j
    by_contra hne
    have h3 : ∀ i, (eig (meanOuter [])).2 i j = 0 := by
      intro i
      have := h1 i
      have e : ∑ k, meanOuter [] i k * (eig (meanOuter [])).2 k j = 0 := Finset.sum_eq_zero fun k _ => by simp [meanOuter]
      rw [e] at this
      exact (mul_eq_zero.mp this.symm).resolve_left hne
    rw [Finset.sum_eq_zero fun k _ => by rw [h3 k]; norm_num] at h2
    norm_num at h2
  have := hd 0 1 (by decide)
  rw [outerMean_eq, hz, hz] at this
  exact lt_irrefl _ this

theorem valid_zeros {sh : List ℕ} (h : 0 ∉ sh) : Valid sh (List.replicate sh.length 0) := by
  induction sh with
  | nil => trivial
  | cons n sh ih =>
    simp only [List.mem_cons, not_or] at h
    exact ⟨Nat.pos_of_ne_zero (Ne.symm h.1), ih h.2⟩

theorem remaining_pos {axes sh : List ℕ} (h : 0 ∉ sh) : 0 ∉ remaining axes sh := by
  intro h0
  simp only [remaining, List.mem_map, List.mem_filter, List.mem_range] at h0
  obtain ⟨k, ⟨hk, _⟩, e⟩ := h0
  rw [List.getD_eq_getElem?_getD, List.getElem?_eq_getElem hk, Option.getD_some] at e
  exact h (e ▸ List.getElem_mem hk)

/-- What `qmean` computes when the eigenvalues are descending: the mean direction of the first group, at every position. -/
theorem over_mean {eig : Mat4 → (Fin 4 → ℝ) × Mat4} {argsort : (Fin 4 → ℝ) → Fin 4 → Fin 4} (he : EigLaw eig) (hs : SortLaw argsort) {q : ND Quat}
    {axes : List ℕ} (hne : 0 ∉ q.shape) (hl : ∀ idx qs, Valid (remaining axes q.shape) idx → IsGroup q axes idx qs → Descending eig qs) :
    ∃ out, qmeanOver eig argsort q axes = .ok out ∧ out.shape = remaining axes q.shape ∧ ∀ idx, Valid out.shape idx →
      ∀ qs, IsGroup q axes (List.replicate out.shape.length 0) qs → IsMeanDirection qs (out.get idx) := by
  have e0 : qmeanOver eig argsort q axes = .ok ⟨dropAxes axes q.shape, fun idx => ofQvec fun i =>
      (eig (meanOuter (meanGroup q axes (List.replicate (dropAxes axes q.shape).length 0)))).2 (argsort (eig (meanOuter (meanGroup q axes idx))).1 (Fin.rev i)) 0⟩ := by
    simp only [qmeanOver, hne, false_and, if_false]
  refine ⟨_, e0, dropAxes_eq _ _, ?_⟩
  intro idx hv qs hqs
  simp only at hv hqs ⊢
  rw [dropAxes_eq] at hv hqs
  have h0 := hl _ _ (valid_zeros (remaining_pos hne)) hqs
  have g1 := meanGroup_isGroup q axes idx
  have d1 : ∀ i j, i < j → (eig (meanOuter (meanGroup q axes idx))).1 j < (eig (meanOuter (meanGroup q axes idx))).1 i := hl idx _ hv g1
  have d0 : ∀ i j, i < j → (eig (meanOuter qs)).1 j < (eig (meanOuter qs)).1 i := h0
  obtain ⟨m, e1, e2⟩ := C41_descending_partial he hs (descending_ne he h0) d0
  have e3 : m = ofQvec fun i => (eig (meanOuter qs)).2 i 0 := by
    simp only [qmeanAll, descending_ne he h0, if_false] at e1
    injection e1 with e1
    rw [← e1]
    congr 1; funext i; rw [perm_desc hs d0]
  rw [e3] at e2
  convert e2 using 2
  funext i
  rw [perm_desc hs d1, dropAxes_eq, meanOuter_perm (isGroup_perm (meanGroup_isGroup q axes _) hqs)]

/-- Proved part of C41 for arrays: without `axis`, the mean direction of all entries, whatever the shape (missing: eigenvalues in any other order, see
`C41_is_false`). -/
theorem C41_all_partial {eig : Mat4 → (Fin 4 → ℝ) × Mat4} {argsort : (Fin 4 → ℝ) → Fin 4 → Fin 4} (he : EigLaw eig) (hs : SortLaw argsort) {q : ND Quat}
    (hne : 0 ∉ q.shape) (hl : ∀ qs, IsGroup q (List.range q.ndim) [] qs → Descending eig qs) :
    ∃ out, qmean eig argsort (.quat q) = .ok (.quat out) ∧ out.shape = [] ∧ ∀ qs, IsGroup q (List.range q.ndim) [] qs → IsMeanDirection qs (out.get []) := by
  have hr : remaining (List.range q.ndim) q.shape = [] := by
    simp only [remaining, List.map_eq_nil_iff, List.filter_eq_nil_iff, List.mem_range, decide_eq_true_eq, not_not]
    exact fun k hk => hk
  obtain ⟨out, e1, e2, e3⟩ := over_mean he hs (axes := List.range q.ndim) hne (by
    intro idx qs hv hg
    rw [hr] at hv
    cases idx with
    | nil => exact hl qs hg
    | cons a l => exact hv.elim)
  rw [hr] at e2
  refine ⟨out, ?_, e2, ?_⟩
  · simp only [qmean, meanAxes_ok (axis := .none) (axes := List.range q.ndim) rfl, bind, Except.bind, e1]; rfl
  · have := e3 [] (by rw [e2]; trivial)
    rw [e2] at this
    exact this

/-- Proved part of C41 for an `axis` argument: the result has the other axes, but all of its entries are the mean direction of the *first* group, so that
only the first one is right (see `C41_axis_is_false`). -/
theorem C41_axis_partial {eig : Mat4 → (Fin 4 → ℝ) × Mat4} {argsort : (Fin 4 → ℝ) → Fin 4 → Fin 4} (he : EigLaw eig) (hs : SortLaw argsort) {q : ND Quat}
    {axis : AxisArg} {axes : List ℕ} (hax : MeanAxes axis q.ndim axes) (hne : 0 ∉ q.shape)
    (hl : ∀ idx qs, Valid (remaining axes q.shape) idx → IsGroup q axes idx qs → Descending eig qs) :
    ∃ out, qmean eig argsort (.quat q) axis = .ok (.quat out) ∧ out.shape = remaining axes q.shape ∧ ∀ idx, Valid out.shape idx →
      ∀ qs, IsGroup q axes (List.replicate out.shape.length 0) qs → IsMeanDirection qs (out.get idx) := by
  obtain ⟨out, e1, e2, e3⟩ := over_mean he hs hne hl
  refine ⟨out, ?_, e2, e3⟩
  simp only [qmean, meanAxes_ok hax, bind, Except.bind, e1]; rfl

theorem swapL_self (i : ℕ) (l : List ℕ) : swapL i i l = l := by
  apply List.ext_getElem?
  intro k
  simp only [swapL, List.getElem?_set, List.length_set]
  by_cases h : i = k
  · subst h
    by_cases hk : i < l.length
    · simp [hk, List.getD_eq_getElem?_getD]
    · simp [hk]
  · simp [h]

theorem swapaxesZ_last {α : Type} (a : ND α) (h : 0 < a.ndim) : a.swapaxesZ (-1) (-1) = .ok a := by
  have : normAxis (-1) a.ndim = some (a.ndim - 1) := by
    simp only [normAxis]
    rw [if_neg (by omega), if_pos (by omega)]
    congr 1; omega
  simp only [ND.swapaxesZ, this, ND.swapaxes, swapL_self]

theorem asQuat_asFloat (q : ND Quat) : asQuatArray (asFloatArray q) = .ok q := by
  simp only [asQuatArray, asFloatArray, List.getLast?_append, List.getLast?_singleton, Option.some_or, List.dropLast_concat]
  rfl

/-- The dtype does not matter: float arrays with the quaternions along the last axis give the same means, or the same error. -/
theorem C41_dtype (eig : Mat4 → (Fin 4 → ℝ) × Mat4) (argsort : (Fin 4 → ℝ) → Fin 4 → Fin 4) (q : ND Quat) (axis : AxisArg) :
    (∀ out, qmean eig argsort (.quat q) axis = .ok (.quat out) → qmean eig argsort (.float (asFloatArray q)) axis = .ok (.float (asFloatArray out))) ∧
    ∀ e, qmean eig argsort (.quat q) axis = .error e → qmean eig argsort (.float (asFloatArray q)) axis = .error e := by
  have h1 : 0 < (asFloatArray q).ndim := by simp [asFloatArray, ND.ndim]
  simp only [qmean, swapaxesZ_last _ h1, asQuat_asFloat, bind, Except.bind]
  cases meanAxes axis q.ndim with
  | error e => exact ⟨fun _ h => by simp at h, fun _ h => by simpa using h⟩
  | ok axes =>
    simp only
    cases qmeanOver eig argsort q axes with
    | error e => exact ⟨fun _ h => by simp at h, fun _ h => by simpa using h⟩
    | ok m =>
      have h2 : 0 < (asFloatArray m).ndim := by simp [asFloatArray, ND.ndim]
      simp only [swapaxesZ_last _ h2]
      refine ⟨fun out h => ?_, fun _ h => by simp [Pure.pure, Except.pure] at h⟩
      simp only [Pure.pure, Except.pure] at h ⊢
      injection h with h; injection h with h
      rw [h]

/-- Axes that do not exist, or the same axis twice, are refused. -/
theorem C41_bad_axis (eig : Mat4 → (Fin 4 → ℝ) × Mat4) (argsort : (Fin 4 → ℝ) → Fin 4 → Fin 4) (q : ND Quat) :
    (∀ a, (∀ p, ¬ AxisIs a q.ndim p) → qmean eig argsort (.quat q) (.int a) = .error .indexError) ∧
    (∀ l, (∃ a ∈ l, ∀ p, ¬ AxisIs a q.ndim p) → qmean eig argsort (.quat q) (.tuple l) = .error .indexError) ∧
    ∀ l ps, List.Forall₂ (fun a p => AxisIs a q.ndim p) l ps → ¬ ps.Nodup → qmean eig argsort (.quat q) (.tuple l) = .error .valueError := by
  refine ⟨fun a h => ?_, fun l h => ?_, fun l ps h hd => ?_⟩
  · simp only [qmean, meanAxes, (C55_int a _).2 h, bind, Except.bind]
  · simp only [qmean, meanAxes, (C55_tuple l _).2 h, bind, Except.bind]
  · simp only [qmean, meanAxes, (C55_tuple l _).1 ps h, bind, Except.bind, List.map_map, Function.comp_def, Int.toNat_natCast, List.map_id', if_neg hd]
    rfl

/-- A quaternion axis given as a positive number is refused with `axis=None`: the result has one axis only. -/
theorem C41_qaxis_refused (eig : Mat4 → (Fin 4 → ℝ) × Mat4) (argsort : (Fin 4 → ℝ) → Fin 4 → Fin 4) (q : ND ℝ) {p : ℕ} (hp : 1 ≤ p) :
    ∃ e, qmean eig argsort (.float q) .none p = .error e := by
  simp only [qmean, bind, Except.bind]
  cases q.swapaxesZ p (-1) with
  | error e => exact ⟨e, rfl⟩
  | ok w =>
    simp only
    cases asQuatArray w with
    | error e => exact ⟨e, rfl⟩
    | ok Q =>
      simp only [meanAxes_ok (axis := .none) (n := Q.ndim) (axes := List.range Q.ndim) rfl]
      cases hm : qmeanOver eig argsort Q (List.range Q.ndim) with
      | error e => exact ⟨e, rfl⟩
      | ok m =>
        simp only
        have hs : m.shape = [] := by
          simp only [qmeanOver] at hm
          split at hm
          · simp at hm
          · injection hm with hm
            rw [← hm]
            simp only [dropAxes_eq, remaining, List.map_eq_nil_iff, List.filter_eq_nil_iff, List.mem_range, decide_eq_true_eq, not_not]
            exact fun k hk => hk
        have : (asFloatArray m).swapaxesZ (-1) (p : ℤ) = .error .valueError := by
          have hn : (asFloatArray m).ndim = 1 := by simp [asFloatArray, ND.ndim, hs]
          have : normAxis (p : ℤ) 1 = none := by
            simp only [normAxis]
            rw [if_neg (by push_cast; omega), if_neg (by omega)]
          simp only [ND.swapaxesZ, hn, this]
          cases normAxis (-1) 1 <;> rfl
        rw [this]
        exact ⟨_, rfl⟩

/-- As `exMean`, with the first two components exchanged. -/
noncomputable def exMean2 : List Quat :=
  let i := ofQvec ![0, 1, 0, 0]
  let j := ofQvec ![0, 0, 1, 0]
  let k := ofQvec ![0, 0, 0, 1]
  [i, i, i, i, 1, 1, 1, j, j, k]

theorem exMean2_outer : meanOuter exMean2 = Matrix.diagonal ![3/10, 4/10, 2/10, 1/10] := by
  ext i j
  fin_cases i <;> fin_cases j <;> norm_num [meanOuter, exMean2, qvec_ofQvec, qvec_one, Matrix.diagonal_apply]

/-- Two columns of ten quaternions each: `exMean` and `exMean2`. -/
noncomputable def exCols : ND Quat := ⟨[10, 2], fun idx => if idx.getD 1 0 = 0 then exMean.getD (idx.getD 0 0) 1 else exMean2.getD (idx.getD 0 0) 1⟩

theorem exCols_group (c : ℕ) (hc : c < 2) : IsGroup exCols [0] [c] (if c = 0 then exMean else exMean2) := by
  refine ⟨(List.range 10).map fun r => [r, c], ?_, ?_, ?_⟩
  · exact List.nodup_range.map fun a b h => by simpa using h
  · intro i
    constructor
    · intro h
      simp only [List.mem_map, List.mem_range] at h
      obtain ⟨r, hr, rfl⟩ := h
      exact ⟨⟨hr, hc, trivial⟩, by simp [remaining, List.range_succ]⟩
    · rintro ⟨hv, hr⟩
      match i, hv with
      | [r, c'], hv =>
        obtain ⟨h1, h2, -⟩ := hv
        have : c' = c := by simpa [remaining, List.range_succ] using hr
        subst this
        simp only [List.mem_map, List.mem_range]
        exact ⟨r, h1, rfl⟩
  · rw [List.map_map]
    by_cases h : c = 0
    · simp [h, exCols, Function.comp_def, List.range_succ, exMean]
    · simp [h, exCols, Function.comp_def, List.range_succ, exMean2]

theorem exCols_remaining : remaining [0] exCols.shape = [2] := by simp [remaining, exCols, List.range_succ]

theorem exCols_axes : MeanAxes (.int 0) exCols.ndim [0] := ⟨0, by simp [AxisIs, exCols, ND.ndim], rfl⟩

theorem exMean_score (x : Quat) : (exMean.map fun q => qdot x q ^ 2).sum = 4 * x.re ^ 2 + 3 * x.imI ^ 2 + 2 * x.imJ ^ 2 + x.imK ^ 2 := by
  simp only [exMean, List.map_cons, List.map_nil, List.sum_cons, List.sum_nil, qdot_qvec, Fin.sum_univ_four, qvec_ofQvec, qvec_one]
  simp [qvec, qcomp]; ring

theorem exMean2_score (x : Quat) : (exMean2.map fun q => qdot x q ^ 2).sum = 3 * x.re ^ 2 + 4 * x.imI ^ 2 + 2 * x.imJ ^ 2 + x.imK ^ 2 := by
  simp only [exMean2, List.map_cons, List.map_nil, List.sum_cons, List.sum_nil, qdot_qvec, Fin.sum_univ_four, qvec_ofQvec, qvec_one]
  simp [qvec, qcomp]; ring

/-- C41 is false for an `axis` argument: whatever the eigenvalue solver, if it returns the eigenvalues in descending order (as it must for the mean to be
right at all), `qmean` along the first axis of `exCols` is wrong for the second column. -/
theorem C41_axis_is_false {eig : Mat4 → (Fin 4 → ℝ) × Mat4} {argsort : (Fin 4 → ℝ) → Fin 4 → Fin 4} (he : EigLaw eig) (hs : SortLaw argsort)
    (h0 : Descending eig exMean) (h1 : Descending eig exMean2) :
    IsGroup exCols [0] [1] exMean2 ∧ ∃ out, qmean eig argsort (.quat exCols) (.int 0) = .ok (.quat out) ∧ out.shape = [2] ∧
      ¬ IsMeanDirection exMean2 (out.get [1]) := by
  have hg1 := exCols_group 1 (by norm_num)
  have hg0 := exCols_group 0 (by norm_num)
  rw [if_neg (by norm_num)] at hg1
  rw [if_pos rfl] at hg0
  refine ⟨hg1, ?_⟩
  obtain ⟨out, e1, e2, e3⟩ := C41_axis_partial he hs exCols_axes (by simp [exCols]) (by
    rw [exCols_remaining]
    intro idx qs hv hq
    match idx, hv with
    | [c], hv =>
      have hd : Descending eig (if c = 0 then exMean else exMean2) := by split <;> assumption
      have := meanOuter_perm (isGroup_perm (exCols_group c hv.1) hq)
      intro a b hab
      have h2 := hd a b hab
      rw [outerMean_eq] at h2 ⊢
      rwa [← this])
  rw [exCols_remaining] at e2
  refine ⟨out, e1, e2, fun hm => ?_⟩
  have k0 := e3 [1] (by rw [e2]; exact ⟨by norm_num, trivial⟩) exMean (by rw [e2]; exact hg0)
  obtain ⟨u, f0⟩ := k0
  have f1 := hm.2
  have a0 := f0 1 (by simp [IsUnitQ, nsq])
  have a1 := f1 (ofQvec ![0, 1, 0, 0]) (by simp [IsUnitQ, nsq, ofQvec])
  rw [exMean_score, exMean_score] at a0
  rw [exMean2_score, exMean2_score] at a1
  simp only [IsUnitQ, nsq] at u
  simp [ofQvec] at a0 a1
  nlinarith [sq_nonneg (out.get [1]).re, sq_nonneg (out.get [1]).imI, sq_nonneg (out.get [1]).imJ, sq_nonneg (out.get [1]).imK]

/-- There is a solver with these properties. -/
theorem exCols_solver : ∃ eig argsort, EigLaw eig ∧ SortLaw argsort ∧ Descending eig exMean ∧ Descending eig exMean2 := by
  classical
  obtain ⟨e0, h0⟩ := eigLaw_exists
  obtain ⟨argsort, hs⟩ := sortLaw_exists
  let d : Fin 4 → ℝ := ![4/10, 3/10, 2/10, 1/10]
  let d2 : Fin 4 → ℝ := ![3/10, 4/10, 2/10, 1/10]
  let P : Mat4 := !![0, 1, 0, 0; 1, 0, 0, 0; 0, 0, 1, 0; 0, 0, 0, 1]
  let eig : Mat4 → (Fin 4 → ℝ) × Mat4 := fun A => if A = Matrix.diagonal d then (d, 1) else if A = Matrix.diagonal d2 then (d, P) else e0 A
  have p00 : P 0 0 = 0 := rfl
  have p01 : P 0 1 = 1 := rfl
  have p02 : P 0 2 = 0 := rfl
  have p03 : P 0 3 = 0 := rfl
  have p10 : P 1 0 = 1 := rfl
  have p11 : P 1 1 = 0 := rfl
  have p12 : P 1 2 = 0 := rfl
  have p13 : P 1 3 = 0 := rfl
  have p20 : P 2 0 = 0 := rfl
  have p21 : P 2 1 = 0 := rfl
  have p22 : P 2 2 = 1 := rfl
  have p23 : P 2 3 = 0 := rfl
  have p30 : P 3 0 = 0 := rfl
  have p31 : P 3 1 = 0 := rfl
  have p32 : P 3 2 = 0 := rfl
  have p33 : P 3 3 = 1 := rfl
  have hPP : P * P = 1 := by
    ext i j
    rw [Matrix.mul_apply, Fin.sum_univ_four]
    fin_cases i <;> fin_cases j
    · show P 0 0 * P 0 0 + P 0 1 * P 1 0 + P 0 2 * P 2 0 + P 0 3 * P 3 0 = (1 : Mat4) 0 0; simp [p00, p01, p02, p03, p10, p11, p12, p13, p20, p21, p22, p23, p30, p31, p32, p33]
    · show P 0 0 * P 0 1 + P 0 1 * P 1 1 + P 0 2 * P 2 1 + P 0 3 * P 3 1 = (1 : Mat4) 0 1; simp [p00, p01, p02, p03, p10, p11, p12, p13, p20, p21, p22, p23, p30, p31, p32, p33]
    · show P 0 0 * P 0 2 + P 0 1 * P 1 2 + P 0 2 * P 2 2 + P 0 3 * P 3 2 = (1 : Mat4) 0 2; simp [p00, p01, p02, p03, p10, p11, p12, p13, p20, p21, p22, p23, p30, p31, p32, p33]
    · show P 0 0 * P 0 3 + P 0 1 * P 1 3 + P 0 2 * P 2 3 + P 0 3 * P 3 3 = (1 : Mat4) 0 3; simp [p00, p01, p02, p03, p10, p11, p12, p13, p20, p21, p22, p23, p30, p31, p32, p33]
    · show P 1 0 * P 0 0 + P 1 1 * P 1 0 + P 1 2 * P 2 0 + P 1 3 * P 3 0 = (1 : Mat4) 1 0; simp [p00, p01, p02, p03, p10, p11, p12, p13, p20, p21, p22, p23, p30, p31, p32, p33]
    · show P 1 0 * P 0 1 + P 1 1 * P 1 1 + P 1 2 * P 2 1 + P 1 3 * P 3 1 = (1 : Mat4) 1 1; simp [p00, p01, p02, p03, p10, p11, p12, p13, p20, p21, p22, p23, p30, p31, p32, p33]
    · show P 1 0 * P 0 2 + P 1 1 * P 1 2 + P 1 2 * P 2 2 + P 1 3 * P 3 2 = (1 : Mat4) 1 2; simp [p00, p01, p02, p03, p10, p11, p12, p13, p20, p21, p22, p23, p30, p31, p32, p33]
    · show P 1 0 * P 0 3 + P 1 1 * P 1 3 + P 1 2 * P 2 3 + P 1 3 * P 3 3 = (1 : Mat4) 1 3; simp [p00, p01, p02, p03, p10, p11, p12, p13, p20, p21, p22, p23, p30, p31, p32, p33]
    · show P 2 0 * P 0 0 + P 2 1 * P 1 0 + P 2 2 * P 2 0 + P 2 3 * P 3 0 = (1 : Mat4) 2 0; simp [p00, p01, p02, p03, p10, p11, p12, p13, p20, p21, p22, p23, p30, p31, p32, p33]
    · show P 2 0 * P 0 1 + P 2 1 * P 1 1 + P 2 2 * P 2 1 + P 2 3 * P 3 1 = (1 : Mat4) 2 1; simp [p00, p01, p02, p03, p10, p11, p12, p13, p20, p21, p22, p23, p30, p31, p32, p33]
    · show P 2 0 * P 0 2 + P 2 1 * P 1 2 + P 2 2 * P 2 2 + P 2 3 * P 3 2 = (1 : Mat4) 2 2; simp [p00, p01, p02, p03, p10, p11, p12, p13, p20, p21, p22, p23, p30, p31, p32, p33]
    · show P 2 0 * P 0 3 + P 2 1 * P 1 3 + P 2 2 * P 2 3 + P 2 3 * P 3 3 = (1 : Mat4) 2 3; simp [p00, p01, p02, p03, p10, p11, p12, p13, p20, p21, p22, p23, p30, p31, p32, p33]
    · show P 3 0 * P 0 0 + P 3 1 * P 1 0 + P 3 2 * P 2 0 + P 3 3 * P 3 0 = (1 : Mat4) 3 0; simp [p00, p01, p02, p03, p10, p11, p12, p13, p20, p21, p22, p23, p30, p31, p32, p33]
    · show P 3 0 * P 0 1 + P 3 1 * P 1 1 + P 3 2 * P 2 1 + P 3 3 * P 3 1 = (1 : Mat4) 3 1; simp [p00, p01, p02, p03, p10, p11, p12, p13, p20, p21, p22, p23, p30, p31, p32, p33]
    · show P 3 0 * P 0 2 + P 3 1 * P 1 2 + P 3 2 * P 2 2 + P 3 3 * P 3 2 = (1 : Mat4) 3 2; simp [p00, p01, p02, p03, p10, p11, p12, p13, p20, p21, p22, p23, p30, p31, p32, p33]
    · show P 3 0 * P 0 3 + P 3 1 * P 1 3 + P 3 2 * P 2 3 + P 3 3 * P 3 3 = (1 : Mat4) 3 3; simp [p00, p01, p02, p03, p10, p11, p12, p13, p20, p21, p22, p23, p30, p31, p32, p33]
  have hne : Matrix.diagonal d2 ≠ Matrix.diagonal d := by
    intro h
    have := congrFun (congrFun h 0) 0
    norm_num [d, d2] at this
  have he : EigLaw eig := by
    refine ⟨?_, ?_, ?_⟩
    · intro A hA i j
      by_cases h : A = Matrix.diagonal d
      · simp only [eig, h, if_true]
        rw [← Matrix.mul_apply, Matrix.mul_one]
        by_cases hij : i = j
        · subst hij; simp
        · simp [hij]
      · by_cases h2 : A = Matrix.diagonal d2
        · simp only [eig, h2, hne, if_true, if_false]
          fin_cases i <;> fin_cases j <;> norm_num [Fin.sum_univ_four, Matrix.diagonal_apply, d, d2, P]
        · simp only [eig, h, h2, if_false]; exact h0.eigenpair A hA i j
    · intro A hA j
      by_cases h : A = Matrix.diagonal d
      · simp only [eig, h, if_true]
        simp [Matrix.one_apply]
      · by_cases h2 : A = Matrix.diagonal d2
        · simp only [eig, h2, hne, if_true, if_false]
          fin_cases j
          · rw [Fin.sum_univ_four]; show P 0 0 ^ 2 + P 1 0 ^ 2 + P 2 0 ^ 2 + P 3 0 ^ 2 = 1; rw [p00, p10, p20, p30]; norm_num
          · rw [Fin.sum_univ_four]; show P 0 1 ^ 2 + P 1 1 ^ 2 + P 2 1 ^ 2 + P 3 1 ^ 2 = 1; rw [p01, p11, p21, p31]; norm_num
          · rw [Fin.sum_univ_four]; show P 0 2 ^ 2 + P 1 2 ^ 2 + P 2 2 ^ 2 + P 3 2 ^ 2 = 1; rw [p02, p12, p22, p32]; norm_num
          · rw [Fin.sum_univ_four]; show P 0 3 ^ 2 + P 1 3 ^ 2 + P 2 3 ^ 2 + P 3 3 ^ 2 = 1; rw [p03, p13, p23, p33]; norm_num
        · simp only [eig, h, h2, if_false]; exact h0.normalised A hA j
    · intro A hA
      by_cases h : A = Matrix.diagonal d
      · simp [eig, h]
      · by_cases h2 : A = Matrix.diagonal d2
        · simp only [eig, h2, hne, if_true, if_false]
          intro h3
          have := congrArg Matrix.det hPP
          rw [Matrix.det_mul, h3, Matrix.det_one] at this
          norm_num at this
        · simp only [eig, h, h2, if_false]; exact h0.basis A hA
  refine ⟨eig, argsort, he, hs, ?_, ?_⟩
  · intro i j hij
    rw [outerMean_eq]
    simp only [eig, exMean_outer, d, if_true]
    fin_cases i <;> fin_cases j <;> first | (exfalso; revert hij; decide) | norm_num
  · intro i j hij
    rw [outerMean_eq, exMean2_outer]
    have : eig (Matrix.diagonal ![3/10, 4/10, 2/10, 1/10]) = (d, P) := by
      simp only [eig]
      rw [if_neg hne, if_pos rfl]
    rw [this]
    simp only [d]
    fin_cases i <;> fin_cases j <;> first | (exfalso; revert hij; decide) | norm_num

/-- Non-vacuous: `C41_axis_is_false` applies. -/
example : ∃ eig argsort, EigLaw eig ∧ SortLaw argsort ∧ ∃ out, qmean eig argsort (.quat exCols) (.int 0) = .ok (.quat out) ∧ ¬ IsMeanDirection exMean2 (out.get [1]) := by
  obtain ⟨eig, argsort, he, hs, h0, h1⟩ := exCols_solver
  obtain ⟨-, out, e1, -, e2⟩ := C41_axis_is_false he hs h0 h1
  exact ⟨eig, argsort, he, hs, out, e1, e2⟩

/-- Non-vacuous: `C41_all_partial` and `C41_axis_partial` for one column of ten quaternions. -/
example : ∃ eig argsort, EigLaw eig ∧ SortLaw argsort ∧ ∃ out, qmean eig argsort (.quat ⟨[10], fun idx => exMean.getD (idx.getD 0 0) 1⟩) = .ok (.quat out) ∧
    IsMeanDirection exMean (out.get []) := by
  obtain ⟨eig, argsort, he, hs, h0, -⟩ := exCols_solver
  have hg : IsGroup (⟨[10], fun idx => exMean.getD (idx.getD 0 0) 1⟩ : ND Quat) (List.range 1) [] exMean := by
    refine ⟨(List.range 10).map fun r => [r], List.nodup_range.map fun a b h => by simpa using h, fun i => ?_, ?_⟩
    · constructor
      · intro h
        simp only [List.mem_map, List.mem_range] at h
        obtain ⟨r, hr, rfl⟩ := h
        exact ⟨⟨hr, trivial⟩, by simp [remaining]⟩
      · rintro ⟨hv, -⟩
        match i, hv with
        | [r], hv => simpa using hv.1
    · simp [Function.comp_def, List.range_succ, exMean]
  obtain ⟨out, e1, -, e2⟩ := C41_all_partial he hs (q := ⟨[10], fun idx => exMean.getD (idx.getD 0 0) 1⟩) (by simp) (by
    intro qs hq a b hab
    have := h0 a b hab
    rw [outerMean_eq] at this ⊢
    rwa [← meanOuter_perm (isGroup_perm hg hq)])
  exact ⟨eig, argsort, he, hs, out, e1, e2 _ hg⟩

end RBM.Props
