import Verif.Model.GapsTransform
import Verif.Lemmas.TransformCore
import Verif.Lemmas.RotateND

namespace RBM

open Matrix Spec

/-! ### scalars -/

/-- A vector is complete or has a missing component. -/
theorem complete_or (v : Fin 3 → Option ℝ) : (∃ k, v k = none) ∨ ∃ w : Vec, v = fun k => some (w k) := by
  by_cases h : ∃ k, v k = none
  · exact .inl h
  · right
    push Not at h
    refine ⟨fun k => (v k).getD 0, funext fun k => ?_⟩
    cases hk : v k with
    | none => exact absurd hk (h k)
    | some x => simp [hk]

theorem crossNan_some (r w : Vec) (k : Fin 3) : crossNan r (fun k => some (w k)) k = some ((r ⨯₃ w) k) := by
  simp only [crossNan, nanL, nan2, Option.map_some, cross_apply]
  fin_cases k <;> simp

theorem mulVecNan_some (m : Matrix (Fin 3) (Fin 3) ℝ) (w : Vec) (k : Fin 3) :
    mulVecNan m (fun k => some (w k)) k = some ((m *ᵥ w) k) := by
  simp only [mulVecNan, nanL, nan2, Option.map_some, Matrix.mulVec, dotProduct, Fin.sum_univ_three]

theorem mulVecNan_none (m : Matrix (Fin 3) (Fin 3) ℝ) {v : Fin 3 → Option ℝ} (h : ∃ k, v k = none) (k : Fin 3) :
    mulVecNan m v k = none := by
  obtain ⟨j, hj⟩ := h
  fin_cases j <;> simp only [Fin.zero_eta, Fin.mk_one, Fin.reduceFinMk] at hj <;>
    simp only [mulVecNan, hj, nanL, Option.map_none] <;>
    cases v 0 <;> cases v 1 <;> cases v 2 <;> rfl

/-- The array formula for one vector with missing components. -/
noncomputable def crossFormNan (q : Quat) (v : Fin 3 → Option ℝ) (k : Fin 3) : Option ℝ :=
  let r := imVec q
  let m := Real.sqrt (q.re * q.re + q.imI * q.imI + q.imJ * q.imJ + q.imK * q.imK)
  let sum : Fin 3 → Option ℝ := fun j => nan2 (fun x y => x + y) (nanL (fun x y => x * y) q.re (v j)) (crossNan r v j)
  nan2 (fun x y => x + y) (v k) (((crossNan r sum k).map fun x => 2 * x).map fun x => x / m)

theorem nan2_some (f : ℝ → ℝ → ℝ) (x y : ℝ) : nan2 f (some x) (some y) = some (f x y) := rfl

theorem nanL_some (f : ℝ → ℝ → ℝ) (x y : ℝ) : nanL f x (some y) = some (f x y) := rfl

theorem nan2_none_left (f : ℝ → ℝ → ℝ) (y : Option ℝ) : nan2 f none y = none := rfl

theorem nan2_none_right (f : ℝ → ℝ → ℝ) (x : Option ℝ) : nan2 f x none = none := by cases x <;> rfl

theorem nanL_none (f : ℝ → ℝ → ℝ) (x : ℝ) : nanL f x none = none := rfl

theorem crossFormNan_some (q : Quat) (w : Vec) (k : Fin 3) :
    crossFormNan q (fun k => some (w k)) k = some (rotateCrossForm q w k) := by
  have e : (fun j => nan2 (fun x y => x + y) (nanL (fun x y => x * y) q.re (some (w j))) (crossNan (imVec q) (fun k => some (w k)) j)) =
      fun j => some ((q.re • w + imVec q ⨯₃ w) j) := by
    funext j
    rw [crossNan_some, nanL_some, nan2_some]
    rfl
  simp only [crossFormNan]
  rw [e]
  simp only [crossNan_some, Option.map_some, nan2_some, rotateCrossForm, Pi.add_apply, Pi.smul_apply, smul_eq_mul]
  congr 1
  rw [show (fun k => q.re * w k + (imVec q ⨯₃ w) k) = q.re • w + imVec q ⨯₃ w from rfl]
  ring

theorem crossFormNan_none (q : Quat) {v : Fin 3 → Option ℝ} (h : ∃ k, v k = none) (k : Fin 3) :
    crossFormNan q v k = none := by
  obtain ⟨j, hj⟩ := h
  have hs : ∀ i, nan2 (fun x y => x + y) (nanL (fun x y => x * y) q.re (v i)) (crossNan (imVec q) v i) = none := by
    intro i
    fin_cases j <;> fin_cases i <;> simp only [Fin.zero_eta, Fin.mk_one, Fin.reduceFinMk] at hj ⊢ <;>
      simp [crossNan, hj, nanL_none, nan2_none_left, nan2_none_right]
  simp only [crossFormNan, hs]
  simp [crossNan, nanL_none, nan2_none_left, nan2_none_right]

/-! ### arrays -/

theorem vecAtGaps_set (v : ND (Option ℝ)) (p k : ℕ) (idx : List ℕ) : v.vecAtGaps p (idx.set p k) = v.vecAtGaps p idx := by
  funext j; simp [ND.vecAtGaps]

theorem npCrossGaps_spec (q : ND Quat) (w : ND (Option ℝ)) {axis : ℤ} {p : ℕ} (hp : normAxis axis w.ndim = some p)
    (h3 : w.shape.getD p 0 = 3) (hb : Bcast q.shape (w.shape.eraseIdx p)) :
    ∃ C, npCrossGaps (rPart q) w axis = .ok C ∧ C.shape = w.shape ∧ ∀ idx, Valid w.shape idx →
      C.get idx = crossNan (imVec (q.get (ND.bidx q.shape (idx.eraseIdx p)))) (w.vecAtGaps p idx)
        (Fin.ofNat 3 (idx.getD p 0)) := by
  have hlt : p < w.shape.length := normAxis_lt hp
  have hd : 0 < w.shape.length := by omega
  have hqd : q.shape.length = w.shape.length - 1 := by
    rw [hb.length, List.length_eraseIdx_of_lt hlt]
  have hms : (w.moveaxis p (w.ndim - 1)).shape = w.shape.eraseIdx p ++ [3] := by
    simp only [ND.moveaxis, ND.ndim]
    rw [moveL_to_last hlt, h3]
  have hcl : ∃ c, crossLastGaps (rPart q) (w.moveaxis p (w.ndim - 1)) = .ok c ∧ c.shape = w.shape.eraseIdx p ++ [3] ∧
      ∀ i k, Valid (w.shape.eraseIdx p) i → k < 3 →
        c.get (i ++ [k]) = crossNan (imVec (q.get (ND.bidx q.shape i))) (fun k => w.get (i.insertIdx p k)) (Fin.ofNat 3 k) := by
    refine ⟨?w, ?h1, ?h2, ?h3⟩
    case h1 =>
      simp only [crossLastGaps, hms, rPart]
      rw [if_pos (by simp)]
      simp only [List.dropLast_concat]
      rw [bshape_left hb]
    case h2 => rfl
    case h3 =>
      intro i k hi hk
      simp only [List.dropLast_concat, List.getLast?_concat, Option.getD_some]
      have hil := hi.length
      have hil' : i.length = w.shape.length - 1 := by rw [hil, List.length_eraseIdx_of_lt hlt]
      have e1 : i.length - ((rPart q).ndim - 1) = 0 := by simp [rPart, ND.ndim]; omega
      have e2 : i.length - ((w.moveaxis p (w.ndim - 1)).ndim - 1) = 0 := by
        have : (w.moveaxis p (w.ndim - 1)).ndim = w.shape.length := by
          rw [ND.ndim, hms]; simp [List.length_eraseIdx_of_lt hlt]; omega
        rw [this]; omega
      simp only [rPart] at e1
      have e3 : (fun k : Fin 3 => qcomp (q.get (ND.bidx q.shape i)) (↑k + 1)) = imVec (q.get (ND.bidx q.shape i)) := by
        funext k
        fin_cases k <;> rfl
      have e4 : (fun k : Fin 3 => (w.moveaxis p (w.ndim - 1)).get (i ++ [k.val])) = fun k : Fin 3 => w.get (i.insertIdx p k) := by
        funext k
        simp only [ND.moveaxis, ND.ndim]
        rw [← hil', moveL_from_last]
      simp only [e1, e2, List.drop_zero, bidx_valid hi, e3, e4]
  obtain ⟨c, e1, e2, e3⟩ := hcl
  have hcd : c.ndim = w.ndim := by
    simp only [ND.ndim, e2]; simp [List.length_eraseIdx_of_lt hlt]; omega
  refine ⟨c.moveaxis (c.ndim - 1) p, ?_, ?_, ?_⟩
  · simp only [npCrossGaps, hp, e1, hcd]
  · simp only [ND.moveaxis, hcd]
    rw [e2, show w.ndim - 1 = (w.shape.eraseIdx p).length by rw [List.length_eraseIdx_of_lt hlt]; rfl,
      moveL_from_last, insertIdx_eraseIdx hlt, ← h3]
    apply list_ext_getD (by simp)
    intro k _
    simp only [List.getD_eq_getElem?_getD, List.getElem?_set]
    split
    · rename_i h; subst h; simp [hlt]
    · rfl
  · intro idx hv
    have hl := hv.length
    simp only [ND.moveaxis, hcd]
    rw [show w.ndim - 1 = idx.length - 1 by rw [hl]; rfl, moveL_to_last (by omega)]
    obtain ⟨v1, v2⟩ := valid_eraseIdx hlt hv
    rw [e3 _ _ v1 (by omega)]
    have : (fun k : Fin 3 => w.get ((idx.eraseIdx p).insertIdx p k)) = w.vecAtGaps p idx := by
      funext k
      rw [insertIdx_eraseIdx (by omega)]
      rfl
    rw [this]

theorem rotateArrayFormulaGaps_spec (q : ND Quat) (v : ND (Option ℝ)) {axis : ℤ} {p : ℕ} (hp : normAxis axis v.ndim = some p)
    (h3 : v.shape.getD p 0 = 3) (hb : Bcast q.shape (v.shape.eraseIdx p)) (hs : SwapOk q.shape v.shape p) :
    ∃ R, rotateArrayFormulaGaps q v axis = .ok R ∧ R.shape = v.shape ∧ ∀ idx, Valid v.shape idx →
      R.get idx = crossFormNan (q.get (ND.bidx q.shape (idx.eraseIdx p))) (v.vecAtGaps p idx)
        (Fin.ofNat 3 (idx.getD p 0)) := by
  have hlt : p < v.shape.length := normAxis_lt hp
  have hq : q.shape.length = v.shape.length - 1 := by rw [hb.length, List.length_eraseIdx_of_lt hlt]
  obtain ⟨S, e1, b1, g1⟩ := scalarPart_spec q (fun x => x.re) hp hq hs
  obtain ⟨M, e2, b2, g2⟩ := scalarPart_spec q (fun x =>
    Real.sqrt (x.re * x.re + x.imI * x.imI + x.imJ * x.imJ + x.imK * x.imK)) hp hq hs
  obtain ⟨C1, e3, sh3, g3⟩ := npCrossGaps_spec q v hp h3 hb
  have e4 := bop_left (nanL fun x y => x * y) S v b1
  set SV : ND (Option ℝ) := ⟨v.shape, fun idx => nanL (fun x y => x * y) (S.bget idx) (v.bget idx)⟩ with hSV
  have e5 := bop_left (nan2 fun x y => x + y) SV C1 (by rw [sh3]; exact Bcast.refl _)
  set SUM : ND (Option ℝ) := ⟨C1.shape, fun idx => nan2 (fun x y => x + y) (SV.bget idx) (C1.bget idx)⟩ with hSUM
  have hsumsh : SUM.shape = v.shape := sh3
  obtain ⟨C2, e6, sh6, g6⟩ := npCrossGaps_spec q SUM (by simpa [ND.ndim, hsumsh] using hp)
    (by rw [hsumsh]; exact h3) (by rw [hsumsh]; exact hb)
  rw [hsumsh] at sh6 g6
  have e7 := bop_right (fun (x : Option ℝ) (y : ℝ) => x.map fun x => x / y) (C2.map fun x => Option.map (fun x => 2 * x) x) M (by simpa [ND.map, sh6] using b2)
  set C3 : ND (Option ℝ) := ⟨(C2.map fun x => Option.map (fun x => 2 * x) x).shape,
    fun idx => ((C2.map fun x => Option.map (fun x => 2 * x) x).bget idx).map fun x => x / M.bget idx⟩ with hC3
  have hC3sh : C3.shape = v.shape := sh6
  have e8 := bop_left (nan2 fun x y => x + y) v C3 (by rw [hC3sh]; exact Bcast.refl _)
  refine ⟨⟨C3.shape, fun idx => nan2 (fun x y => x + y) (v.bget idx) (C3.bget idx)⟩, ?h1, ?h2, ?h3⟩
  case h1 =>
    have e3' : npCrossGaps ⟨q.shape ++ [3], fun idx => qcomp (q.get idx.dropLast) (idx.getLast?.getD 0 + 1)⟩ v axis = .ok C1 := e3
    have e6' : npCrossGaps ⟨q.shape ++ [3], fun idx => qcomp (q.get idx.dropLast) (idx.getLast?.getD 0 + 1)⟩ SUM axis = .ok C2 := e6
    simp only [rotateArrayFormulaGaps, e1, e2, bind, Except.bind, e3', e4, e5, e6', e7, e8]
  case h2 => exact hC3sh
  case h3 =>
    intro idx hv
    have hv3 : Valid C3.shape idx := by rw [hC3sh]; exact hv
    have hv2 : Valid C2.shape idx := by rw [sh6]; exact hv
    show nan2 (fun x y => x + y) (v.bget idx) (C3.bget idx) = _
    rw [bget_valid v hv, bget_valid C3 hv3]
    simp only [hC3]
    rw [g2 idx hv, bget_valid (C2.map fun x => Option.map (fun x => 2 * x) x) hv2]
    simp only [ND.map, g6 idx hv]
    have hsum : SUM.vecAtGaps p idx = fun j => nan2 (fun x y => x + y)
        (nanL (fun x y => x * y) (q.get (ND.bidx q.shape (idx.eraseIdx p))).re (v.vecAtGaps p idx j))
        (crossNan (imVec (q.get (ND.bidx q.shape (idx.eraseIdx p)))) (v.vecAtGaps p idx) j) := by
      funext k
      have hvk : Valid v.shape (idx.set p k) := valid_set hv (by rw [h3]; exact k.isLt)
      simp only [ND.vecAtGaps, hSUM]
      rw [bget_valid SV hvk, bget_valid C1 (by rw [sh3]; exact hvk), g3 _ hvk]
      simp only [hSV]
      rw [g1 _ hvk, bget_valid v hvk, eraseIdx_set, vecAtGaps_set]
      have hkp : (idx.set p ↑k).getD p 0 = k.val := by
        have := hv.length
        simp [List.getD_eq_getElem?_getD, hlt, this]
      rw [hkp]
      have : Fin.ofNat 3 k.val = k := by simp
      rw [this]
    rw [hsum]
    have hvv : v.get idx = v.vecAtGaps p idx (Fin.ofNat 3 (idx.getD p 0)) := by
      simp only [ND.vecAtGaps]
      have h1 := (valid_eraseIdx hlt hv).2
      rw [h3] at h1
      have h2 : (Fin.ofNat 3 (idx.getD p 0)).val = idx.getD p 0 := by simp only [Fin.ofNat]; exact Nat.mod_eq_of_lt h1
      rw [h2]
      rw [set_getD_self]
    rw [hvv]
    rfl

theorem rotateVectorsQGaps_array (q : ND Quat) (v : ND (Option ℝ)) {axis : ℤ} {p : ℕ} (hp : normAxis axis v.ndim = some p)
    (h3 : v.shape.getD p 0 = 3) (hb : Bcast q.shape (v.shape.eraseIdx p)) (hs : SwapOk q.shape v.shape p)
    (hnd : q.ndim ≠ 0) (hq0 : ∀ idx, Valid q.shape idx → q.get idx ≠ 0) :
    ∃ R, rotateVectorsQGaps q v axis = .ok R ∧ R.shape = v.shape ∧ ∀ idx, Valid v.shape idx →
      R.get idx = crossFormNan (q.get (ND.bidx q.shape (idx.eraseIdx p))) (v.vecAtGaps p idx)
        (Fin.ofNat 3 (idx.getD p 0)) := by
  obtain ⟨R, e, h1, h2⟩ := rotateArrayFormulaGaps_spec q v hp h3 hb hs
  refine ⟨R, ?_, h1, h2⟩
  have hlt : p < v.shape.length := normAxis_lt hp
  have hqd : q.ndim = v.ndim - 1 := by simp only [ND.ndim]; rw [hb.length, List.length_eraseIdx_of_lt hlt]
  simp only [rotateVectorsQGaps]
  rw [if_neg (by simp [hnd]), hp]
  simp only [h3, ne_eq, not_true, if_false, hqd, nonmatching_of_bcast hb, Bool.false_eq_true, or_self, e]
  rw [if_neg]
  rintro ⟨idx, h1, h2⟩
  exact hq0 idx h1 h2

/-- The value of a rotated vector, missing if one of the components is. -/
noncomputable def rotNan (q : Quat) (v : Fin 3 → Option ℝ) (k : Fin 3) : Option ℝ := by
  classical exact if ∃ c, v c = none then none else some (Spec.rot q (fun c => (v c).getD 0) k)

theorem rotNan_none (q : Quat) {v : Fin 3 → Option ℝ} (h : ∃ k, v k = none) (k : Fin 3) : rotNan q v k = none := by
  classical exact if_pos h

theorem rotNan_some (q : Quat) (w : Vec) (k : Fin 3) : rotNan q (fun k => some (w k)) k = some (Spec.rot q w k) := by
  classical exact if_neg (by simp)

theorem crossFormNan_eq {q : Quat} (hq : Spec.IsUnitQ q) (v : Fin 3 → Option ℝ) (k : Fin 3) : crossFormNan q v k = rotNan q v k := by
  rcases complete_or v with h | ⟨w, rfl⟩
  · rw [crossFormNan_none q h, rotNan_none q h]
  · rw [crossFormNan_some, rotNan_some, crossForm_eq_rot _ hq]

theorem rotMatNan_eq {q : Quat} (hq : q ≠ 0) (v : Fin 3 → Option ℝ) (k : Fin 3) : mulVecNan (rotMat q) v k = rotNan q v k := by
  rcases complete_or v with h | ⟨w, rfl⟩
  · rw [mulVecNan_none _ h, rotNan_none q h]
  · rw [mulVecNan_some, rotNan_some, ← rotMat_eq_rot _ hq]; rfl

theorem quatRvGaps_scalar (q : ND Quat) (hqs : q.shape = []) (v : ND (Option ℝ)) {axis : ℤ} {p : ℕ}
    (hp : normAxis axis v.ndim = some p) (h3 : v.shape.getD p 0 = 3) (hq0 : q.get [] ≠ 0) :
    ∃ R, quatRvGaps q v axis = .ok R ∧ R.shape = v.shape ∧ ∀ idx, R.get idx =
      rotNan (q.get []) (v.vecAtGaps p idx) (Fin.ofNat 3 (idx.getD p 0)) := by
  have hlt : p < v.shape.length := normAxis_lt hp
  have hmem : 3 ∈ v.shape := by
    rw [← h3, List.getD_eq_getElem?_getD, List.getElem?_eq_getElem hlt]; simp
  refine ⟨?w, ?h1, ?h2, ?h3⟩
  case h1 =>
    simp only [quatRvGaps]
    rw [if_neg (by simpa using hmem), hp]
    simp only [h3, ne_eq, not_true, if_false]
    rw [if_neg]
    rintro ⟨idx, h1, h2⟩
    rw [hqs] at h1
    cases idx with
    | nil => exact hq0 h2
    | cons => simp [Valid] at h1
  case h2 => simp [hqs]
  case h3 =>
    intro idx
    simp only [ND.ndim, hqs, List.length_nil, List.take_zero, List.drop_zero]
    exact rotMatNan_eq hq0 _ _

/-- See `rotateF_many`. -/
theorem rotateFGaps_many (l : List Quat) (hu : ∀ q ∈ l, Spec.IsUnitQ q) (v : ND (Option ℝ)) {axis : ℤ} {p : ℕ}
    (hp : normAxis axis v.ndim = some p) (hp1 : 1 ≤ p) (h3 : v.shape.getD p 0 = 3) (h0 : v.shape.getD 0 0 = l.length) :
    ∃ R, rotateVectorsFGaps (expandSingletonAxes (ND.ofQuats (.many l)) v.ndim) v axis = .ok R ∧ R.shape = v.shape ∧
      ∀ idx, Valid v.shape idx → R.get idx =
        rotNan (l.getD (idx.getD 0 0) 0) (v.vecAtGaps p idx) (Fin.ofNat 3 (idx.getD p 0)) := by
  have hlt : p < v.shape.length := normAxis_lt hp
  have hd : 2 ≤ v.ndim := by simp only [ND.ndim]; omega
  obtain ⟨Q, e, hs, hg⟩ := expand_quats l hd
  obtain ⟨k1, k2, k3⟩ := swapOk_first hlt hp1 h0
  have hshape : Q.shape = l.length :: List.replicate (v.shape.length - 2) 1 := hs
  have hbound : ∀ idx, Valid v.shape idx → idx.getD 0 0 < l.length := by
    intro idx hv; rw [← h0]; exact (valid_iff.mp hv).2 0 (by omega)
  obtain ⟨R, r1, r2, r3⟩ := rotateVectorsQGaps_array Q v hp h3 (by rw [hshape]; exact k2) (by rw [hshape]; exact k1)
    (by simp [ND.ndim, hshape]) (by
      intro idx hv
      rw [hshape] at hv
      cases idx with
      | nil => simp [Valid] at hv
      | cons i js =>
        rw [hg i js (by have := hv.2.length; simpa [ND.ndim] using this)]
        have hi := hv.1
        rw [List.getD_eq_getElem?_getD, List.getElem?_eq_getElem hi]
        exact (hu _ (List.getElem_mem hi)).ne_zero)
  refine ⟨R, ?_, r2, ?_⟩
  · simp only [rotateVectorsFGaps]
    have : ((expandSingletonAxes (ND.ofQuats (.many l)) v.ndim).swapaxesZ (-1) (-1) >>= fun x => asQuatArray x >>= fun y => rotateVectorsQGaps y v axis) = .ok R := by
      rw [← bind_assoc, e]; exact r1
    exact this
  · intro idx hv
    rw [r3 idx hv, hshape, k3 idx hv, hg _ _ (by simp [ND.ndim])]
    have hi := hbound idx hv
    rw [crossFormNan_eq]
    rw [List.getD_eq_getElem?_getD, List.getElem?_eq_getElem hi]
    exact hu _ (List.getElem_mem hi)

/-- See `rotateF_one`. -/
theorem rotateFGaps_one (q : Quat) (hq : q ≠ 0) (d : ℕ) (v : ND (Option ℝ)) {axis : ℤ} {p : ℕ}
    (hp : normAxis axis v.ndim = some p) (h3 : v.shape.getD p 0 = 3) :
    ∃ R, rotateVectorsFGaps (expandSingletonAxes (ND.ofQuats (.one q)) d) v axis = .ok R ∧ R.shape = v.shape ∧
      ∀ idx, R.get idx = rotNan q (v.vecAtGaps p idx) (Fin.ofNat 3 (idx.getD p 0)) := by
  have e : expandSingletonAxes (ND.ofQuats (.one q)) d = ND.ofQuats (.one q) := by
    simp [expandSingletonAxes, ND.ndim, ND.ofQuats]
  obtain ⟨Q, e2, hs, hg⟩ : ∃ Q, (ND.ofQuats (.one q)).swapaxesZ (-1) (-1) >>= asQuatArray = .ok Q ∧ Q.shape = [] ∧ Q.get [] = q := by
    refine ⟨?Q, ?h1, ?h2, ?h3⟩
    case h1 =>
      simp only [ND.ofQuats, ND.swapaxesZ, ND.ndim, List.length_singleton, normAxis_neg_one (Nat.one_pos),
        ND.swapaxes, bind, Except.bind, asQuatArray]
      rw [swapL_self (by simp)]
      rfl
    case h2 => rfl
    case h3 => rfl
  obtain ⟨R, r1, r2, r3⟩ := quatRvGaps_scalar Q hs v hp h3 (by rw [hg]; exact hq)
  refine ⟨R, ?_, r2, by rw [hg] at r3; exact r3⟩
  rw [e]
  simp only [rotateVectorsFGaps]
  have : ((ND.ofQuats (.one q)).swapaxesZ (-1) (-1) >>= fun x => asQuatArray x >>= fun y => rotateVectorsQGaps y v axis) = .ok R := by
    rw [← bind_assoc, e2]
    show rotateVectorsQGaps Q v axis = .ok R
    simp only [rotateVectorsQGaps]
    rw [if_pos (by simp [ND.ndim, hs])]
    exact r1
  exact this

/-! ### resampling -/

/-- Linear interpolation at a sample uses the sample and the one before it (the first: the second). -/
theorem interpLoc_knot {xs : List ℝ} (hs : StrictlyIncreasing xs) (hl : 2 ≤ xs.length) {k : ℕ} {τ : ℝ} (hk : xs[k]? = some τ) :
    interpLoc xs τ = .ok (k - 1, (k - 1) + 1) := by
  classical
  have hn := hs.nonDecreasing
  have hkl := (List.getElem?_eq_some_iff.mp hk).1
  have hkv : xs.getD k 0 = τ := by rw [List.getD_eq_getElem?_getD, hk]; rfl
  have h0 : xs.getD 0 0 ≤ τ := by rw [← hkv]; exact nonDecreasing_getD hn (Nat.zero_le _) hkl
  have h1 : τ ≤ xs.getD (xs.length - 1) 0 := by rw [← hkv]; exact nonDecreasing_getD hn (by omega) (by omega)
  have hsl : searchLeft xs τ = k := by
    apply le_antisymm
    · by_contra hc
      have := (lt_searchLeft_iff hn τ hkl).mp (by omega)
      rw [hkv] at this; exact absurd this (lt_irrefl _)
    · by_contra hc
      have hlt : searchLeft xs τ < k := by omega
      have h5 : xs.getD (searchLeft xs τ) 0 < xs.getD k 0 := by
        have := List.pairwise_iff_getElem.mp hs (searchLeft xs τ) k (by omega) hkl hlt
        rw [getD_eq (by omega) (0 : ℝ), getD_eq hkl (0 : ℝ)]; exact this
      have := (lt_searchLeft_iff hn τ (i := searchLeft xs τ) (by omega)).mpr (h5.trans_eq hkv)
      omega
  obtain ⟨lo, e, -⟩ := interpLoc_spec hs hl h0 h1
  rw [e]
  simp only [interpLoc, hsl] at e
  rw [if_neg (by omega), if_neg (by rintro (h | h) <;> linarith), if_neg (show ¬ min (max k 1) (xs.length - 1) = 0 by omega)] at e
  split at e
  · cases e
  · simp only [Except.ok.injEq, Prod.mk.injEq] at e
    have : lo = k - 1 := by
      obtain ⟨e1, e2⟩ := e
      have h6 : min (max k 1) (xs.length - 1) = max k 1 := by omega
      rw [h6] at e1 e2
      omega
    rw [this]

theorem resampleGaps_knots (sq : SquadFn) (data : ND (Option ℝ)) {n : ℕ} {rest : List ℕ} (hs : data.shape = n :: rest)
    (h4 : (n :: rest).getLast? ≠ some 4) {ats : List ℝ} (hn : n = ats.length) (h2 : 2 ≤ ats.length)
    (hinc : StrictlyIncreasing ats) {ts : List ℝ} (hsub : ∀ τ ∈ ts, τ ∈ ats) :
    ∃ R, resampleArrayGaps sq data (some ats) (some ts) = .ok R ∧ R.shape = ts.length :: rest ∧
      ∀ (i k : ℕ) (τ : ℝ) (r : List ℕ), ts[i]? = some τ → ats[k]? = some τ →
        ((data.get (k :: r) = none ∨ data.get ((if k = 0 then 1 else k - 1) :: r) = none) → R.get (i :: r) = none) ∧
        (data.get (k :: r) ≠ none → data.get ((if k = 0 then 1 else k - 1) :: r) ≠ none → R.get (i :: r) = data.get (k :: r)) := by
  classical
  obtain ⟨R0, e0, s0, v0⟩ := resample_knots sq data.fill (n := n) (rest := rest) hs h4 hn h2 hinc (ts := ts) hsub
  simp only [resampleArray, ND.fill, ND.map, hs] at e0
  rw [if_neg h4, if_neg (by omega)] at e0
  split at e0
  · cases e0
  · rename_i hout
    cases hc : collect (ts.map (interpLoc ats)) with
    | error e => rw [hc] at e0; cases e0
    | ok locs =>
      rw [hc] at e0
      simp only [Except.ok.injEq] at e0
      refine ⟨_, by simp only [resampleArrayGaps, hs]; rw [if_neg h4, if_neg (by omega), if_neg hout, hc], rfl, ?_⟩
      intro i k τ r hi hk
      have hloc : ∀ τ ∈ ts, ∃ k : ℕ, ats[k]? = some τ := fun τ hτ => by
        obtain ⟨k, hk, rfl⟩ := List.getElem_of_mem (hsub τ hτ); exact ⟨k, by simp⟩
      have hL : ∀ τ ∈ ts, interpLoc ats τ = .ok (match interpLoc ats τ with | .ok l => l | .error _ => (0, 0)) := by
        intro τ hτ; obtain ⟨k, hk⟩ := hloc τ hτ; rw [interpLoc_knot hinc h2 hk]
      have hc' := collect_map (ts := ts) hL
      rw [hc] at hc'
      simp only [Except.ok.injEq] at hc'
      have hlv : locs.getD i (0, 0) = (k - 1, (k - 1) + 1) := by
        rw [hc', List.getD_eq_getElem?_getD, List.getElem?_map, hi]
        simp only [Option.map_some, Option.getD_some, interpLoc_knot hinc h2 hk]
      have hv := v0 i k τ r hi hk
      rw [← e0] at hv
      simp only [List.getD_cons_zero, List.drop_one, List.tail_cons, hlv] at hv ⊢
      have hiff : (data.get ((k - 1) :: r) = none ∨ data.get ((k - 1 + 1) :: r) = none) ↔
          (data.get (k :: r) = none ∨ data.get ((if k = 0 then 1 else k - 1) :: r) = none) := by
        by_cases h0 : k = 0
        · subst h0; simp
        · rw [if_neg h0, show k - 1 + 1 = k by omega]; exact or_comm
      constructor
      · intro h
        rw [if_pos (hiff.mpr h)]
      · intro h1 h2'
        rw [if_neg (fun h => by rcases hiff.mp h with h | h; exacts [h1 h, h2' h]), hv]
        cases hd : data.get (k :: r) with
        | none => exact absurd hd h1
        | some x => simp [ND.fill, ND.map, hd]

end RBM
