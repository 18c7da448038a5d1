import Verif.Lemmas.RotateBcast
import Verif.Lemmas.TransformQuat
import Verif.Props.Rotations

/-!
C72: `rotate_vectors` with `one_to_one=True` and axes of length one.
-/

namespace RBM.Props

open RBM.Spec

/-- The shapes of the quaternions and of the vectors are broadcast against each other: every vector of the result is
the vector at its position, rotated by the quaternion at its position, where axes of length one of either are repeated. -/
theorem C72_broadcast (q : ND Quat) (v : ND ℝ) {axis : ℤ} {sv sh : List ℕ} (hv : v.shape = sv ++ [3])
    (hax : AxisIs axis v.ndim sv.length) (hq : q.shape ≠ []) (hb : Broadcast q.shape sv sh)
    (hu : ∀ idx, Valid q.shape idx → IsUnitQ (q.get idx)) :
    ∃ R, rotateVectorsQ q v axis = .ok R ∧ R.shape = sh ++ [3] ∧ ∀ idx, Valid sh idx →
      vec3 R sh.length (idx ++ [0]) = rot (q.get (pickIdx q.shape idx)) (vec3 v sv.length (pickIdx sv idx ++ [0])) := by
  have hl := hb.length
  have hnd : v.ndim = sv.length + 1 := by simp [ND.ndim, hv]
  have hp := axisIs_norm hax
  rw [hnd] at hp
  obtain ⟨R, e1, e2, e3⟩ := rotateArrayFormula_bcast q v hv hp hb
  refine ⟨R, ?_, e2, fun idx hi => ?_⟩
  · have h3 : v.shape.getD sv.length 0 = 3 := by simp [hv]
    have he : v.shape.eraseIdx sv.length = sv := by
      rw [hv, List.eraseIdx_append_of_length_le (by simp)]; simp
    have hqn : q.ndim = sv.length := hl.1
    simp only [rotateVectorsQ, hnd, hp, h3, he, hb.matching, hqn]
    rw [if_neg]
    · simp only [ne_eq, not_true, if_false, Nat.add_sub_cancel, Bool.false_eq_true, or_self, e1]
      rw [if_neg]
      rintro ⟨idx, h1, h2⟩
      exact (hu idx h1).ne_zero h2
    · simp only [reduceCtorEq, false_or, Bool.true_eq_false]
      intro h0
      exact hq (List.length_eq_zero_iff.mp (by omega))
  · have hil : idx.length = sv.length := by rw [hi.length]; exact hl.2
    rw [vec3_eq]
    funext k
    simp only [ND.vecAt]
    have hset0 : (idx ++ [0]).set sh.length k.val = idx ++ [k.val] := by rw [hl.2, ← hil]; simp
    rw [hset0, e3 idx k hi k.2,
      crossForm_eq_rot _ (hu _ (valid_bidx hb.bcast_left hi)), bidx_eq_pick]
    have hk : Fin.ofNat 3 k.val = k := by simp
    rw [hk]
    congr 1
    rw [vec3_eq]
    funext k'
    simp only [ND.vecAt, spread]
    have hpl : (pickIdx sv idx).length = sv.length := by rw [← bidx_eq_pick]; exact bidx_length hil.symm
    have hs1 : (idx ++ [k.val]).set sv.length k'.val = idx ++ [k'.val] := by rw [← hil]; simp
    have hs2 : (pickIdx sv idx ++ [0]).set sv.length k'.val = pickIdx sv idx ++ [k'.val] := by rw [← hpl]; simp
    rw [hs1, hs2, bget_same _ (by simp [ND.ndim, hv, hil]), hv, bidx_append hil.symm, ← bidx_eq_pick]
    simp [ND.bidx]

/-- The same for quaternions stored along the last axis of a float array. -/
theorem C72_broadcast_float (q v : ND ℝ) {axis qaxis : ℤ} {sq sv sh : List ℕ} (hv : v.shape = sv ++ [3])
    (hax : AxisIs axis v.ndim sv.length) (hqs : q.shape = sq ++ [4]) (hqax : AxisIs qaxis q.ndim sq.length) (hq : sq ≠ [])
    (hb : Broadcast sq sv sh) (hu : ∀ idx, Valid sq idx → IsUnitQ (quat4 q sq.length (idx ++ [0]))) :
    ∃ R, rotateVectorsF q v axis qaxis = .ok R ∧ R.shape = sh ++ [3] ∧ ∀ idx, Valid sh idx →
      vec3 R sh.length (idx ++ [0]) =
        rot (quat4 q sq.length (pickIdx sq idx ++ [0])) (vec3 v sv.length (pickIdx sv idx ++ [0])) := by
  obtain ⟨q2, Q, e1, e2, e3, e4⟩ := quat_read q hqax (by simp [hqs])
  have hqn : q.ndim - 1 = sq.length := by simp [ND.ndim, hqs]
  have hQs : Q.shape = sq := by
    rw [e3, hqn, swapL_self (by simp [hqs]), hqs]; simp
  have hQ : ∀ idx : List ℕ, idx.length = sq.length → Q.get idx = quat4 q sq.length (idx ++ [0]) := by
    intro idx hi
    have := e4 (idx ++ [0]) (by simp [ND.ndim, hqs, hi])
    rwa [hqn, swapL_self (by simp [hi]), List.dropLast_concat] at this
  obtain ⟨R, r1, r2, r3⟩ := C72_broadcast Q v hv hax (by rw [hQs]; exact hq) (by rw [hQs]; exact hb) (by
    intro idx hi
    rw [hQs] at hi
    rw [hQ _ hi.length]
    exact hu idx hi)
  refine ⟨R, ?_, r2, fun idx hi => ?_⟩
  · simp only [rotateVectorsF, e1, e2, bind, Except.bind, r1]
  · rw [r3 idx hi, hQs, hQ]
    rw [← bidx_eq_pick]
    exact bidx_length (by rw [hi.length]; have := hb.length; omega)

/-- Shapes that are not compatible are refused, whichever axis holds the coordinates. -/
theorem C72_incompatible (q : ND Quat) (v : ND ℝ) {axis : ℤ} {p : ℕ} (hax : AxisIs axis v.ndim p) (h3 : v.shape.getD p 0 = 3)
    (hq : q.shape ≠ []) (hb : ¬ ∃ sh, Broadcast q.shape (v.shape.eraseIdx p) sh) :
    rotateVectorsQ q v axis = .error .valueError := by
  have hlt : p < v.shape.length := hax.1
  have hq0 : q.ndim ≠ 0 := by simp only [ND.ndim]; intro h; exact hq (List.length_eq_zero_iff.mp h)
  simp only [rotateVectorsQ, axisIs_norm hax, h3]
  rw [if_neg (by simp [hq0]), if_neg (by simp), if_pos]
  by_contra hc
  push Not at hc
  refine hb (broadcast_of_matching ?_ (by simpa using hc.2))
  rw [List.length_eraseIdx_of_lt hlt]
  exact hc.1

/-- An axis that does not have length three is refused. -/
theorem C72_not_vectors (q : ND Quat) (v : ND ℝ) {axis : ℤ} {p : ℕ} (hax : AxisIs axis v.ndim p) (h3 : v.shape.getD p 0 ≠ 3)
    (hq : q.shape ≠ []) : rotateVectorsQ q v axis = .error .valueError := by
  have hq0 : q.ndim ≠ 0 := by simp only [ND.ndim]; intro h; exact hq (List.length_eq_zero_iff.mp h)
  simp only [rotateVectorsQ, axisIs_norm hax]
  rw [if_neg (by simp [hq0]), if_pos h3]

/-- A single quaternion, which need not be normalised, rotates every vector of an array of any shape, along any axis. -/
theorem C72_single (q v : ND ℝ) {axis qaxis : ℤ} {p : ℕ} (hp : AxisIs axis v.ndim p) (h3 : v.shape.getD p 0 = 3) (hq : q.shape = [4])
    (hqax : AxisIs qaxis 1 0) (hne : quat4 q 0 [0] ≠ 0) :
    ∃ R, rotateVectorsF q v axis qaxis = .ok R ∧ R.shape = v.shape ∧
      ∀ idx, Valid v.shape idx → vec3 R p idx = rot (quat4 q 0 [0]) (vec3 v p idx) := by
  have hn : q.ndim = 1 := by simp [ND.ndim, hq]
  have h4 : q.shape.getD 0 0 = 4 := by rw [hq]; rfl
  have hax : AxisIs qaxis q.ndim 0 := by rw [hn]; exact hqax
  have hquat : ∀ i, quat4 q 0 [i] = quat4 q 0 [0] := fun i => by simp [quat4] <;> rfl
  obtain ⟨R, e1, e2, e3⟩ := C71_all_pairs q v hp h3 hax h4 (by
    intro qi h
    obtain ⟨i, rfl⟩ : ∃ i, qi = [i] := by
      have := h.length
      rw [hq] at this
      rcases qi with _ | ⟨i, _ | ⟨j, l⟩⟩ <;> simp at this
      exact ⟨i, rfl⟩
    rw [hquat]; exact hne)
  obtain ⟨q2, Q, d1, d2, d3, -⟩ := quat_read q hax h4
  have hz : Q.ndim = 0 := by simp [ND.ndim, d3, hq, swapL]
  refine ⟨R, ?_, ?_, ?_⟩
  · rw [← e1]
    simp only [rotateVectorsF, d1, d2, bind, Except.bind, rotateVectorsQ, hz, or_true, if_true]
  · rw [e2, hq]; simp [swapL, hn]
  · intro idx hidx
    have := e3 [0] idx (by rw [hq]; exact ⟨by norm_num, trivial⟩) hidx
    have hdrop : (swapL (q.ndim - 1) 0 [0]).dropLast = [] := by simp [hn, swapL]
    rw [hdrop] at this
    funext k
    rw [← this k]
    fin_cases k <;> rfl

/-- Non-vacuous: a half turn of norm two about z, of three vectors stored in columns. -/
example : ∃ R, rotateVectorsF ⟨[4], fun idx => if idx = [3] then 2 else 0⟩ ⟨[3, 2], fun idx => idx.getD 0 0⟩ 0 = .ok R ∧ R.shape = [3, 2] ∧
    vec3 R 0 [0, 1] = rot ⟨0, 0, 0, 2⟩ ![0, 1, 2] := by
  have hq : quat4 ⟨[4], fun idx => if idx = [3] then 2 else 0⟩ 0 [0] = ⟨0, 0, 0, 2⟩ := by simp [quat4] <;> rfl
  obtain ⟨R, h1, h2, h3⟩ := C72_single ⟨[4], fun idx => if idx = [3] then 2 else 0⟩ ⟨[3, 2], fun idx => idx.getD 0 0⟩ (axis := 0) (qaxis := -1) (p := 0)
    ⟨by simp [ND.ndim], .inl rfl⟩ rfl rfl ⟨by norm_num, .inr rfl⟩ (by
      rw [hq]; intro h; have := congrArg QuaternionAlgebra.imK h; norm_num at this)
  refine ⟨R, h1, h2, ?_⟩
  rw [h3 [0, 1] (by simp [Valid]), hq]
  congr 1
  funext k; fin_cases k <;> simp [vec3]

/-- Non-vacuous: two quaternions in a column, three vectors in a row. -/
example : ∃ R, rotateVectorsQ ⟨[2, 1], fun idx => if idx = [0, 0] then ⟨0, 0, 0, 1⟩ else 1⟩ ⟨[1, 3, 3], fun idx => idx.getD 1 0⟩ (-1) = .ok R ∧
    R.shape = [2, 3, 3] ∧ vec3 R 2 [0, 2, 0] = rot ⟨0, 0, 0, 1⟩ ![2, 2, 2] := by
  obtain ⟨R, h1, h2, h3⟩ := C72_broadcast ⟨[2, 1], fun idx => if idx = [0, 0] then ⟨0, 0, 0, 1⟩ else 1⟩ ⟨[1, 3, 3], fun idx => idx.getD 1 0⟩
    (axis := -1) (sv := [1, 3]) (sh := [2, 3]) rfl ⟨by simp [ND.ndim], .inr rfl⟩ (by simp) (.right 2 (.left 3 .nil))
    (fun idx _ => by
      show IsUnitQ (if idx = [0, 0] then (⟨0, 0, 0, 1⟩ : Quat) else 1)
      by_cases h : idx = [0, 0] <;> simp [h, IsUnitQ, nsq])
  refine ⟨R, h1, h2, ?_⟩
  have := h3 [0, 2] (by simp [Valid])
  simpa [pickIdx, vec3] using this

/-- Two quaternions and three vectors do not match. -/
example : rotateVectorsQ ⟨[2], fun _ => 1⟩ ⟨[3, 3], fun _ => 1⟩ (-1) = .error .valueError :=
  C72_incompatible _ _ (p := 1) ⟨by simp [ND.ndim], .inr rfl⟩ rfl (by simp) (by
    rintro ⟨sh, h⟩
    have h' : Broadcast [2] [3] sh := h
    cases h')

end RBM.Props
