import Verif.Lemmas.TransformQuat
import Verif.Lemmas.RotateND

/-!
C71: `rotate_vectors` with `one_to_one=False`.
-/

namespace RBM.Props

open RBM.Spec

/-- Every quaternion is combined with every vector: the result has the axes of the quaternions (without the quaternion axis; the last axis takes its place)
followed by those of the vectors. The quaternions need not be normalised. -/
theorem C71_all_pairs (q v : ND ℝ) {axis qaxis : ℤ} {p r : ℕ} (hp : AxisIs axis v.ndim p) (h3 : v.shape.getD p 0 = 3)
    (hr : AxisIs qaxis q.ndim r) (h4 : q.shape.getD r 0 = 4) (hne : ∀ qi, Valid q.shape qi → quat4 q r qi ≠ 0) :
    ∃ out, rotateVectorsF q v axis qaxis false = .ok out ∧ out.shape = (swapL (q.ndim - 1) r q.shape).dropLast ++ v.shape ∧
      ∀ qi vi, Valid q.shape qi → Valid v.shape vi → ∀ k : Fin 3,
        out.get ((swapL (q.ndim - 1) r qi).dropLast ++ vi.set p k) = rot (quat4 q r qi) (vec3 v p vi) k := by
  obtain ⟨q2, Q, e1, e2, e3, e4⟩ := quat_read q hr h4
  have hr1 := hr.1
  have hn1 : q.ndim - 1 < q.shape.length := by simp only [ND.ndim] at hr1 ⊢; omega
  have hlast : swapL (q.ndim - 1) r q.shape = (swapL (q.ndim - 1) r q.shape).dropLast ++ [4] := by
    have hne : swapL (q.ndim - 1) r q.shape ≠ [] := by
      intro h0; have := congrArg List.length h0; rw [swapL_length] at this; simp only [List.length_nil] at this; omega
    have hl : (swapL (q.ndim - 1) r q.shape).getLast hne = 4 := by
      have : (swapL (q.ndim - 1) r q.shape).getD (q.ndim - 1) 0 = 4 := by
        rw [swapL_getD hn1 hr1]
        split_ifs with h0
        · rw [h0]; exact h4
        · exact h4
        · exact absurd rfl ‹_›
      rw [List.getLast_eq_getElem]
      rw [List.getD_eq_getElem?_getD, List.getElem?_eq_getElem (by rw [swapL_length]; exact hn1)] at this
      simpa [ND.ndim] using this
    conv_lhs => rw [← List.dropLast_append_getLast hne, hl]
  have hQ : ∀ idx, Valid Q.shape idx → Q.get idx ≠ 0 := by
    intro idx hidx
    have h1 : Valid (swapL (q.ndim - 1) r q.shape) (idx ++ [0]) := by
      rw [hlast]; exact valid_snoc_mk (by rw [← e3]; exact hidx) (by norm_num)
    rw [valid_swapL_iff hn1 hr1] at h1
    have h2 := e4 _ h1.length
    have hl : (idx ++ [0]).length = q.shape.length := by have := h1.length; rwa [swapL_length] at this
    rw [swapL_swapL (by rw [hl]; exact hn1) (by rw [hl]; exact hr1), List.dropLast_concat] at h2
    rw [h2]
    exact hne _ h1
  have hmem : 3 ∈ v.shape := by
    have hlt : p < v.shape.length := hp.1
    rw [← h3, List.getD_eq_getElem?_getD, List.getElem?_eq_getElem hlt]; simp
  refine ⟨?w, ?h1, ?h2, ?h3⟩
  case h1 =>
    simp only [rotateVectorsF, e1, e2, bind, Except.bind, rotateVectorsQ, true_or, if_true, quatRv]
    rw [if_neg (by simpa using hmem), axisIs_norm hp]
    simp only [h3, ne_eq, not_true, if_false]
    rw [if_neg (by rintro ⟨idx, h1, h2⟩; exact hQ idx h1 h2)]
  case h2 => simp only [e3]
  case h3 =>
    intro qi vi hqi hvi k
    have hl : (swapL (q.ndim - 1) r qi).dropLast.length = Q.ndim := by
      simp only [ND.ndim, e3, List.length_dropLast, swapL_length, hqi.length]
    simp only [List.take_left' hl, List.drop_left' hl]
    rw [e4 qi hqi.length, rotMat_eq_rot _ (hne qi hqi), ← vec3_eq, vec3_set]
    have hlv : p < vi.length := by rw [hvi.length]; exact hp.1
    congr 1
    rw [List.getD_eq_getElem?_getD, List.getElem?_set_self hlv]
    fin_cases k <;> rfl

/-- A zero quaternion raises ZeroDivisionError. -/
theorem C71_zero (q v : ND ℝ) {axis qaxis : ℤ} {p r : ℕ} (hp : AxisIs axis v.ndim p) (h3 : v.shape.getD p 0 = 3)
    (hr : AxisIs qaxis q.ndim r) (h4 : q.shape.getD r 0 = 4) {qi : List ℕ} (hqi : Valid q.shape qi) (h0 : quat4 q r qi = 0) :
    rotateVectorsF q v axis qaxis false = .error .zeroDivisionError := by
  obtain ⟨q2, Q, e1, e2, e3, e4⟩ := quat_read q hr h4
  have hmem : 3 ∈ v.shape := by
    have hlt : p < v.shape.length := hp.1
    rw [← h3, List.getD_eq_getElem?_getD, List.getElem?_eq_getElem hlt]; simp
  have hr1 := hr.1
  have hn1 : q.ndim - 1 < q.shape.length := by simp only [ND.ndim] at hr1 ⊢; omega
  simp only [rotateVectorsF, e1, e2, bind, Except.bind, rotateVectorsQ, true_or, if_true, quatRv]
  rw [if_neg (by simpa using hmem), axisIs_norm hp]
  simp only [h3, ne_eq, not_true, if_false]
  rw [if_pos]
  refine ⟨(swapL (q.ndim - 1) r qi).dropLast, ?_, by rw [e4 _ hqi.length, h0]⟩
  rw [e3]
  have := valid_swapL hn1 hr1 hqi
  have hne : swapL (q.ndim - 1) r q.shape ≠ [] := by
    intro h0; have := congrArg List.length h0; rw [swapL_length] at this; simp only [List.length_nil] at this; omega
  have hne' : swapL (q.ndim - 1) r qi ≠ [] := by
    intro h0; have := congrArg List.length h0; rw [swapL_length, hqi.length] at this; simp only [List.length_nil] at this; omega
  rw [← List.dropLast_append_getLast hne, ← List.dropLast_append_getLast hne'] at this
  exact ((valid_append (by simp [hqi.length])).mp this).1

/-- Non-vacuous: two quaternions of norm 2 and 1, three vectors stored in columns. -/
example : ∃ out : ND ℝ, rotateVectorsF ⟨[2, 4], fun idx => if idx = [0, 3] then 2 else if idx = [1, 0] then 1 else 0⟩
    ⟨[3, 3], fun idx => idx.getD 0 0⟩ 0 (-1) false = .ok out ∧ out.shape = [2, 3, 3] := by
  obtain ⟨out, h1, h2, -⟩ := C71_all_pairs ⟨[2, 4], fun idx => if idx = [0, 3] then 2 else if idx = [1, 0] then 1 else 0⟩
    ⟨[3, 3], fun idx => idx.getD 0 0⟩ (axis := 0) (qaxis := -1) (p := 0) (r := 1) ⟨by simp [ND.ndim], Or.inl rfl⟩ rfl ⟨by simp [ND.ndim], Or.inr rfl⟩ rfl
    (by
      intro qi h h0
      obtain ⟨a, b, rfl⟩ : ∃ a b, qi = [a, b] := by
        have := h.length
        rcases qi with _ | ⟨a, _ | ⟨b, _ | ⟨c, l⟩⟩⟩ <;> simp at this
        exact ⟨a, b, rfl⟩
      have ha : a < 2 := h.1
      have c0 := congrArg QuaternionAlgebra.re h0
      have c3 := congrArg QuaternionAlgebra.imK h0
      obtain rfl | rfl : a = 0 ∨ a = 1 := by omega
      · simp [quat4] at c3
      · simp [quat4] at c0)
  exact ⟨out, h1, h2⟩

end RBM.Props
