import Verif.Props.ExamplesLookup
import Verif.Props.TransformLaws

/-!
C11 for timestamped vectors and orientations.
-/

namespace RBM.Props

open RBM.Spec

theorem C11_vectors_timed (sq : SquadFn) (hsq : SquadLaw sq) {s : State} {h : List Event} (hr : Reachable s h)
    {a : ℕ} (ha : a < s.size) (v : ND ℝ) (o : TArgs) {p q : ℕ} {ta : ℤ} {ats : List ℝ}
    (hax : AxisIs o.axis v.ndim p) (h3 : v.shape.getD p 0 = 3) (hta : o.timeAxis = some ta)
    (hq : AxisIs ta v.ndim q) (hts : o.timestamps = some (ofList ats)) (htd : TimedArray v q ats)
    (hp0 : p ≠ 0) (hpq : p ≠ q) (h4 : p + 1 = v.ndim ∨ 4 ∉ v.shape) :
    ∃ out, s.transformVectors sq a v (.byObj a) o = .ok (returned o.returnTimestamps out (some ats)) ∧ ND.Same out v := by
  obtain ⟨out, e1, e2, e3⟩ := C15_vectors_timed sq hsq hr ha ha pathAll_self route_self v o hax h3 hta hq hts htd hp0 hpq h4
  rw [outStamps_nil htd.sorted] at e1 e2 e3
  have hsh : out.shape = v.shape := by rw [e2, ← htd.length]; exact set_getD_self
  refine ⟨out, e1, hsh, fun idx hv => ?_⟩
  rw [hsh] at hv
  apply get_eq_of_vec3 (p := p) (by rw [hv.length]; exact hax.1) (by have := valid_getD_lt hv hax.1; omega)
  have hk := valid_getD_lt hv htd.axis
  rw [htd.length] at hk
  have hk' := List.getElem?_eq_getElem hk
  obtain ⟨A, hA, e3⟩ := e3 _ _ _ hk' hk'
  have := e3 idx hv
  rw [set_getD_self, isTransformAt_self hr.wf hA] at this
  rw [this]; simp [Pose.id]

theorem C11_quaternions_timed (sq : SquadFn) (hsq : SquadLaw sq) {s : State} {h : List Event} (hr : Reachable s h)
    {a : ℕ} (ha : a < s.size) (v : ND ℝ) (o : TArgs) {p q : ℕ} {ta : ℤ} {ats : List ℝ}
    (hax : AxisIs o.axis v.ndim p) (h4 : v.shape.getD p 0 = 4) (hta : o.timeAxis = some ta)
    (hq : AxisIs ta v.ndim q) (hts : o.timestamps = some (ofList ats)) (htd : TimedArray v q ats)
    (hp0 : p ≠ 0) (hpq : p ≠ q)
    (hlast : (v.ndim = 2 ∧ ∀ i < ats.length, IsUnitQ (quat4 v 1 [i, 0])) ∨ (swapL 0 q v.shape).getLast? ≠ some 4) :
    ∃ out, s.transformQuaternions sq a v (.byObj a) o = .ok (returned o.returnTimestamps out (some ats)) ∧ ND.Same out v := by
  obtain ⟨out, e1, e2, e3⟩ := C16_orientations_timed sq hsq hr ha ha pathAll_self route_self v o hax h4 hta hq hts htd hp0 hpq hlast
  rw [outStamps_nil htd.sorted] at e1 e2 e3
  have hsh : out.shape = v.shape := by rw [e2, ← htd.length]; exact set_getD_self
  refine ⟨out, e1, hsh, fun idx hv => ?_⟩
  rw [hsh] at hv
  apply get_eq_of_quat4 (p := p) (by rw [hv.length]; exact hax.1) (by have := valid_getD_lt hv hax.1; omega)
  have hk := valid_getD_lt hv htd.axis
  rw [htd.length] at hk
  have hk' := List.getElem?_eq_getElem hk
  obtain ⟨A, hA, e3⟩ := e3 _ _ _ hk' hk'
  have := e3 idx hv
  rw [set_getD_self, isTransformAt_self hr.wf hA] at this
  rw [this]; simp [Pose.id]

example : (∃ out, Ex.m3.transformVectors Ex.holdSquad 1 (Ex.arr2 3 [[1, 2, 3], [4, 5, 6], [7, 8, 9]]) (.byObj 1) { timestamps := some (ofList [-1, 0, 1]) } =
      .ok (returned false out (some [-1, 0, 1])) ∧ ND.Same out (Ex.arr2 3 [[1, 2, 3], [4, 5, 6], [7, 8, 9]])) ∧
    ∃ out, Ex.m3.transformQuaternions Ex.holdSquad 1 (Ex.arr2 4 [[1, 0, 0, 0], [0, 1, 0, 0], [0, 0, 1, 0]]) (.byObj 1) { timestamps := some (ofList [-1, 0, 1]) } =
      .ok (returned false out (some [-1, 0, 1])) ∧ ND.Same out (Ex.arr2 4 [[1, 0, 0, 0], [0, 1, 0, 0], [0, 0, 1, 0]]) := by
  have h1 := exM_lt (k := 1) (by norm_num)
  constructor
  · exact C11_vectors_timed Ex.holdSquad Ex.holdSquad_law Ex.reachM h1
      (Ex.arr2 3 [[1, 2, 3], [4, 5, 6], [7, 8, 9]]) { timestamps := some (ofList [-1, 0, 1]) } (p := 1) (q := 0) (ta := 0) (ats := [-1, 0, 1])
      ⟨by simp [ND.ndim, Ex.arr2], .inr (by simp [ND.ndim, Ex.arr2])⟩ rfl rfl ⟨by simp [ND.ndim, Ex.arr2], .inl rfl⟩ rfl
      ⟨by simp [ND.ndim, Ex.arr2], rfl, by simp, by simp [StrictlyIncreasing]⟩ (by norm_num) (by norm_num) (.inl rfl)
  · exact C11_quaternions_timed Ex.holdSquad Ex.holdSquad_law Ex.reachM h1
      (Ex.arr2 4 [[1, 0, 0, 0], [0, 1, 0, 0], [0, 0, 1, 0]]) { timestamps := some (ofList [-1, 0, 1]) } (p := 1) (q := 0) (ta := 0) (ats := [-1, 0, 1])
      ⟨by simp [ND.ndim, Ex.arr2], .inr (by simp [ND.ndim, Ex.arr2])⟩ rfl rfl ⟨by simp [ND.ndim, Ex.arr2], .inl rfl⟩ rfl
      ⟨by simp [ND.ndim, Ex.arr2], rfl, by simp, by simp [StrictlyIncreasing]⟩ (by norm_num) (by norm_num)
      (.inl ⟨rfl, by
        intro i hi
        simp only [List.length_cons, List.length_nil] at hi
        interval_cases i <;> simp [IsUnitQ, nsq, quat4, Ex.arr2]⟩)

end RBM.Props
