import Verif.Model.Utils
import Verif.Props.Axes

/-!
Laws of `qinv` and `qmul` (C40).
-/

namespace RBM.Props

open RBM Spec

/-- Float arrays that hold quaternions along axis `p`. -/
structure QuatAxis (q : ND ℝ) (qaxis : ℤ) (p : ℕ) : Prop where
  axis : AxisIs qaxis q.ndim p
  four : q.shape.getD p 0 = 4

theorem same_of_quat4 {X Y : ND ℝ} {p : ℕ} (hs : X.shape = Y.shape) (hp : p < Y.ndim) (h4 : Y.shape.getD p 0 = 4)
    (h : ∀ idx, Valid Y.shape idx → quat4 X p idx = quat4 Y p idx) : ND.Same X Y := by
  refine ⟨hs, fun idx hv => ?_⟩
  rw [hs] at hv
  exact get_eq_of_quat4 (by rw [hv.length]; exact hp) (by have := valid_getD_lt hv hp; omega) (h idx hv)

theorem read_valid_exists {w : ND ℝ} {p : ℕ} (hp : p < w.ndim) (h4 : w.shape.getD p 0 = 4) {i : List ℕ}
    (hv : Valid (swapL (w.ndim - 1) p w.shape).dropLast i) :
    ∃ idx, Valid w.shape idx ∧ (swapL (w.ndim - 1) p idx).dropLast = i := by
  have h1 : w.ndim - 1 < w.shape.length := by simp only [ND.ndim] at hp ⊢; omega
  have hsplit : swapL (w.ndim - 1) p w.shape = (swapL (w.ndim - 1) p w.shape).dropLast ++ [4] := by
    apply split_last (p := w.ndim - 1) (by simp [ND.ndim] at hp ⊢; omega)
    rw [swapL_getD h1 hp]
    split
    · rename_i h; rw [h, h4]
    · rw [if_pos rfl, h4]
  have hv2 : Valid (swapL (w.ndim - 1) p w.shape) (i ++ [0]) := by rw [hsplit]; exact valid_snoc_mk hv (by norm_num)
  refine ⟨swapL (w.ndim - 1) p (i ++ [0]), ?_, ?_⟩
  · have := valid_swapL (i := w.ndim - 1) (j := p) (by simpa using h1) (by simpa [ND.ndim] using hp) hv2
    rwa [swapL_swapL h1 hp] at this
  · have hl : (i ++ [0]).length = w.shape.length := by rw [hv2.length]; simp
    rw [swapL_swapL (by rw [hl]; exact h1) (by rw [hl]; exact hp)]
    simp

/-- `qinv` of a float array with nonzero quaternions along axis `p`, any shape: each quaternion is
replaced by its two-sided inverse. -/
theorem C40_inverse (q : ND ℝ) {qaxis : ℤ} {p : ℕ} (hq : QuatAxis q qaxis p)
    (hne : ∀ idx, Valid q.shape idx → quat4 q p idx ≠ 0) :
    ∃ out, qinv (.float q) qaxis = .ok (.float out) ∧ out.shape = q.shape ∧
      ∀ idx, Valid q.shape idx → quat4 out p idx * quat4 q p idx = 1 ∧ quat4 q p idx * quat4 out p idx = 1 := by
  obtain ⟨w2, Q, e1, e2, hs, hg⟩ := quat_read q hq.axis hq.four
  obtain ⟨out, e3, e4, e5⟩ := quat_write q hq.axis hq.four (Q.map fun x => x⁻¹) (by simpa [ND.map] using hs)
  refine ⟨out, ?_, e4, fun idx hv => ?_⟩
  · have hno : ¬ ∃ idx, Valid Q.shape idx ∧ Q.get idx = 0 := by
      rintro ⟨i, hi, h0⟩
      rw [hs] at hi
      obtain ⟨idx, hv, rfl⟩ := read_valid_exists hq.axis.1 hq.four hi
      rw [hg idx hv.length] at h0
      exact hne idx hv h0
    simp only [qinv, e1, bind, Except.bind, e2, npQInv, if_neg hno, e3, Pure.pure, Except.pure]
  · have := hne idx hv
    rw [e5 idx hv.length]
    simp only [ND.map]
    rw [hg idx hv.length]
    exact ⟨inv_mul_cancel₀ this, mul_inv_cancel₀ this⟩

/-- A zero quaternion has no inverse: the result is not finite. -/
theorem C40_inverse_zero (q : ND ℝ) {qaxis : ℤ} {p : ℕ} (hq : QuatAxis q qaxis p) {idx : List ℕ}
    (hv : Valid q.shape idx) (h0 : quat4 q p idx = 0) : qinv (.float q) qaxis = .error .nonfinite := by
  obtain ⟨w2, Q, e1, e2, hs, hg⟩ := quat_read q hq.axis hq.four
  have hyes : ∃ idx, Valid Q.shape idx ∧ Q.get idx = 0 :=
    ⟨_, by rw [hs]; exact valid_read hq.axis.1 hv, by rw [hg idx hv.length, h0]⟩
  simp only [qinv, e1, bind, Except.bind, e2, npQInv, if_pos hyes]

/-- The same for arrays of quaternion dtype. -/
theorem C40_inverse_dtype (q : ND Quat) (qaxis : ℤ) (hne : ∀ idx, Valid q.shape idx → q.get idx ≠ 0) :
    ∃ out, qinv (.quat q) qaxis = .ok (.quat out) ∧ out.shape = q.shape ∧
      ∀ idx, Valid q.shape idx → out.get idx * q.get idx = 1 ∧ q.get idx * out.get idx = 1 := by
  refine ⟨q.map fun x => x⁻¹, ?_, rfl, fun idx hv => ⟨inv_mul_cancel₀ (hne idx hv), mul_inv_cancel₀ (hne idx hv)⟩⟩
  have hno : ¬ ∃ idx, Valid q.shape idx ∧ q.get idx = 0 := by
    rintro ⟨i, hi, h0⟩; exact hne i hi h0
  simp only [qinv, npQInv, if_neg hno, bind, Except.bind, Pure.pure, Except.pure]

/-- `qinv` is an involution. -/
theorem C40_involution (q : ND ℝ) {qaxis : ℤ} {p : ℕ} (hq : QuatAxis q qaxis p)
    (hne : ∀ idx, Valid q.shape idx → quat4 q p idx ≠ 0) :
    ∃ out back, qinv (.float q) qaxis = .ok (.float out) ∧ qinv (.float out) qaxis = .ok (.float back) ∧
      ND.Same back q := by
  obtain ⟨out, e1, e2, e3⟩ := C40_inverse q hq hne
  have hnd : out.ndim = q.ndim := by simp [ND.ndim, e2]
  obtain ⟨back, f1, f2, f3⟩ := C40_inverse out (qaxis := qaxis) (p := p) ⟨by rw [hnd]; exact hq.axis, by rw [e2]; exact hq.four⟩ (by
    intro idx hv h0
    rw [e2] at hv
    have := (e3 idx hv).1
    rw [h0] at this; simp at this)
  refine ⟨out, back, e1, f1, same_of_quat4 (f2.trans e2) hq.axis.1 hq.four fun idx hv => ?_⟩
  have h1 := (e3 idx hv).1
  have h2 := (f3 idx (by rw [e2]; exact hv)).1
  calc quat4 back p idx = quat4 back p idx * (quat4 out p idx * quat4 q p idx) := by rw [h1, mul_one]
    _ = quat4 q p idx := by rw [← mul_assoc, h2, one_mul]

/-! ### Products -/

/-- `qs` are float arrays of the shape of `w`. -/
theorem toQuats_spec (w : ND ℝ) {qaxis : ℤ} {p : ℕ} (hq : QuatAxis w qaxis p) : ∀ (qs : List (ND ℝ)),
    (∀ q ∈ qs, q.shape = w.shape) → ∃ Qs, toQuats qaxis (qs.map .float) = .ok Qs ∧
      List.Forall₂ (fun (q : ND ℝ) (Q : ND Quat) => Q.shape = (swapL (w.ndim - 1) p w.shape).dropLast ∧
        ∀ idx, idx.length = w.ndim → Q.get (swapL (w.ndim - 1) p idx).dropLast = quat4 q p idx) qs Qs
  | [], _ => ⟨[], rfl, .nil⟩
  | q :: qs, h => by
    obtain ⟨Qs, e1, e2⟩ := toQuats_spec w hq qs fun x hx => h x (List.mem_cons_of_mem _ hx)
    have hs := h q List.mem_cons_self
    have hnd : q.ndim = w.ndim := by simp [ND.ndim, hs]
    obtain ⟨w2, Q, f1, f2, f3, f4⟩ := quat_read q (axis := qaxis) (p := p) (by rw [hnd]; exact hq.axis) (by rw [hs]; exact hq.four)
    rw [hnd] at f3 f4
    rw [hs] at f3
    refine ⟨Q :: Qs, ?_, .cons ⟨f3, f4⟩ e2⟩
    simp only [List.map_cons, toQuats, f1, bind, Except.bind, f2, e1, Pure.pure, Except.pure]

theorem foldlM_spec (sh : List ℕ) : ∀ (Qs : List (ND Quat)) (acc : ND Quat), acc.shape = sh → (∀ Q ∈ Qs, Q.shape = sh) →
    ∃ R, Qs.foldlM (fun acc x => ND.bop (fun a b => a * b) acc x) acc = (.ok R : Res (ND Quat)) ∧ R.shape = sh ∧
      ∀ idx, Valid sh idx → R.get idx = acc.get idx * (Qs.map fun Q => Q.get idx).prod
  | [], acc, h, _ => ⟨acc, rfl, h, fun idx _ => by simp⟩
  | Q :: Qs, acc, h, hQ => by
    have hs := hQ Q List.mem_cons_self
    have hb : ND.bop (fun a b => a * b) acc Q = .ok ⟨Q.shape, fun idx => acc.bget idx * Q.bget idx⟩ :=
      bop_left _ acc Q (by rw [h, hs]; exact Bcast.refl _)
    obtain ⟨R, r1, r2, r3⟩ := foldlM_spec sh Qs ⟨Q.shape, fun idx => acc.bget idx * Q.bget idx⟩ hs
      fun X hX => hQ X (List.mem_cons_of_mem _ hX)
    refine ⟨R, ?_, r2, fun idx hv => ?_⟩
    · simp only [List.foldlM_cons, hb, bind, Except.bind]
      exact r1
    · rw [r3 idx hv]
      simp only
      rw [bget_valid acc (by rw [h]; exact hv), bget_valid Q (by rw [hs]; exact hv), List.map_cons, List.prod_cons, mul_assoc]

theorem qreduce_spec (sh : List ℕ) (Qs : List (ND Quat)) (hne : Qs ≠ []) (hQ : ∀ Q ∈ Qs, Q.shape = sh) :
    ∃ R, qreduce Qs = .ok R ∧ R.shape = sh ∧ ∀ idx, Valid sh idx → R.get idx = (Qs.map fun Q => Q.get idx).prod := by
  cases Qs with
  | nil => exact absurd rfl hne
  | cons Q Qs =>
    obtain ⟨R, r1, r2, r3⟩ := foldlM_spec sh Qs (Q.map fun x => 1 * x) (hQ Q List.mem_cons_self)
      fun X hX => hQ X (List.mem_cons_of_mem _ hX)
    exact ⟨R, r1, r2, fun idx hv => by rw [r3 idx hv]; simp [ND.map]⟩

/-- `qmul` of two or more float arrays of the same shape: at each position the product, in order, of
the quaternions along axis `p`. -/
theorem C40_product (qs : List (ND ℝ)) (w : ND ℝ) {qaxis : ℤ} {p : ℕ} (hq : QuatAxis w qaxis p)
    (h2 : 2 ≤ qs.length) (hs : ∀ q ∈ qs, q.shape = w.shape) :
    ∃ out, qmul (qs.map .float) qaxis = .ok (.float out) ∧ out.shape = w.shape ∧
      ∀ idx, Valid w.shape idx → quat4 out p idx = (qs.map fun q => quat4 q p idx).prod := by
  obtain ⟨Qs, e1, e2⟩ := toQuats_spec w hq qs hs
  have hl := e2.length_eq
  obtain ⟨R, r1, r2, r3⟩ := qreduce_spec (swapL (w.ndim - 1) p w.shape).dropLast Qs (by
    rintro rfl; simp at hl; subst hl; simp at h2) (by
    intro Q hQ
    obtain ⟨k, hk, rfl⟩ := List.getElem_of_mem hQ
    exact ((List.forall₂_iff_get.mp e2).2 k (by omega) hk).1)
  obtain ⟨out, o1, o2, o3⟩ := quat_write w hq.axis hq.four R r2
  refine ⟨out, ?_, o2, fun idx hv => ?_⟩
  · have h1 : ¬ (qs.map QArr.float).length < 2 := by simp; omega
    have h3 : (qs.map QArr.float).all (fun x => !x.isQuat) = true := by simp [QArr.isQuat]
    simp only [qmul, if_neg h1, h3, if_true, e1, bind, Except.bind, r1, o1, Pure.pure, Except.pure]
  · rw [o3 idx hv.length, r3 _ (valid_read hq.axis.1 hv)]
    congr 1
    have : ∀ (qs : List (ND ℝ)) (Qs : List (ND Quat)), List.Forall₂ (fun (q : ND ℝ) (Q : ND Quat) =>
        Q.shape = (swapL (w.ndim - 1) p w.shape).dropLast ∧
        ∀ idx, idx.length = w.ndim → Q.get (swapL (w.ndim - 1) p idx).dropLast = quat4 q p idx) qs Qs →
        Qs.map (fun Q => Q.get (swapL (w.ndim - 1) p idx).dropLast) = qs.map fun q => quat4 q p idx := by
      intro qs Qs h
      induction h with
      | nil => rfl
      | cons hx _ ih => simp only [List.map_cons, ih, hx.2 idx hv.length]
    exact this qs Qs e2

/-- The same for quaternion dtype. -/
theorem C40_product_dtype (qs : List (ND Quat)) (sh : List ℕ) (qaxis : ℤ) (h2 : 2 ≤ qs.length) (hs : ∀ q ∈ qs, q.shape = sh) :
    ∃ out, qmul (qs.map .quat) qaxis = .ok (.quat out) ∧ out.shape = sh ∧
      ∀ idx, Valid sh idx → out.get idx = (qs.map fun q => q.get idx).prod := by
  have e1 : toQuats qaxis (qs.map .quat) = .ok qs := by
    clear h2 hs
    induction qs with
    | nil => rfl
    | cons q qs ih => simp only [List.map_cons, toQuats, ih, bind, Except.bind, Pure.pure, Except.pure]
  obtain ⟨R, r1, r2, r3⟩ := qreduce_spec sh qs (by rintro rfl; simp at h2) hs
  refine ⟨R, ?_, r2, r3⟩
  have h1 : ¬ (qs.map QArr.quat).length < 2 := by simp; omega
  have h3 : (qs.map QArr.quat).all (fun x => !x.isQuat) = false := by
    cases qs with
    | nil => simp at h2
    | cons q qs => simp [QArr.isQuat]
  have h4 : (qs.map QArr.quat).all (fun x => x.isQuat) = true := by simp [QArr.isQuat]
  simp only [qmul, if_neg h1, h3, h4, if_true, Bool.false_eq_true, if_false, e1, bind, Except.bind, r1, Pure.pure, Except.pure]

/-- Fewer than two arguments, or mixed dtypes, raise `ValueError`. -/
theorem C40_product_refused (qs : List QArr) (qaxis : ℤ)
    (h : qs.length < 2 ∨ (∃ q ∈ qs, q.isQuat = true) ∧ (∃ q ∈ qs, q.isQuat = false)) :
    qmul qs qaxis = .error .valueError := by
  rcases h with h | ⟨⟨a, ha, ha'⟩, ⟨b, hb, hb'⟩⟩
  · simp [qmul, h]
  · have h3 : qs.all (fun x => !x.isQuat) = false := by
      rw [List.all_eq_false]; exact ⟨a, ha, by simp [ha']⟩
    have h4 : qs.all (fun x => x.isQuat) = false := by
      rw [List.all_eq_false]; exact ⟨b, hb, by simp [hb']⟩
    simp [qmul, h3, h4]

/-- The norm of the product is the product of the norms. -/
theorem C40_norm (qs : List (ND ℝ)) (w : ND ℝ) {qaxis : ℤ} {p : ℕ} (hq : QuatAxis w qaxis p)
    (h2 : 2 ≤ qs.length) (hs : ∀ q ∈ qs, q.shape = w.shape) :
    ∃ out, qmul (qs.map .float) qaxis = .ok (.float out) ∧
      ∀ idx, Valid w.shape idx → nsq (quat4 out p idx) = (qs.map fun q => nsq (quat4 q p idx)).prod := by
  obtain ⟨out, e1, _, e3⟩ := C40_product qs w hq h2 hs
  refine ⟨out, e1, fun idx hv => ?_⟩
  rw [e3 idx hv]
  clear e1 e3 h2 hs
  induction qs with
  | nil => simp [nsq]
  | cons q qs ih => simp only [List.map_cons, List.prod_cons, nsq_mul, ih]

/-- Associativity: multiplying some of the factors first makes no difference. -/
theorem C40_associative (as bs cs : List (ND ℝ)) (w : ND ℝ) {qaxis : ℤ} {p : ℕ} (hq : QuatAxis w qaxis p)
    (h2 : 2 ≤ bs.length) (hs : ∀ q ∈ as ++ bs ++ cs, q.shape = w.shape) (hne : 1 ≤ as.length + cs.length) :
    ∃ m out out', qmul (bs.map .float) qaxis = .ok (.float m) ∧
      qmul ((as ++ bs ++ cs).map .float) qaxis = .ok (.float out) ∧
      qmul ((as ++ [m] ++ cs).map .float) qaxis = .ok (.float out') ∧ ND.Same out' out := by
  obtain ⟨m, e1, e2, e3⟩ := C40_product bs w hq h2 fun q hm => hs q (by simp [hm])
  obtain ⟨out, f1, f2, f3⟩ := C40_product (as ++ bs ++ cs) w hq (by simp; omega) hs
  obtain ⟨out', g1, g2, g3⟩ := C40_product (as ++ [m] ++ cs) w hq (by simp; omega) (by
    intro q hm
    simp only [List.mem_append, List.mem_singleton] at hm
    rcases hm with (hm | rfl) | hm
    · exact hs q (by simp [hm])
    · exact e2
    · exact hs q (by simp [hm]))
  refine ⟨m, out, out', e1, f1, g1, same_of_quat4 (g2.trans f2.symm) (by
    have := hq.axis.1; simpa [ND.ndim, f2] using this) (by rw [f2]; exact hq.four) fun idx hv => ?_⟩
  rw [f2] at hv
  rw [f3 idx hv, g3 idx hv]
  simp [e3 idx hv]

/-- The inverse of a product is the product of the inverses in reverse order. -/
theorem C40_inverse_product (a b : ND ℝ) {qaxis : ℤ} {p : ℕ} (hq : QuatAxis a qaxis p) (hs : b.shape = a.shape)
    (ha : ∀ idx, Valid a.shape idx → quat4 a p idx ≠ 0) (hb : ∀ idx, Valid a.shape idx → quat4 b p idx ≠ 0) :
    ∃ ab ai bi l r, qmul [.float a, .float b] qaxis = .ok (.float ab) ∧ qinv (.float a) qaxis = .ok (.float ai) ∧
      qinv (.float b) qaxis = .ok (.float bi) ∧ qinv (.float ab) qaxis = .ok (.float l) ∧
      qmul [.float bi, .float ai] qaxis = .ok (.float r) ∧ ND.Same l r := by
  have hnd : b.ndim = a.ndim := by simp [ND.ndim, hs]
  obtain ⟨ab, e1, e2, e3⟩ := C40_product [a, b] a hq (by simp) (by simp [hs])
  obtain ⟨ai, f1, f2, f3⟩ := C40_inverse a hq ha
  obtain ⟨bi, g1, g2, g3⟩ := C40_inverse b (qaxis := qaxis) (p := p) ⟨by rw [hnd]; exact hq.axis, by rw [hs]; exact hq.four⟩ (by rw [hs]; exact hb)
  obtain ⟨r, r1, r2, r3⟩ := C40_product [bi, ai] a hq (by simp) (by simp [hs, f2, g2])
  have habne : ∀ idx, Valid a.shape idx → quat4 ab p idx ≠ 0 := by
    intro idx hv
    rw [e3 idx hv]
    simpa using mul_ne_zero (ha idx hv) (hb idx hv)
  obtain ⟨l, l1, l2, l3⟩ := C40_inverse ab (qaxis := qaxis) (p := p)
    ⟨by simpa [ND.ndim, e2] using hq.axis, by rw [e2]; exact hq.four⟩ (by rw [e2]; exact habne)
  refine ⟨ab, ai, bi, l, r, e1, f1, g1, l1, r1, same_of_quat4 ((l2.trans e2).trans r2.symm) (by
    have := hq.axis.1; simpa [ND.ndim, r2] using this) (by rw [r2]; exact hq.four) fun idx hv => ?_⟩
  rw [r2] at hv
  have hl := (l3 idx (by rw [e2]; exact hv)).1
  rw [e3 idx hv] at hl
  rw [r3 idx hv]
  simp only [List.map_cons, List.map_nil, List.prod_cons, List.prod_nil, mul_one] at hl ⊢
  have h1 := (f3 idx hv).2
  have h2 := (g3 idx (by rw [hs]; exact hv)).2
  have : quat4 a p idx * quat4 b p idx * (quat4 bi p idx * quat4 ai p idx) = 1 := by
    rw [mul_assoc, ← mul_assoc (quat4 b p idx), h2, one_mul, h1]
  calc quat4 l p idx = quat4 l p idx * (quat4 a p idx * quat4 b p idx * (quat4 bi p idx * quat4 ai p idx)) := by rw [this, mul_one]
    _ = _ := by rw [← mul_assoc, hl, one_mul]

/-- Non-vacuous: two quaternions in the columns of a `(4, 2)` array. -/
example : ∃ out back, qinv (.float (Ex.arr2 2 [[1, 0], [0, 2], [3, 0], [0, 0]])) 0 = .ok (.float out) ∧
    qinv (.float out) 0 = .ok (.float back) ∧ ND.Same back (Ex.arr2 2 [[1, 0], [0, 2], [3, 0], [0, 0]]) := by
  refine C40_involution _ (p := 0) ⟨⟨by simp [ND.ndim, Ex.arr2], .inl rfl⟩, rfl⟩ ?_
  intro idx hv h0
  simp only [Ex.arr2] at hv
  match idx, hv with
  | [i, j], ⟨_, hj, _⟩ =>
    have h1 := congrArg QuaternionAlgebra.re h0
    have h2 := congrArg QuaternionAlgebra.imI h0
    have : j = 0 ∨ j = 1 := by simp at hj; omega
    rcases this with rfl | rfl <;> simp [quat4, Ex.arr2] at h1 h2

/-- Three plain arrays (`C40_product`, `C40_norm`), two with quaternions as elements (`C40_product_dtype`), mixed ones (`C40_product_refused`). -/
example : ∃ out, qmul [.float (Ex.arr2 4 [[1, 2, 3, 4]]), .float (Ex.arr2 4 [[0, 1, 0, 0]]), .float (Ex.arr2 4 [[0, 0, 1, 0]])] = .ok (.float out) ∧
    nsq (quat4 out 1 [0, 0]) = 30 := by
  obtain ⟨out, h1, h2⟩ := C40_norm [Ex.arr2 4 [[1, 2, 3, 4]], Ex.arr2 4 [[0, 1, 0, 0]], Ex.arr2 4 [[0, 0, 1, 0]]] (Ex.arr2 4 [[1, 2, 3, 4]]) (qaxis := -1) (p := 1)
    ⟨⟨by simp [ND.ndim, Ex.arr2], .inr (by simp [ND.ndim, Ex.arr2])⟩, rfl⟩ (by simp) (by intro q hq; simp only [List.mem_cons, List.not_mem_nil, or_false] at hq; rcases hq with rfl | rfl | rfl <;> rfl)
  refine ⟨out, h1, ?_⟩
  rw [h2 [0, 0] (by simp [Valid, Ex.arr2])]
  simp [nsq, quat4, Ex.arr2]
  norm_num

example : qmul [.quat ⟨[2], fun _ => 1⟩, .float (Ex.arr2 4 [[1, 0, 0, 0]])] = .error .valueError :=
  C40_product_refused _ _ (.inr ⟨⟨_, List.mem_cons_self, rfl⟩, _, List.mem_cons_of_mem _ List.mem_cons_self, rfl⟩)

/-- A zero quaternion has no inverse (`C40_inverse_zero`). -/
example : qinv (.float (Ex.arr2 4 [[1, 0, 0, 0], [0, 0, 0, 0]])) = .error .nonfinite :=
  C40_inverse_zero _ (p := 1) ⟨⟨by simp [ND.ndim, Ex.arr2], .inr (by simp [ND.ndim, Ex.arr2])⟩, rfl⟩ (idx := [1, 0]) (by simp [Valid, Ex.arr2]) (by
    ext <;> simp [quat4, Ex.arr2])

/-- Inverse of a product (`C40_inverse_product`). -/
example : ∃ ab ai bi l r, qmul [.float (Ex.arr2 4 [[1, 2, 3, 4]]), .float (Ex.arr2 4 [[1, 1, 0, 0]])] = .ok (.float ab) ∧ qinv (.float (Ex.arr2 4 [[1, 2, 3, 4]])) = .ok (.float ai) ∧
    qinv (.float (Ex.arr2 4 [[1, 1, 0, 0]])) = .ok (.float bi) ∧ qinv (.float ab) = .ok (.float l) ∧ qmul [.float bi, .float ai] = .ok (.float r) ∧ ND.Same l r := by
  refine C40_inverse_product _ _ (p := 1) ⟨⟨by simp [ND.ndim, Ex.arr2], .inr (by simp [ND.ndim, Ex.arr2])⟩, rfl⟩ rfl ?_ ?_
  all_goals
    intro idx hv h0
    simp only [Ex.arr2] at hv
    match idx, hv with
    | [i, j], ⟨hi, _, _⟩ =>
      have h1 := congrArg QuaternionAlgebra.re h0
      have : i = 0 := by simp at hi; omega
      subst this
      simp [quat4, Ex.arr2] at h1

end RBM.Props
