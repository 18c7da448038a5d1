import Verif.Lemmas.BroadcastAll
import Verif.Props.Quaternions

/-!
C40: `qmul` of arrays of different shapes.
-/

namespace RBM.Props

open RBM.Spec

theorem read_last (q : ND ℝ) {s : List ℕ} (hs : q.shape = s ++ [4]) : ∃ w2 Q, q.swapaxesZ (-1) (-1) = .ok w2 ∧ asQuatArray w2 = .ok Q ∧ Q.shape = s ∧
    ∀ idx : List ℕ, idx.length = s.length → Q.get idx = quat4 q s.length (idx ++ [0]) := by
  have hn : q.ndim = s.length + 1 := by simp [ND.ndim, hs]
  obtain ⟨w2, Q, e1, e2, e3, e4⟩ := quat_read q (axis := -1) (p := s.length) ⟨by omega, .inr (by rw [hn]; push_cast; ring)⟩ (by simp [hs])
  refine ⟨w2, Q, e1, e2, ?_, fun idx hi => ?_⟩
  · rw [e3, hn, Nat.add_sub_cancel, swapL_self (by simp [hs]), hs]; simp
  · have := e4 (idx ++ [0]) (by simp [hn, hi])
    rwa [hn, Nat.add_sub_cancel, swapL_self (by simp [hi]), List.dropLast_concat] at this

/-- The shape of the array of quaternions: all axes but the last. -/
def stackShape (q : ND ℝ) : List ℕ := q.shape.dropLast

theorem toQuats_last : ∀ (qs : List (ND ℝ)), (∀ q ∈ qs, q.shape.getLast? = some 4) → ∃ Qs, toQuats (-1) (qs.map .float) = .ok Qs ∧
    List.Forall₂ (fun (q : ND ℝ) (Q : ND Quat) => Q.shape = stackShape q ∧
      ∀ idx : List ℕ, idx.length = (stackShape q).length → Q.get idx = quat4 q (stackShape q).length (idx ++ [0])) qs Qs
  | [], _ => ⟨[], rfl, .nil⟩
  | q :: qs, h => by
    obtain ⟨Qs, e1, e2⟩ := toQuats_last qs fun x hx => h x (List.mem_cons_of_mem _ hx)
    have hs : q.shape = stackShape q ++ [4] := (List.dropLast_append_getLast? 4 (h q List.mem_cons_self)).symm
    obtain ⟨w2, Q, f1, f2, f3, f4⟩ := read_last q hs
    refine ⟨Q :: Qs, ?_, .cons ⟨f3, f4⟩ e2⟩
    simp only [List.map_cons, toQuats, f1, bind, Except.bind, f2, e1, Pure.pure, Except.pure]

/-- Arrays of different shapes, with the quaternions along the last axis, are broadcast: the result has the common
shape, and each of its quaternions is the product, in order, of the quaternions at this position. A single quaternion
multiplies all. -/
theorem C40_broadcast (qs : List (ND ℝ)) {sh : List ℕ} (h2 : 2 ≤ qs.length) (h4 : ∀ q ∈ qs, q.shape.getLast? = some 4)
    (hc : CommonShape (qs.map fun q => q.shape.dropLast) sh) :
    ∃ out, qmul (qs.map .float) = .ok (.float out) ∧ out.shape = sh ++ [4] ∧ ∀ idx, Valid sh idx →
      quat4 out sh.length (idx ++ [0]) =
        (qs.map fun q => quat4 q q.shape.dropLast.length (pickFrom q.shape.dropLast idx ++ [0])).prod := by
  obtain ⟨Qs, e1, e2⟩ := toQuats_last qs h4
  have hmap : Qs.map (fun Q => Q.shape) = qs.map fun q => q.shape.dropLast := by
    clear e1 h2 h4 hc
    induction e2 with
    | nil => rfl
    | cons h _ ih => simp only [List.map_cons, h.1, ih, stackShape]
  obtain ⟨R, r1, r2, r3⟩ := qreduce_common (Qs := Qs) (sh := sh) (by rw [hmap]; exact hc)
  have hws : (⟨sh ++ [4], fun _ => 0⟩ : ND ℝ).ndim = sh.length + 1 := by simp [ND.ndim]
  obtain ⟨out, o1, o2, o3⟩ := quat_write (⟨sh ++ [4], fun _ => 0⟩ : ND ℝ) (axis := -1) (p := sh.length)
    ⟨by rw [hws]; omega, .inr (by rw [hws]; push_cast; ring)⟩ (by simp) R (by
      rw [r2, hws, Nat.add_sub_cancel, swapL_self (by simp)]; simp)
  refine ⟨out, ?_, o2, fun idx hv => ?_⟩
  · have h1 : ¬ (qs.map QArr.float).length < 2 := by simp; omega
    have h3 : (qs.map QArr.float).all (fun x => !x.isQuat) = true := by simp [QArr.isQuat]
    simp only [qmul, if_neg h1, h3, if_true, e1, bind, Except.bind, r1, o1, Pure.pure, Except.pure]
  · rw [o3 (idx ++ [0]) (by rw [hws]; simp [hv.length]), hws, Nat.add_sub_cancel, swapL_self (by simp [hv.length]), List.dropLast_concat, r3 idx hv]
    congr 1
    have hle : ∀ q ∈ qs, (stackShape q).length ≤ idx.length := by
      intro q hq
      rw [hv.length]
      exact hc.le _ (List.mem_map.mpr ⟨q, hq, rfl⟩)
    clear e1 r1 r3 hmap h2 h4 hc o3
    induction e2 with
    | nil => rfl
    | @cons q Q qs Qs h _ ih =>
      simp only [List.map_cons, ih fun x hx => hle x (List.mem_cons_of_mem _ hx)]
      congr 1
      rw [h.1, h.2]
      · rfl
      · have := hle q List.mem_cons_self
        rw [pickFrom, ← bidx_eq_pick]
        exact bidx_length (by simp; omega)

/-- The same for quaternion dtype. -/
theorem C40_broadcast_dtype (qs : List (ND Quat)) {sh : List ℕ} (qaxis : ℤ) (h2 : 2 ≤ qs.length) (hc : CommonShape (qs.map fun q => q.shape) sh) :
    ∃ out, qmul (qs.map .quat) qaxis = .ok (.quat out) ∧ out.shape = sh ∧
      ∀ idx, Valid sh idx → out.get idx = (qs.map fun q => q.get (pickFrom q.shape idx)).prod := by
  have e1 : toQuats qaxis (qs.map .quat) = .ok qs := by
    clear h2 hc
    induction qs with
    | nil => rfl
    | cons q qs ih => simp only [List.map_cons, toQuats, ih, bind, Except.bind, Pure.pure, Except.pure]
  obtain ⟨R, r1, r2, r3⟩ := qreduce_common hc
  refine ⟨R, ?_, r2, r3⟩
  have h1 : ¬ (qs.map QArr.quat).length < 2 := by simp; omega
  have h3 : (qs.map QArr.quat).all (fun x => !x.isQuat) = false := by
    cases qs with
    | nil => simp at h2
    | cons q qs => simp [QArr.isQuat]
  have h4 : (qs.map QArr.quat).all (fun x => x.isQuat) = true := by simp [QArr.isQuat]
  simp only [qmul, if_neg h1, h3, h4, if_true, Bool.false_eq_true, if_false, e1, bind, Except.bind, r1, Pure.pure, Except.pure]

theorem bshapeEq_pointwise {p q r : List ℕ} (h : ND.bshapeEq p q = some r) : p.length = r.length ∧ q.length = r.length ∧ ∀ i < r.length,
    (p.getD i 0 = 1 ∨ p.getD i 0 = r.getD i 0) ∧ (q.getD i 0 = 1 ∨ q.getD i 0 = r.getD i 0) ∧ (p.getD i 0 = r.getD i 0 ∨ q.getD i 0 = r.getD i 0) := by
  induction p generalizing q r with
  | nil => cases q with
    | nil => cases h; simp
    | cons => simp [ND.bshapeEq] at h
  | cons a p ih => cases q with
    | nil => simp [ND.bshapeEq] at h
    | cons b q =>
      simp only [ND.bshapeEq] at h
      cases hr : ND.bshapeEq p q with
      | none => rw [hr] at h; cases h
      | some r' =>
        rw [hr] at h
        obtain ⟨h1, h2, h3⟩ := ih hr
        have hc : ∃ c, r = c :: r' ∧ (a = 1 ∨ a = c) ∧ (b = 1 ∨ b = c) ∧ (a = c ∨ b = c) := by
          simp only at h
          split_ifs at h with e1 e2 e3
          · cases h; exact ⟨_, rfl, .inr rfl, .inr e1.symm, .inl rfl⟩
          · cases h; exact ⟨_, rfl, .inl e2, .inr rfl, .inr rfl⟩
          · cases h; exact ⟨_, rfl, .inr rfl, .inl e3, .inl rfl⟩
        obtain ⟨c, rfl, c1, c2, c3⟩ := hc
        refine ⟨by simp [h1], by simp [h2], fun i hi => ?_⟩
        cases i with
        | zero => simpa using ⟨c1, c2, c3⟩
        | succ i => simpa using h3 i (by simpa using hi)

theorem getD_pad {n m : ℕ} {s : List ℕ} (h1 : s.length ≤ m) (h2 : m ≤ n) (i : ℕ) :
    (padTo n s).getD i 0 = if i < n - m then 1 else (padTo m s).getD (i - (n - m)) 0 := by
  rw [padTo_split h1 h2]
  by_cases h : i < n - m
  · rw [if_pos h, List.getD_eq_getElem?_getD, List.getElem?_append_left (by simpa using h)]
    simp [h]
  · rw [if_neg h, List.getD_eq_getElem?_getD, List.getElem?_append_right (by simpa using h), List.getD_eq_getElem?_getD]
    simp

theorem common_step {L : List (List ℕ)} {s t r : List ℕ} (h : CommonShape L s) (e : ND.bshape s t = some r) : CommonShape (L ++ [t]) r := by
  obtain ⟨h1, h2, h3⟩ := bshapeEq_pointwise e
  rw [padShape_eq, padTo_max, padTo_length (le_max_left _ _)] at h1
  have h1' := h1.symm
  rw [padShape_eq, padShape_eq, padTo_max, padTo_max t, max_comm t.length] at h3
  rw [← h1'] at h3
  have ls : s.length ≤ r.length := by omega
  have lt : t.length ≤ r.length := by omega
  refine ⟨fun u hu => ?_, ?_, fun u hu i hi => ?_, fun i hi => ?_⟩
  · rcases List.mem_append.mp hu with hu | hu
    · exact (h.le u hu).trans ls
    · simp only [List.mem_singleton] at hu; subst hu; exact lt
  · rcases le_total t.length s.length with hl | hl
    · obtain ⟨u, hu, e⟩ := h.len
      exact ⟨u, by simp [hu], by omega⟩
    · exact ⟨t, by simp, by omega⟩
  · rcases List.mem_append.mp hu with hu | hu
    · rw [getD_pad (h.le u hu) ls]
      split_ifs with hk
      · exact .inl rfl
      · have hj : i - (r.length - s.length) < s.length := by omega
        have hp := (h3 i hi).1
        rw [getD_pad (m := s.length) le_rfl ls, if_neg hk] at hp
        have hs : padTo s.length s = s := by simp [padTo]
        rw [hs] at hp
        rcases h.fits u hu _ hj with h4 | h4
        · exact .inl h4
        · rw [h4]; exact hp
    · simp only [List.mem_singleton] at hu; subst hu; exact (h3 i hi).2.1
  · rcases (h3 i hi).2.2 with hp | hq
    · rw [getD_pad (m := s.length) le_rfl ls] at hp
      have hs : padTo s.length s = s := by simp [padTo]
      rw [hs] at hp
      split_ifs at hp with hk
      · obtain ⟨u, hu, e⟩ := h.len
        refine ⟨u, by simp [hu], ?_⟩
        rw [getD_pad (h.le u hu) ls, if_pos hk, hp]
      · obtain ⟨u, hu, e⟩ := h.taken (i - (r.length - s.length)) (by omega)
        refine ⟨u, by simp [hu], ?_⟩
        rw [getD_pad (h.le u hu) ls, if_neg hk, e, hp]
    · exact ⟨t, by simp, hq⟩

theorem common_single (s : List ℕ) : CommonShape [s] s := by
  have hs : padTo s.length s = s := by simp [padTo]
  exact ⟨by simp, ⟨s, by simp, rfl⟩, fun u hu i _ => by simp only [List.mem_singleton] at hu; subst hu; rw [hs]; exact .inr rfl,
    fun i _ => ⟨s, by simp, by rw [hs]⟩⟩

theorem fold_common {Qs : List (ND Quat)} {acc : ND Quat} {L : List (List ℕ)} (h : CommonShape L acc.shape)
    (hn : ¬ ∃ sh, CommonShape (L ++ Qs.map fun Q => Q.shape) sh) :
    Qs.foldlM (fun acc x => ND.bop (fun a b => a * b) acc x) acc = (.error .valueError : Res (ND Quat)) := by
  induction Qs generalizing acc L with
  | nil => exact absurd ⟨_, by simpa using h⟩ hn
  | cons Q Qs ih =>
    rw [List.foldlM_cons]
    simp only [ND.bop]
    cases hb : ND.bshape acc.shape Q.shape with
    | none => rfl
    | some r =>
      exact ih (acc := ⟨r, _⟩) (L := L ++ [Q.shape]) (common_step h hb) (by simpa using hn)

theorem qreduce_incompatible {Qs : List (ND Quat)} (hn : ¬ ∃ sh, CommonShape (Qs.map fun Q => Q.shape) sh) : qreduce Qs = .error .valueError := by
  cases Qs with
  | nil => rfl
  | cons Q Qs => exact fold_common (L := [Q.shape]) (common_single _) (by simpa using hn)

/-- Arrays whose shapes are not compatible raise ValueError. -/
theorem C40_incompatible (qs : List (ND ℝ)) (h4 : ∀ q ∈ qs, q.shape.getLast? = some 4)
    (hn : ¬ ∃ sh, CommonShape (qs.map fun q => q.shape.dropLast) sh) : qmul (qs.map .float) = .error .valueError := by
  obtain ⟨Qs, e1, e2⟩ := toQuats_last qs h4
  have hmap : Qs.map (fun Q => Q.shape) = qs.map fun q => q.shape.dropLast := by
    clear e1 h4 hn
    induction e2 with
    | nil => rfl
    | cons h _ ih => simp only [List.map_cons, h.1, ih, stackShape]
  have r := qreduce_incompatible (Qs := Qs) (by rw [hmap]; exact hn)
  have h3 : (qs.map QArr.float).all (fun x => !x.isQuat) = true := by simp [QArr.isQuat]
  simp only [qmul]
  split_ifs
  · rfl
  · simp only [e1, bind, Except.bind, r]

/-- The same for quaternion dtype. -/
theorem C40_incompatible_dtype (qs : List (ND Quat)) (qaxis : ℤ) (hn : ¬ ∃ sh, CommonShape (qs.map fun q => q.shape) sh) :
    qmul (qs.map .quat) qaxis = .error .valueError := by
  have e1 : ∀ qs : List (ND Quat), toQuats qaxis (qs.map .quat) = .ok qs := by
    intro qs
    induction qs with
    | nil => rfl
    | cons q qs ih => simp only [List.map_cons, toQuats, ih, bind, Except.bind, Pure.pure, Except.pure]
  have r := qreduce_incompatible hn
  simp only [qmul]
  split_ifs with h1 h2 h3
  · rfl
  · simp only [e1, bind, Except.bind, r]
  · simp only [e1, bind, Except.bind, r]
  · rfl

/-- Two orientations cannot multiply three. -/
example : qmul [.quat ⟨[2], fun _ => 1⟩, .quat ⟨[3], fun _ => 1⟩] = .error .valueError := by
  refine C40_incompatible_dtype [⟨[2], fun _ => 1⟩, ⟨[3], fun _ => 1⟩] (-1) ?_
  rintro ⟨sh, h⟩
  obtain ⟨s, hs, e⟩ := h.len
  have hl : sh.length = 1 := by
    simp only [List.map_cons, List.map_nil, List.mem_cons, List.not_mem_nil, or_false] at hs
    rcases hs with rfl | rfl <;> simpa using e.symm
  have h2 := h.fits [2] (by simp) 0 (by omega)
  have h3 := h.fits [3] (by simp) 0 (by omega)
  simp [hl, padTo] at h2 h3
  omega

/-- Non-vacuous: one quaternion times three. -/
example : ∃ out, qmul [.float (Ex.arr1 [0, 1, 0, 0]), .float (Ex.arr2 4 [[1, 0, 0, 0], [0, 0, 1, 0], [0, 1, 0, 0]])] = .ok (.float out) ∧ out.shape = [3, 4] ∧
    quat4 out 1 [1, 0] = ⟨0, 0, 0, 1⟩ := by
  obtain ⟨out, h1, h2, h3⟩ := C40_broadcast [Ex.arr1 [0, 1, 0, 0], Ex.arr2 4 [[1, 0, 0, 0], [0, 0, 1, 0], [0, 1, 0, 0]]] (sh := [3]) (by simp)
    (by intro q hq; simp only [List.mem_cons, List.not_mem_nil, or_false] at hq; rcases hq with rfl | rfl <;> rfl)
    ⟨by intro s hs; simp only [List.map_cons, List.map_nil, List.mem_cons, List.not_mem_nil, or_false] at hs; rcases hs with rfl | rfl <;> simp [Ex.arr1, Ex.arr2],
     ⟨[3], by simp [Ex.arr2, Ex.arr1], rfl⟩,
     by
      intro s hs i hi
      obtain rfl : i = 0 := by simpa using hi
      simp only [List.map_cons, List.map_nil, List.mem_cons, List.not_mem_nil, or_false] at hs
      rcases hs with rfl | rfl <;> simp [Ex.arr1, Ex.arr2, padTo],
     by
      intro i hi
      obtain rfl : i = 0 := by simpa using hi
      exact ⟨[3], by simp [Ex.arr2, Ex.arr1], rfl⟩⟩
  refine ⟨out, h1, h2, (h3 [1] ⟨by norm_num, trivial⟩).trans ?_⟩
  simp only [List.map_cons, List.map_nil, List.prod_cons, List.prod_nil, mul_one]
  ext
  · rw [Quaternion.re_mul]; simp [quat4, Ex.arr1, Ex.arr2, pickFrom, pickIdx]
  · rw [Quaternion.imI_mul]; simp [quat4, Ex.arr1, Ex.arr2, pickFrom, pickIdx]
  · rw [Quaternion.imJ_mul]; simp [quat4, Ex.arr1, Ex.arr2, pickFrom, pickIdx]
  · rw [Quaternion.imK_mul]; simp [quat4, Ex.arr1, Ex.arr2, pickFrom, pickIdx]

end RBM.Props
