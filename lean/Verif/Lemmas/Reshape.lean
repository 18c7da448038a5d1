import Verif.Lemmas.Fit
import Verif.Lemmas.ND
import Verif.Lemmas.TransformArr
import Verif.Spec.Plumbing

/-!
Flattening of arrays to rows (`_reshape_vectors`).
-/

namespace RBM

open RBM.Spec

theorem mem_allIdx {sh idx : List ℕ} : idx ∈ allIdx sh ↔ Valid sh idx := by
  induction sh generalizing idx with
  | nil => cases idx <;> simp [allIdx, Valid]
  | cons n sh ih =>
    cases idx with
    | nil => simp [allIdx, Valid]
    | cons i idx =>
      simp only [allIdx, List.mem_flatMap, List.mem_range, List.mem_map, Valid]
      constructor
      · rintro ⟨a, ha, l, hl, e⟩
        obtain ⟨rfl, rfl⟩ := List.cons.inj e
        exact ⟨ha, ih.mp hl⟩
      · rintro ⟨ha, hl⟩
        exact ⟨i, ha, idx, ih.mpr hl, rfl⟩

theorem nodup_allIdx (sh : List ℕ) : (allIdx sh).Nodup := by
  induction sh with
  | nil => simp [allIdx]
  | cons n sh ih =>
    rw [allIdx, List.nodup_flatMap]
    refine ⟨fun i _ => ih.map fun a b h => (List.cons.inj h).2, ?_⟩
    refine (List.nodup_range (n := n)).imp_of_mem ?_
    intro a b _ _ hab l h1 h2
    obtain ⟨x, -, rfl⟩ := List.mem_map.mp h1
    obtain ⟨y, -, e⟩ := List.mem_map.mp h2
    exact hab (List.cons.inj e).1.symm

theorem swapL_set_swap {p m k : ℕ} {l : List ℕ} (hp : p < l.length) (hm : m < l.length) :
    (swapL p m l).set p k = swapL p m (l.set m k) := by
  apply list_ext_getD (by simp)
  intro j hj
  rw [swapL_getD (by simpa) (by simpa)]
  simp only [List.getD_eq_getElem?_getD, List.getElem?_set]
  have e := fun j => swapL_getD hp hm j
  simp only [List.getD_eq_getElem?_getD] at e
  grind [swapL_length]

theorem swapL_set_swap' {p m k : ℕ} {l : List ℕ} (hp : p < l.length) (hm : m < l.length) :
    swapL p m (l.set p k) = (swapL p m l).set m k := by
  apply list_ext_getD (by simp)
  intro j hj
  rw [swapL_getD (by simpa) (by simpa)]
  simp only [List.getD_eq_getElem?_getD, List.getElem?_set]
  have e := fun j => swapL_getD hp hm j
  simp only [List.getD_eq_getElem?_getD] at e
  grind [swapL_length]

theorem dropLast_snoc {l : List ℕ} (h : 0 < l.length) : l.dropLast ++ [l.getD (l.length - 1) 0] = l := by
  conv_rhs => rw [← List.dropLast_append_getLast (List.ne_nil_of_length_pos h)]
  rw [List.getLast_eq_getElem, List.getD_eq_getElem?_getD, List.getElem?_eq_getElem (by omega)]
  rfl

/-- The positions used by the code. -/
def rowIds (sh : List ℕ) (p : ℕ) : List (List ℕ) :=
  (allIdx (swapL p (sh.length - 1) sh).dropLast).map fun i => swapL p (sh.length - 1) (i ++ [0])

theorem rowIds_length {sh : List ℕ} {p : ℕ} (hp : p < sh.length) {i : List ℕ}
    (hi : i ∈ allIdx (swapL p (sh.length - 1) sh).dropLast) : (i ++ [0]).length = sh.length := by
  have := (mem_allIdx.mp hi).length
  simp at this ⊢
  omega

theorem rowIds_lists {sh : List ℕ} {p : ℕ} (hp : p < sh.length) : Lists (rowIds sh p) sh p := by
  have hm : sh.length - 1 < sh.length := by omega
  constructor
  · refine (List.nodup_map_iff_inj_on (nodup_allIdx _)).mpr ?_
    intro i hi j hj e
    have li := rowIds_length hp hi
    have lj := rowIds_length hp hj
    have := congrArg (swapL p (sh.length - 1)) e
    rw [swapL_swapL (by omega) (by omega), swapL_swapL (by omega) (by omega)] at this
    exact List.append_inj_left' this rfl
  · intro idx
    have key : swapL p (sh.length - 1) (sh.set p 1) = (swapL p (sh.length - 1) sh).dropLast ++ [1] := by
      rw [swapL_set_swap' hp hm]
      have h0 : 0 < (swapL p (sh.length - 1) sh).length := by simp; omega
      conv_lhs => rw [← dropLast_snoc h0]
      rw [List.set_append_right _ _ (by simp)]
      simp
    rw [rowIds, List.mem_map]
    constructor
    · rintro ⟨i, hi, rfl⟩
      have li := rowIds_length hp hi
      rw [← valid_swapL_iff (by simpa) (by simp; omega), key]
      exact valid_snoc_mk (mem_allIdx.mp hi) Nat.one_pos
    · intro hv
      have hl := hv.length
      simp only [List.length_set] at hl
      have h2 := valid_swapL (by simpa) (by simp; omega) hv (i := p) (j := sh.length - 1)
      rw [key] at h2
      obtain ⟨i, j, hi, hj, e⟩ : ∃ i j, Valid (swapL p (sh.length - 1) sh).dropLast i ∧ j < 1 ∧ swapL p (sh.length - 1) idx = i ++ [j] := by
        obtain ⟨h3, h4⟩ := valid_snoc h2
        have h0 : 0 < (swapL p (sh.length - 1) idx).length := by simp; omega
        obtain ⟨i, j, e⟩ : ∃ i j, swapL p (sh.length - 1) idx = i ++ [j] := ⟨_, _, (dropLast_snoc h0).symm⟩
        rw [e] at h2
        obtain ⟨a, b⟩ := (valid_append (by
          have := congrArg List.length e
          simp at this ⊢
          omega)).mp h2
        exact ⟨i, j, a, b.1, e⟩
      obtain rfl : j = 0 := by omega
      refine ⟨i, mem_allIdx.mpr hi, ?_⟩
      rw [← e, swapL_swapL (by omega) (by omega)]

/-- The rows after swapping axis `p` to the end. -/
theorem rows3_swap {a : ND ℝ} {p : ℕ} (hp : p < a.ndim) :
    (a.swapaxes p (a.ndim - 1)).rows3 = (rowIds a.shape p).map (vec3 a p) := by
  rw [ND.rows3, rowIds, List.map_map]
  apply List.map_congr_left
  intro i hi
  have li := rowIds_length hp hi
  have hm : a.shape.length - 1 < a.shape.length := by rw [ND.ndim] at hp; omega
  simp only [ND.swapaxes, Function.comp, vec3, ND.ndim]
  have : ∀ k, (swapL p (a.shape.length - 1) (i ++ [0])).set p k = swapL p (a.shape.length - 1) (i ++ [k]) := by
    intro k
    rw [swapL_set_swap (by rw [li]; exact hp) (by rw [li]; exact hm)]
    congr 1
    have : a.shape.length - 1 = i.length := by simp at li; omega
    rw [this, List.set_append_right _ _ (by simp)]
    simp
  rw [this, this, this]

/-- Two listings of the same positions are permutations of each other. -/
theorem Spec.Lists.perm {l m : List (List ℕ)} {sh : List ℕ} {p : ℕ} (h1 : Lists l sh p) (h2 : Lists m sh p) : l.Perm m :=
  (List.perm_ext_iff_of_nodup h1.1 h2.1).mpr fun a => (h1.2 a).trans (h2.2 a).symm

theorem best_perm {l m : List (Vec × Vec)} (h : l.Perm m) {q : Quat} (hb : IsBestRotation l q) : IsBestRotation m q := by
  refine ⟨hb.1, fun p hp => ?_⟩
  rw [← (h.map _).sum_eq, ← (h.map _).sum_eq]
  exact hb.2 p hp

theorem bestMotion_perm {l m : List (Vec × Vec)} (h : l.Perm m) {P : Pose} (hb : IsBestMotion l P) : IsBestMotion m P := by
  refine ⟨hb.1, fun p hp => ?_⟩
  rw [← (h.map _).sum_eq, ← (h.map _).sum_eq]
  exact hb.2 p hp

theorem corr_perm {l m : List (Vec × Vec)} (h : l.Perm m) : corr l = corr m := by
  ext i j
  exact (h.map _).sum_eq

theorem zip_map_same {α β γ : Type _} (f : α → β) (g : α → γ) (l : List α) : (l.map f).zip (l.map g) = l.map fun i => (f i, g i) := by
  induction l with
  | nil => rfl
  | cons a l ih => simp [ih]

/-- `_reshape_vectors`. -/
theorem reshape_ok {v1 v2 : PyArr} {axis : Option ℤ} {dim : Option String} {same : Bool} {u : Unpacked} {w : ND ℝ} {x y}
    (hu : maybeUnpack v1 dim axis none .no = .ok u) (hw : unpackNoTime v2 none (some u.axis) = .ok (w, x, y)) {p p' : ℕ}
    (hp : AxisIs u.axis u.arr.ndim p) (hp' : AxisIs u.axis w.ndim p') (h1 : u.arr.shape.getD p 0 = 3)
    (h2 : w.shape.getD p' 0 = 3) (hn : 2 ≤ u.arr.ndim)
    (hs : same = true → (rowIds u.arr.shape p).length = (rowIds w.shape p').length) :
    reshapeVectors v1 v2 axis dim same =
      .ok ((rowIds u.arr.shape p).map (vec3 u.arr p), (rowIds w.shape p').map (vec3 w p'), u.info.isSome) := by
  have e1 := axisIs_norm hp
  have e2 := axisIs_norm hp'
  have hpn : 0 < u.arr.ndim := by omega
  have hpn' : 0 < w.ndim := by have := hp'.1; omega
  have s1 : u.arr.swapaxesZ u.axis (-1) = .ok (u.arr.swapaxes p (u.arr.ndim - 1)) := by
    simp only [ND.swapaxesZ, e1, normAxis_neg_one hpn]
  have s2 : w.swapaxesZ u.axis (-1) = .ok (w.swapaxes p' (w.ndim - 1)) := by
    simp only [ND.swapaxesZ, e2, normAxis_neg_one hpn']
  have k1 : pyShape u.arr.shape u.axis = .ok 3 := by rw [pyShape_ok e1, h1]
  have k2 : pyShape w.shape u.axis = .ok 3 := by rw [pyShape_ok e2, h2]
  have hlen : ¬ (same = true ∧ (u.arr.swapaxes p (u.arr.ndim - 1)).rows3.length ≠ (w.swapaxes p' (w.ndim - 1)).rows3.length) := by
    rw [rows3_swap hp.1, rows3_swap hp'.1]
    simp only [List.length_map]
    rintro ⟨a, b⟩
    exact b (hs a)
  rw [rows3_swap hp.1, rows3_swap hp'.1] at hlen
  simp only [reshapeVectors, hu, hw, k1, k2, s1, s2, bind, Except.bind, Pure.pure, Except.pure, rows3_swap hp.1, rows3_swap hp'.1]
  rw [if_neg (by simp), if_neg (by omega), if_neg hlen]

end RBM
