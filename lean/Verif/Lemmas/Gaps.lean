import Verif.Spec.Gaps
import Verif.Lemmas.Velocity

namespace RBM

open Spec

theorem valid_swapL' {a b : ℕ} {sh idx : List ℕ} (ha : a < sh.length) (hb : b < sh.length) (hv : Valid (swapL a b sh) idx) :
    Valid sh (swapL a b idx) := by
  have := valid_swapL (i := a) (j := b) (by simpa using ha) (by simpa using hb) hv
  rwa [swapL_swapL ha hb] at this

/-- Where position `q` of a swapped index comes from. -/
theorem swapL_pos {n pa p : ℕ} (hpa : pa < n) (hp : p < n) (hne : pa ≠ p) {idx : List ℕ} (hl : idx.length = n) :
    (swapL pa (n - 1) idx).getD (if p + 1 = n then pa else p) 0 = idx.getD p 0 := by
  rw [swapL_getD (by omega) (by omega)]
  split_ifs <;> first | rfl | (congr 1; omega) | omega

theorem nanAt_swap {arr : ND (Option ℝ)} {pa p : ℕ} (hpa : pa < arr.ndim) (hp : p < arr.ndim) (hne : pa ≠ p) (i : ℕ) :
    NanAt (arr.swapaxes pa (arr.ndim - 1)) (if p + 1 = arr.ndim then pa else p) i ↔ NanAt arr p i := by
  have hla : arr.ndim - 1 < arr.shape.length := by show _ < arr.ndim; omega
  constructor
  · rintro ⟨idx, h1, h2, h3⟩
    have hv := valid_swapL' (sh := arr.shape) hpa hla h1
    refine ⟨swapL pa (arr.ndim - 1) idx, hv, ?_, h3⟩
    have hl : idx.length = arr.ndim := by have := h1.length; simpa [ND.swapaxes, ND.ndim] using this
    have hpos := swapL_pos hpa hp hne (idx := swapL pa (arr.ndim - 1) idx) (by simp [hl])
    rw [swapL_swapL (by rw [hl]; exact hpa) (by rw [hl]; omega), h2] at hpos
    exact hpos.symm
  · rintro ⟨idx, h1, h2, h3⟩
    refine ⟨swapL pa (arr.ndim - 1) idx, valid_swapL hpa hla h1, ?_, ?_⟩
    · rw [swapL_pos hpa hp hne h1.length, h2]
    · show arr.get (swapL _ _ (swapL _ _ idx)) = none
      rw [swapL_swapL (by rw [h1.length]; exact hpa) (by rw [h1.length]; exact hla), h3]

theorem validRows_mem {r : ND (Option ℝ)} {p i : ℕ} : i ∈ validRows r p ↔ i < r.shape.getD p 0 ∧ ¬ NanAt r p i := by
  simp [validRows]

theorem validRows_sorted (r : ND (Option ℝ)) (p : ℕ) : (validRows r p).Pairwise (· < ·) :=
  List.Pairwise.filter _ List.pairwise_lt_range

/-- Increasing lists with the same members are equal. -/
theorem sorted_ext {l m : List ℕ} (hl : l.Pairwise (· < ·)) (hm : m.Pairwise (· < ·)) (h : ∀ i, i ∈ l ↔ i ∈ m) : l = m := by
  have hp : l.Perm m := (List.perm_ext_iff_of_nodup (hl.imp fun h => Nat.ne_of_lt h) (hm.imp fun h => Nat.ne_of_lt h)).mpr h
  exact hp.eq_of_pairwise (fun a b _ _ h1 h2 => by omega) hl hm

theorem Spec.Present.rows {arr : ND (Option ℝ)} {p : ℕ} {ks : List ℕ} (h : Present arr p ks) : validRows arr p = ks := by
  refine sorted_ext (validRows_sorted arr p) h.sorted fun i => ?_
  rw [validRows_mem, h.mem]
  refine and_congr_right fun _ => ⟨fun h idx hv hi hn => h ⟨idx, hv, hi, hn⟩, fun h ⟨idx, hv, hi, hn⟩ => h idx hv hi hn⟩

theorem Spec.Present.rows_swap {arr : ND (Option ℝ)} {pa p : ℕ} {ks : List ℕ} (h : Present arr p ks) (hpa : pa < arr.ndim) (hp : p < arr.ndim)
    (hne : pa ≠ p) : validRows (arr.swapaxes pa (arr.ndim - 1)) (if p + 1 = arr.ndim then pa else p) = ks := by
  rw [← h.rows]
  refine sorted_ext (validRows_sorted _ _) (validRows_sorted arr p) fun i => ?_
  rw [validRows_mem, validRows_mem, nanAt_swap hpa hp hne]
  have : (arr.swapaxes pa (arr.ndim - 1)).shape.getD (if p + 1 = arr.ndim then pa else p) 0 = arr.shape.getD p 0 :=
    swapL_pos hpa hp hne (idx := arr.shape) rfl
  rw [this]

theorem present_validRows (arr : ND (Option ℝ)) (p : ℕ) : Present arr p (validRows arr p) :=
  ⟨validRows_sorted arr p, fun i => by
    rw [validRows_mem]
    refine and_congr_right fun _ => ⟨fun h idx hv hi hn => h ⟨idx, hv, hi, hn⟩, fun h ⟨idx, hv, hi, hn⟩ => h idx hv hi hn⟩⟩

theorem angularFromDerivative_congr {ext : Ext} {A B : ND ℝ} {n p : ℕ} (hs : A.shape = B.shape) (h0 : 0 < n)
    (hg : ∀ idx : List ℕ, idx.length = n → A.get idx = B.get idx) (ts : List ℝ) {idx : List ℕ} (hl : idx.length = n) :
    (angularFromDerivative ext A ts p).get idx = (angularFromDerivative ext B ts p).get idx := by
  have hl' : ∀ c : ℕ, (idx.dropLast ++ [c]).length = n := fun c => by simp [hl]; omega
  have hlane : ∀ c : ℕ, A.lane p (idx.dropLast ++ [c]) = B.lane p (idx.dropLast ++ [c]) := by
    intro c
    simp only [ND.lane, hs]
    exact List.map_congr_left fun i _ => hg _ (by simp only [List.length_set]; exact hl' c)
  simp only [angularFromDerivative, hg _ (hl' _), hlane]

theorem takeRows_swap {arr : ND (Option ℝ)} {pa p : ℕ} (hpa : pa < arr.ndim) (hp : p < arr.ndim) (hne : pa ≠ p) (ks : List ℕ) :
    ((arr.swapaxes pa (arr.ndim - 1)).takeRows (if p + 1 = arr.ndim then pa else p) ks).fill.shape =
        ((arr.takeRows p ks).fill.swapaxes pa (arr.ndim - 1)).shape ∧
      ∀ idx : List ℕ, idx.length = arr.ndim → ((arr.swapaxes pa (arr.ndim - 1)).takeRows (if p + 1 = arr.ndim then pa else p) ks).fill.get idx =
        ((arr.takeRows p ks).fill.swapaxes pa (arr.ndim - 1)).get idx := by
  constructor
  · show (swapL pa (arr.ndim - 1) arr.shape).set _ _ = swapL pa (arr.ndim - 1) (arr.shape.set p ks.length)
    exact (swapL_set (idx := arr.shape) (d := arr.ndim) rfl hpa hp hne).symm
  · intro idx hl
    obtain ⟨jdx, rfl, hj⟩ : ∃ jdx : List ℕ, swapL pa (arr.ndim - 1) jdx = idx ∧ jdx.length = arr.ndim :=
      ⟨swapL pa (arr.ndim - 1) idx, swapL_swapL (by rw [hl]; exact hpa) (by rw [hl]; omega), by simp [hl]⟩
    show (arr.get (swapL pa (arr.ndim - 1) ((swapL pa (arr.ndim - 1) jdx).set _ (ks.getD ((swapL pa (arr.ndim - 1) jdx).getD _ 0) 0)))).getD 0 = (arr.get ((swapL pa (arr.ndim - 1) (swapL pa (arr.ndim - 1) jdx)).set p _)).getD 0
    have e1 : swapL pa (arr.ndim - 1) (swapL pa (arr.ndim - 1) jdx) = jdx := swapL_swapL (by rw [hj]; exact hpa) (by rw [hj]; omega)
    rw [swapL_pos hpa hp hne hj, ← swapL_set hj hpa hp hne, e1, swapL_swapL (by simp only [List.length_set]; omega) (by simp only [List.length_set]; omega)]

theorem getD_idx {l : List ℕ} {k i : ℕ} (h : l[k]? = some i) : l.getD k 0 = i := by
  rw [List.getD_eq_getElem?_getD, h]; rfl

theorem idxOf_sorted {l : List ℕ} (hl : l.Pairwise (· < ·)) {k i : ℕ} (h : l[k]? = some i) : l.idxOf i = k := by
  obtain ⟨hk, e⟩ := List.getElem?_eq_some_iff.mp h
  have hnd : l.Nodup := hl.imp fun h => Nat.ne_of_lt h
  rw [← e]
  exact hnd.idxOf_getElem k hk

/-- The estimate in quaternion mode before outlier handling and filtering. -/
theorem rawGaps_quat (ext : Ext) {arr : ND (Option ℝ)} {pa p : ℕ} {ts : List ℝ} {ks : List ℕ} (hpr : Present arr p ks)
    (hacc : ext.derivErr (ks.map fun i => ts.getD i 0) = none) (hpa : pa < arr.ndim) (hp : p < arr.ndim) (hne : pa ≠ p)
    (h4 : arr.shape.getD pa 0 = 4) (hn : arr.shape.getD p 0 = ts.length) :
    ∃ v, rawAngularGaps ext (arr.swapaxes pa (arr.ndim - 1)) ts (if p + 1 = arr.ndim then pa else p) "quaternion" = .ok v ∧
      v.shape = swapL pa (arr.ndim - 1) (arr.shape.set pa 3) ∧
      (∀ idx : List ℕ, idx.length = arr.ndim → idx.getD p 0 ∉ ks → v.get (swapL pa (arr.ndim - 1) idx) = none) ∧
      ∀ idx : List ℕ, idx.length = arr.ndim → ∀ k i : ℕ, ks[k]? = some i → ∀ j, v.get (swapL pa (arr.ndim - 1) ((idx.set p i).set pa j)) =
        some (qcomp ((2 : ℝ) • (star (quat4 (arr.takeRows p ks).fill pa (idx.set p k)) *
          quatRate ext (arr.takeRows p ks).fill pa p (ks.map fun i => ts.getD i 0) (idx.set p k))) (j + 1)) := by
  have hdim : (arr.takeRows p ks).fill.ndim = arr.ndim := by simp [ND.fill, ND.map, ND.takeRows, ND.ndim]
  have hA4 : (arr.takeRows p ks).fill.shape.getD pa 0 = 4 := by
    show (arr.shape.set p ks.length).getD pa 0 = 4
    rw [getD_set hp, if_neg hne, h4]
  have hAn : (arr.takeRows p ks).fill.shape.getD p 0 = (ks.map fun i => ts.getD i 0).length := by
    show (arr.shape.set p ks.length).getD p 0 = _
    rw [getD_set hp, if_pos rfl]; simp
  obtain ⟨raw, r1, r2, r3⟩ := rawAngular_quat (arr := (arr.takeRows p ks).fill) ext hacc (by rw [hdim]; exact hpa) (by rw [hdim]; exact hp) hne hA4 hAn
  rw [hdim] at r1 r2 r3
  have hraw : raw = angularFromDerivative ext ((arr.takeRows p ks).fill.swapaxes pa (arr.ndim - 1)) (ks.map fun i => ts.getD i 0) (if p + 1 = arr.ndim then pa else p) := by
    generalize (if p + 1 = arr.ndim then pa else p) = p' at r1 ⊢
    rw [rawAngular, if_pos rfl] at r1
    by_cases h1 : (ks.map fun i => ts.getD i 0).length ≠ ((arr.takeRows p ks).fill.swapaxes pa (arr.ndim - 1)).shape.getD p' 0
    · rw [if_pos h1] at r1; cases r1
    · rw [if_neg h1, hacc] at r1
      by_cases h2 : ((arr.takeRows p ks).fill.swapaxes pa (arr.ndim - 1)).shape.getLast? ≠ some 4
      · simp only [if_pos h2] at r1; cases r1
      · simp only [if_neg h2] at r1; exact (Except.ok.inj r1).symm
  obtain ⟨t1, t2⟩ := takeRows_swap hpa hp hne ks
  have hrows := hpr.rows_swap hpa hp hne
  refine ⟨scatterRows (swapL pa (arr.ndim - 1) (arr.shape.set pa 3)) (if p + 1 = arr.ndim then pa else p) ks
    (angularFromDerivative ext ((arr.swapaxes pa (arr.ndim - 1)).takeRows (if p + 1 = arr.ndim then pa else p) ks).fill (ks.map fun i => ts.getD i 0)
      (if p + 1 = arr.ndim then pa else p)), ?_, rfl, ?_, ?_⟩
  · have hl4 : (arr.swapaxes pa (arr.ndim - 1)).shape.getLast? = some 4 := swapped_getLast (arr := arr.fill) hpa h4
    have hd3 : (arr.swapaxes pa (arr.ndim - 1)).shape.dropLast ++ [3] = swapL pa (arr.ndim - 1) (arr.shape.set pa 3) := swapped_drop3 (arr := arr.fill) hpa
    have hpt : (arr.swapaxes pa (arr.ndim - 1)).shape.getD (if p + 1 = arr.ndim then pa else p) 0 = arr.shape.getD p 0 :=
      swapL_pos hpa hp hne (idx := arr.shape) rfl
    rw [rawAngularGaps, if_pos rfl, if_neg (by rw [hpt, hn]; simp)]
    simp only [hrows, hacc]
    rw [if_neg (by rw [hl4]; simp), hd3]
  · intro idx hl hnk
    simp only [scatterRows, swapL_pos hpa hp hne hl]
    exact if_neg hnk
  · intro idx hl k i hki j
    have hlen : ((idx.set p i).set pa j).length = arr.ndim := by simp [hl]
    have hpos : ((idx.set p i).set pa j).getD p 0 = i := by
      rw [getD_set (by simp only [List.length_set]; omega), if_neg hne.symm, getD_set (by omega), if_pos rfl]
    simp only [scatterRows, swapL_pos hpa hp hne hlen, hpos]
    rw [if_pos (List.mem_of_getElem? hki), idxOf_sorted hpr.sorted hki, ← swapL_set hlen hpa hp hne,
      angularFromDerivative_congr t1 (by omega) t2 _ (by simp [hl]), ← hraw]
    have : (((idx.set p i).set pa j).set p k) = (idx.set p k).set pa j := by
      rw [List.set_comm _ _ hne, List.set_set]
    rw [this, r3 _ (by simp [hl])]

end RBM
