import Verif.Model.Qinterp
import Verif.Lemmas.TransformQuat

/-!
Interpolation along any axis.
-/

namespace RBM

open Spec

theorem swapL_getD_ne {i j k : ℕ} {l : List ℕ} (hi : i < l.length) (hj : j < l.length) (h1 : k ≠ i) (h2 : k ≠ j) :
    (swapL i j l).getD k 0 = l.getD k 0 := by
  rw [swapL_getD hi hj, if_neg h2, if_neg h1]

theorem getD_set' {l : List ℕ} {p k : ℕ} (hp : p < l.length) (j : ℕ) : (l.set p k).getD j 0 = if j = p then k else l.getD j 0 := by
  simp only [List.getD_eq_getElem?_getD, List.getElem?_set]
  by_cases h : p = j
  · subst h; simp [hp]
  · rw [if_neg h, if_neg (Ne.symm h)]

theorem getD_dropLast {l : List ℕ} {j : ℕ} (hj : j + 1 < l.length) : l.dropLast.getD j 0 = l.getD j 0 := by
  simp only [List.getD_eq_getElem?_getD, List.getElem?_dropLast]
  rw [if_pos (by omega)]

/-- Position of axis `d` after exchanging axis `p` with the last one. -/
def swappedAxis (n p d : ℕ) : ℕ := if d + 1 = n then p else d

theorem swappedAxis_lt {n p d : ℕ} (hp : p < n) (hd : d < n) (hne : d ≠ p) : swappedAxis n p d + 1 < n := by
  unfold swappedAxis; split <;> omega

/-- Reading the quaternion index of `idx` with another sample along axis `d`. -/
theorem swapped_set {idx : List ℕ} {n p d : ℕ} (hl : idx.length = n) (hp : p < n) (hd : d < n) (hne : d ≠ p) (k : ℕ) :
    (swapL (n - 1) p (idx.set d k)).dropLast = (swapL (n - 1) p idx).dropLast.set (swappedAxis n p d) k := by
  have h1 : n - 1 < idx.length := by omega
  have hpl : p < idx.length := by omega
  have hdl : d < idx.length := by omega
  have hlt := swappedAxis_lt hp hd hne
  apply list_ext_getD (by simp)
  intro j hj
  simp only [List.length_dropLast, swapL_length, List.length_set, hl] at hj
  rw [getD_dropLast (by simp; omega), swapL_getD (by simpa using h1) (by simpa using hpl)]
  have hr : (swapL (n - 1) p idx).dropLast.length = n - 1 := by simp [hl]
  rw [getD_set' (l := (swapL (n - 1) p idx).dropLast) (by omega) j, getD_dropLast (by simp; omega), swapL_getD h1 hpl]
  simp only [getD_set' hdl]
  unfold swappedAxis
  split_ifs <;> first | rfl | omega

theorem swapped_getD {idx : List ℕ} {n p d : ℕ} (hl : idx.length = n) (hp : p < n) (hd : d < n) (hne : d ≠ p) :
    (swapL (n - 1) p idx).dropLast.getD (swappedAxis n p d) 0 = idx.getD d 0 := by
  have hlt := swappedAxis_lt hp hd hne
  rw [getD_dropLast (by simp; omega), swapL_getD (by omega) (by omega)]
  unfold swappedAxis
  split_ifs <;> first | rfl | omega | (congr 1; omega)

theorem swap0_set {l : List ℕ} {d k : ℕ} (hd : d < l.length) : swapL d 0 (k :: (swapL 0 d l).drop 1) = l.set d k := by
  have h0 : 0 < l.length := by omega
  have hlen : (k :: (swapL 0 d l).drop 1).length = l.length := by simp; omega
  apply list_ext_getD (by simp; omega)
  intro j hj
  simp only [swapL_length, hlen] at hj
  rw [swapL_getD (by omega) (by omega), getD_set' hd]
  have key : ∀ i, (k :: (swapL 0 d l).drop 1).getD i 0 = if i = 0 then k else (swapL 0 d l).getD i 0 := by
    intro i
    cases i with
    | zero => simp
    | succ i => simp [List.getD_eq_getElem?_getD, List.getElem?_drop, Nat.add_comm]
  simp only [key, swapL_getD h0 hd]
  split_ifs <;> first | rfl | omega | (simp_all)

theorem swap0_head {l : List ℕ} {d : ℕ} (hd : d < l.length) : (swapL 0 d l).getD 0 0 = l.getD d 0 := by
  rw [swapL_getD (by omega) hd]
  by_cases h : 0 = d
  · rw [if_pos h, ← h]
  · rw [if_neg h, if_pos rfl]

theorem prod_ne_zero_of {l : List ℕ} (h : ∀ n ∈ l, n ≠ 0) : l.prod ≠ 0 := by
  rw [ne_eq, List.prod_eq_zero_iff]
  exact fun h0 => h 0 h0 rfl

theorem mem_swapL {i j : ℕ} {l : List ℕ} (hi : i < l.length) (hj : j < l.length) {x : ℕ} (hx : x ∈ swapL i j l) : x ∈ l := by
  simp only [swapL] at hx
  have hm : ∀ k, k < l.length → l.getD k 0 ∈ l := by
    intro k hk; rw [List.getD_eq_getElem?_getD, List.getElem?_eq_getElem hk]; exact List.getElem_mem hk
  rcases List.mem_or_eq_of_mem_set hx with h | h
  · rcases List.mem_or_eq_of_mem_set h with h | h
    · exact h
    · rw [h]; exact hm j hj
  · rw [h]; exact hm i hi

/-- Interpolation of an array of quaternion dtype along axis `d`. -/
theorem interpAxis_spec (sq : SquadFn) (Q : ND Quat) {d : ℕ} (hd : d < Q.ndim) {tin tout : List ℝ} (hne : ∀ n ∈ Q.shape, n ≠ 0) (hout : tout ≠ [])
    (hin : tin.length = Q.shape.getD d 0) (h2 : 2 ≤ tin.length) :
    ∃ R, interpAxis sq Q tin tout d = .ok R ∧ R.shape = Q.shape.set d tout.length ∧ ∀ i, i.length = Q.ndim →
      R.get i = sq ((List.range tin.length).map fun k => Q.get (i.set d k)) tin (tout.getD (i.getD d 0) 0) := by
  have hd' : d < Q.shape.length := hd
  have h0 : 0 < Q.ndim := by omega
  have h0' : 0 < Q.shape.length := h0
  have e1 : Q.swapaxesZ (d : ℤ) 0 = .ok (Q.swapaxes d 0) := by
    simp only [ND.swapaxesZ, normAxis_nat hd, normAxis_zero h0]
  have hhead : (swapL d 0 Q.shape).getD 0 0 = Q.shape.getD d 0 := by
    rw [swapL_comm hd' (by omega), swap0_head hd']
  obtain ⟨n, rest, hsh⟩ : ∃ n rest, swapL d 0 Q.shape = n :: rest := by
    cases hc : swapL d 0 Q.shape with
    | nil => have := congrArg List.length hc; rw [swapL_length] at this; simp only [List.length_nil] at this; omega
    | cons n rest => exact ⟨n, rest, rfl⟩
  have hn : n = tin.length := by rw [hin, ← hhead, hsh]; rfl
  have hprod : (n :: rest).prod ≠ 0 := by
    apply prod_ne_zero_of
    intro y hy
    rw [← hsh] at hy
    exact hne y (mem_swapL hd' (by omega) hy)
  have e2 : squadAxis0 sq (Q.swapaxes d 0) tin tout = .ok ⟨tout.length :: rest, fun idx =>
      sq ((List.range n).map fun i => (Q.swapaxes d 0).get (i :: idx.drop 1)) tin (tout.getD (idx.getD 0 0) 0)⟩ := by
    simp only [squadAxis0, ND.swapaxes, hsh]
    rw [if_neg (by simp only [not_or]; exact ⟨hprod, hout⟩), if_neg (by simp [hn]), if_neg (by omega)]
  have hrl : (tout.length :: rest).length = Q.shape.length := by
    have := congrArg List.length hsh
    simp at this ⊢; omega
  set R0 : ND Quat := ⟨tout.length :: rest, fun idx =>
      sq ((List.range n).map fun i => (Q.swapaxes d 0).get (i :: idx.drop 1)) tin (tout.getD (idx.getD 0 0) 0)⟩ with hR0
  have hR0n : R0.ndim = Q.shape.length := hrl
  have e3 : R0.swapaxesZ 0 (d : ℤ) = .ok (R0.swapaxes 0 d) := by
    simp only [ND.swapaxesZ, normAxis_nat (show d < R0.ndim by omega), normAxis_zero (show 0 < R0.ndim by omega)]
  refine ⟨R0.swapaxes 0 d, ?_, ?_, ?_⟩
  · simp only [interpAxis, e1, e2, bind, Except.bind]
    exact e3
  · show swapL 0 d (tout.length :: rest) = _
    have hr : rest = (swapL 0 d Q.shape).drop 1 := by rw [swapL_comm (by omega) hd', hsh]; rfl
    rw [swapL_comm (by omega) (by omega), hr, swap0_set hd']
  · intro i hi
    have hdi : d < i.length := by omega
    show sq ((List.range n).map fun k => Q.get (swapL d 0 (k :: (swapL 0 d i).drop 1))) tin (tout.getD ((swapL 0 d i).getD 0 0) 0) = _
    rw [swap0_head hdi, hn]
    simp only [swap0_set hdi]

end RBM
