import Verif.Lemmas.TransformArr
import Verif.Lemmas.VelMatch
import Verif.Spec.Axes

/-!
Functions with an axis argument depend on the axis it denotes only.
-/

namespace RBM

open Spec

theorem Spec.SameAxis.norm {n : ℕ} {i j : ℤ} (h : SameAxis n i j) : normAxis i n = normAxis j n := by
  obtain ⟨p, h1, h2⟩ := h
  rw [axisIs_norm h1, axisIs_norm h2]

theorem Spec.SameAxis.symm {n : ℕ} {i j : ℤ} (h : SameAxis n i j) : SameAxis n j i := by
  obtain ⟨p, h1, h2⟩ := h
  exact ⟨p, h2, h1⟩

/-- Two computations that continue equally on every result of the first one. -/
theorem bind_same {α β} {x : Res α} {f g : α → Res β} (h : ∀ a, x = .ok a → f a = g a) : x.bind f = x.bind g := by
  cases x with
  | error e => rfl
  | ok a => exact h a rfl

theorem bind_ok' {α β} {x : Res α} {f : α → Res β} {b : β} (h : x.bind f = .ok b) : ∃ a, x = .ok a ∧ f a = .ok b := by
  cases x with
  | error e => cases h
  | ok a => exact ⟨a, rfl, h⟩

theorem pyShape_same {sh : List ℕ} {i j : ℤ} (h : normAxis i sh.length = normAxis j sh.length) : pyShape sh i = pyShape sh j := by
  simp only [pyShape, h]

theorem swapaxesZ_same {α} {a : ND α} {i i' j j' : ℤ} (h : normAxis i a.ndim = normAxis i' a.ndim) (h' : normAxis j a.ndim = normAxis j' a.ndim) :
    a.swapaxesZ i j = a.swapaxesZ i' j' := by
  simp only [ND.swapaxesZ, h, h']

theorem swapaxesZ_ndim {α} {a c : ND α} {i j : ℤ} (h : a.swapaxesZ i j = .ok c) : c.ndim = a.ndim := by
  simp only [ND.swapaxesZ] at h
  split at h
  · cases h; simp [ND.ndim, ND.swapaxes, swapL]
  · cases h

theorem bshapeEq_length {s t r : List ℕ} (h : ND.bshapeEq s t = some r) : r.length = s.length ∧ r.length = t.length := by
  induction s generalizing t r with
  | nil => cases t with
    | nil => cases h; simp
    | cons b t => simp [ND.bshapeEq] at h
  | cons a s ih => cases t with
    | nil => simp [ND.bshapeEq] at h
    | cons b t =>
      simp only [ND.bshapeEq] at h
      cases e : ND.bshapeEq s t with
      | none => rw [e] at h; cases h
      | some r' =>
        rw [e] at h
        simp only at h
        obtain ⟨h1, h2⟩ := ih e
        split_ifs at h <;> cases h <;> simp [h1, h2] <;> omega

theorem bshape_length {s t r : List ℕ} (h : ND.bshape s t = some r) : r.length = max s.length t.length := by
  have := bshapeEq_length h
  simp only [ND.padShape, List.length_append, List.length_replicate] at this
  omega

theorem bop_ndim {α β γ} {f : α → β → γ} {a : ND α} {b : ND β} {c : ND γ} (h : ND.bop f a b = .ok c) : c.ndim = max a.ndim b.ndim := by
  simp only [ND.bop] at h
  split at h
  · cases h
  · rename_i sh e
    cases h
    exact bshape_length e

theorem moveL_length {l : List ℕ} {i j : ℕ} (hi : i < l.length) (hj : j < l.length) : (moveL i j l).length = l.length := by
  simp only [moveL]
  rw [List.length_insertIdx_of_le_length (by rw [List.length_eraseIdx_of_lt hi]; omega), List.length_eraseIdx_of_lt hi]
  omega

theorem crossLast_ndim {a b c : ND ℝ} (h : crossLast a b = .ok c) : c.ndim = max a.ndim b.ndim := by
  simp only [crossLast] at h
  split at h
  · rename_i hl
    split at h
    · cases h
    · rename_i sh e
      cases h
      have h1 : a.shape ≠ [] := by intro h0; rw [h0] at hl; simp at hl
      have h2 : b.shape ≠ [] := by intro h0; rw [h0] at hl; simp at hl
      have := bshape_length e
      simp only [List.length_dropLast] at this
      simp only [ND.ndim, List.length_append, List.length_singleton]
      have := List.length_pos_of_ne_nil h1
      have := List.length_pos_of_ne_nil h2
      omega
  · cases h

theorem moveaxis_ndim {α} {a : ND α} {i j : ℕ} (hi : i < a.ndim) (hj : j < a.ndim) : (a.moveaxis i j).ndim = a.ndim :=
  moveL_length hi hj

theorem npCross_axis {a b : ND ℝ} {i j : ℤ} (hn : a.ndim = b.ndim) (h : normAxis i b.ndim = normAxis j b.ndim) : npCross a b i = npCross a b j := by
  simp only [npCross, h]
  cases e : normAxis j b.ndim with
  | none => rfl
  | some p =>
    simp only
    have hp : p < b.ndim := normAxis_lt e
    cases ec : crossLast a (b.moveaxis p (b.ndim - 1)) with
    | error e => rfl
    | ok c =>
      simp only
      have hc : c.ndim = b.ndim := by rw [crossLast_ndim ec, moveaxis_ndim hp (by omega), hn, max_self]
      rw [hc, h]

theorem npCross_ndim {a b c : ND ℝ} {i : ℤ} (hn : a.ndim = b.ndim) (h : npCross a b i = .ok c) : c.ndim = b.ndim := by
  simp only [npCross] at h
  cases e : normAxis i b.ndim with
  | none => rw [e] at h; cases h
  | some p =>
    rw [e] at h
    simp only at h
    have hp : p < b.ndim := normAxis_lt e
    cases ec : crossLast a (b.moveaxis p (b.ndim - 1)) with
    | error e => rw [ec] at h; cases h
    | ok c' =>
      rw [ec] at h
      simp only at h
      have hc : c'.ndim = b.ndim := by rw [crossLast_ndim ec, moveaxis_ndim hp (by omega), hn, max_self]
      cases e' : normAxis i c'.ndim with
      | none => rw [e'] at h; cases h
      | some pc =>
        rw [e'] at h
        cases h
        have hpc : pc < c'.ndim := normAxis_lt e'
        rw [moveaxis_ndim (by omega) hpc, hc]

theorem rotateArrayFormula_same {q : ND Quat} {v : ND ℝ} {i j : ℤ} (hq : q.ndim + 1 = v.ndim) (h : normAxis i v.ndim = normAxis j v.ndim) :
    rotateArrayFormula q v i = rotateArrayFormula q v j := by
  have hq' : q.shape.length + 1 = v.ndim := hq
  simp only [rotateArrayFormula, bind]
  rw [swapaxesZ_same (i' := -1) (j := i) (j' := j) rfl (by simp only [ND.ndim, List.length_append, List.length_singleton]; rw [hq']; exact h),
    swapaxesZ_same (i' := -1) (j := i) (j' := j) rfl (by simp only [ND.ndim, List.length_append, List.length_singleton]; rw [hq']; exact h),
    npCross_axis (i := i) (j := j) (by simp only [ND.ndim, List.length_append, List.length_singleton]; exact hq') h]
  refine bind_same fun s hs => ?_
  have hs' := swapaxesZ_ndim hs
  simp only [ND.ndim, List.length_append, List.length_singleton] at hs'
  refine bind_same fun m hm => ?_
  refine bind_same fun rxv hr => ?_
  have hr' := npCross_ndim (by simp only [ND.ndim, List.length_append, List.length_singleton]; exact hq') hr
  refine bind_same fun sv hsv => ?_
  have hsv' := bop_ndim hsv
  refine bind_same fun sum hsum => ?_
  have hsum' := bop_ndim hsum
  have hn : sum.ndim = v.ndim := by
    have : s.ndim = v.ndim := by rw [← hq']; exact hs'
    rw [hsum', hsv', hr', this]; simp
  rw [npCross_axis (i := i) (j := j) (by rw [hn]; simp only [ND.ndim, List.length_append, List.length_singleton]; exact hq') (by rw [hn]; exact h)]

theorem rotateArrayFormula_ndim {q : ND Quat} {v c : ND ℝ} {i : ℤ} (hq : q.ndim + 1 = v.ndim) (h : rotateArrayFormula q v i = .ok c) : c.ndim = v.ndim := by
  have hq' : q.shape.length + 1 = v.ndim := hq
  simp only [rotateArrayFormula, bind] at h
  obtain ⟨s, hs, h⟩ := bind_ok' h
  obtain ⟨m, hm, h⟩ := bind_ok' h
  obtain ⟨rxv, hr, h⟩ := bind_ok' h
  obtain ⟨sv, hsv, h⟩ := bind_ok' h
  obtain ⟨sum, hsum, h⟩ := bind_ok' h
  obtain ⟨cc, hcc, h⟩ := bind_ok' h
  obtain ⟨c2, hc2, h⟩ := bind_ok' h
  have hs' := swapaxesZ_ndim hs
  have hm' := swapaxesZ_ndim hm
  simp only [ND.ndim, List.length_append, List.length_singleton] at hs' hm'
  have hn : sum.ndim = v.ndim := by
    have : s.ndim = v.ndim := by rw [← hq']; exact hs'
    rw [bop_ndim hsum, bop_ndim hsv, npCross_ndim (by simp only [ND.ndim, List.length_append, List.length_singleton]; exact hq') hr, this]; simp
  have hc : cc.ndim = v.ndim := by
    rw [npCross_ndim (by rw [hn]; simp only [ND.ndim, List.length_append, List.length_singleton]; exact hq') hcc, hn]
  have : m.ndim = v.ndim := by rw [← hq']; exact hm'
  rw [bop_ndim h, bop_ndim hc2, this]
  show max v.ndim (max cc.ndim _) = _
  rw [hc]; simp

theorem quatRv_same {q : ND Quat} {v : ND ℝ} {i j : ℤ} (h : normAxis i v.ndim = normAxis j v.ndim) : quatRv q v i = quatRv q v j := by
  simp only [quatRv, h]

theorem rotateVectorsQ_same {q : ND Quat} {v : ND ℝ} {i j : ℤ} (h : normAxis i v.ndim = normAxis j v.ndim) (b : Bool) :
    rotateVectorsQ q v i b = rotateVectorsQ q v j b := by
  simp only [rotateVectorsQ]
  rw [quatRv_same h, h]
  by_cases hb : b = false ∨ q.ndim = 0
  · rw [if_pos hb, if_pos hb]
  rw [if_neg hb, if_neg hb]
  cases e : normAxis j v.ndim with
  | none => rfl
  | some p =>
    simp only
    by_cases h3 : v.shape.getD p 0 ≠ 3
    · rw [if_pos h3, if_pos h3]
    rw [if_neg h3, if_neg h3]
    by_cases hc : q.ndim ≠ v.ndim - 1 ∨ nonmatching q.shape (v.shape.eraseIdx p) = true
    · rw [if_pos hc, if_pos hc]
    rw [if_neg hc, if_neg hc]
    have hp := normAxis_lt e
    push Not at hc
    rw [rotateArrayFormula_same (i := i) (j := j) (by omega) h]

theorem rotateVectorsQ_ndim {q : ND Quat} {v c : ND ℝ} {i : ℤ} (h : rotateVectorsQ q v i = .ok c) : c.ndim = v.ndim := by
  simp only [rotateVectorsQ] at h
  by_cases hb : true = false ∨ q.ndim = 0
  · rw [if_pos hb] at h
    have h0 : q.shape = [] := List.length_eq_zero_iff.mp (by simpa [ND.ndim] using hb)
    simp only [quatRv] at h
    by_cases h1 : 3 ∉ v.shape
    · rw [if_pos h1] at h; cases h
    rw [if_neg h1] at h
    cases e : normAxis i v.ndim with
    | none => rw [e] at h; cases h
    | some p =>
      rw [e] at h
      simp only at h
      split_ifs at h <;> cases h
      simp [ND.ndim, h0]
  rw [if_neg hb] at h
  cases e : normAxis i v.ndim with
  | none => rw [e] at h; cases h
  | some p =>
    rw [e] at h
    simp only at h
    by_cases h3 : v.shape.getD p 0 ≠ 3
    · rw [if_pos h3] at h; cases h
    rw [if_neg h3] at h
    by_cases hc : q.ndim ≠ v.ndim - 1 ∨ nonmatching q.shape (v.shape.eraseIdx p) = true
    · rw [if_pos hc] at h; cases h
    rw [if_neg hc] at h
    have hp := normAxis_lt e
    push Not at hc
    cases er : rotateArrayFormula q v i with
    | error e => rw [er] at h; cases h
    | ok r =>
      rw [er] at h
      simp only at h
      split_ifs at h
      cases h
      exact rotateArrayFormula_ndim (by omega) er

theorem rotateVectorsF_same {q v : ND ℝ} {i j k l : ℤ} (h : normAxis i v.ndim = normAxis j v.ndim) (h' : normAxis k q.ndim = normAxis l q.ndim) (b : Bool) :
    rotateVectorsF q v i k b = rotateVectorsF q v j l b := by
  simp only [rotateVectorsF]
  rw [swapaxesZ_same h' rfl]
  refine bind_same fun q' _ => bind_same fun q'' _ => rotateVectorsQ_same h b

theorem rotateVectorsF_ndim {q v c : ND ℝ} {i k : ℤ} (h : rotateVectorsF q v i k = .ok c) : c.ndim = v.ndim := by
  simp only [rotateVectorsF, bind] at h
  obtain ⟨q', _, h⟩ := bind_ok' h
  obtain ⟨q'', _, h⟩ := bind_ok' h
  exact rotateVectorsQ_ndim h

end RBM
