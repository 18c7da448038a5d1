import Verif.Lemmas.TransformArr

namespace RBM

open Spec

theorem bcast_ones (l : List ℕ) : Bcast (List.replicate l.length 1) l := by
  induction l with
  | nil => exact .nil
  | cons x l ih => exact .cons (.inr rfl) ih

theorem bidx_ones (l : List ℕ) : ND.bidx (List.replicate l.length 1) l = List.replicate l.length 0 := by
  induction l with
  | nil => rfl
  | cons x l ih => simp [List.replicate_succ, ND.bidx, ih]

/-- Adding a single translation along the last axis. -/
theorem add_one_vec (R : ND ℝ) {sh : List ℕ} (hs : R.shape = sh ++ [3]) (t : Vec) :
    ∃ S, ND.bop (fun x y => x + y) R (ND.ofVecs (.one t)) = .ok S ∧ S.shape = R.shape ∧
      ∀ i k, Valid sh i → k < 3 → S.get (i ++ [k]) = R.get (i ++ [k]) + t (Fin.ofNat 3 k) := by
  have hb : Bcast (List.replicate (R.shape.length - [3].length) 1 ++ [3]) R.shape := by
    rw [hs]
    simp only [List.length_append, List.length_singleton, Nat.add_sub_cancel]
    exact (bcast_ones sh).append (.cons (.inl rfl) .nil)
  refine ⟨⟨R.shape, fun idx => R.bget idx + (ND.ofVecs (.one t)).bget idx⟩, ?_, rfl, ?_⟩
  · simp only [ND.bop]
    rw [show (ND.ofVecs (.one t)).shape = [3] from rfl, bshape_pad' hb]
  · intro i k hi hk
    have hv : Valid R.shape (i ++ [k]) := by rw [hs]; exact valid_snoc_mk hi hk
    simp only
    rw [bget_valid R hv]
    congr 1
    simp [ND.bget, ND.ofVecs, ND.ndim, ND.bidx]

/-- Adding a series of translations along the last axis, one per first index. -/
theorem add_many_vec (R : ND ℝ) {n : ℕ} {sh : List ℕ} (hs : R.shape = n :: (sh ++ [3])) (tl : List Vec)
    (hl : tl.length = n ∨ tl.length = 1) :
    ∃ S, ND.bop (fun x y => x + y) R (expandSingletonAxes (ND.ofVecs (.many tl)) R.ndim) = .ok S ∧ S.shape = R.shape ∧
      ∀ i js k, i < n → Valid sh js → k < 3 → S.get (i :: (js ++ [k])) = R.get (i :: (js ++ [k])) +
        tl.getD (if tl.length = 1 then 0 else i) 0 (Fin.ofNat 3 k) := by
  have hd : R.ndim = sh.length + 2 := by simp [ND.ndim, hs]
  obtain ⟨h1, h2⟩ := expand_iter (ND.ofVecs (.many tl)) (n := tl.length) (rest := [3]) rfl (R.ndim - 2)
  have e : expandSingletonAxes (ND.ofVecs (.many tl)) R.ndim = (ND.expandDims1)^[R.ndim - 2] (ND.ofVecs (.many tl)) := by
    simp [expandSingletonAxes, ND.ndim, ND.ofVecs]
  rw [e]
  set X := (ND.expandDims1)^[R.ndim - 2] (ND.ofVecs (.many tl))
  have hr : R.ndim - 2 = sh.length := by omega
  rw [hr] at h1 h2
  have hb : Bcast X.shape R.shape := by
    rw [h1, hs]
    exact .cons hl ((bcast_ones sh).append (.cons (.inl rfl) .nil))
  refine ⟨_, bop_right _ R X hb, rfl, ?_⟩
  intro i js k hi hj hk
  have hv : Valid R.shape (i :: (js ++ [k])) := by rw [hs]; exact ⟨hi, valid_snoc_mk hj hk⟩
  simp only
  rw [bget_valid R hv, bget_same X (by simp [ND.ndim, h1, hj.length]), h1]
  congr 1
  simp only [ND.bidx]
  rw [bidx_append (by simp [hj.length]), ← hj.length, bidx_ones]
  rw [h2 _ _ _ (by simp [hj.length])]
  simp [ND.ofVecs, ND.bidx]

end RBM
