import Verif.Lemmas.RotateBcast
import Verif.Lemmas.TransformQuat
import Verif.Model.Utils

/-!
Repeated broadcasting of arrays with different numbers of axes.
-/

namespace RBM

open Spec

def bmax (a b : ℕ) : ℕ := if a = 1 then b else a

theorem bshapeEq_fit {p q t : List ℕ} (hp : Bcast p t) (hq : Bcast q t) : ND.bshapeEq p q = some (List.zipWith bmax p q) := by
  induction hp generalizing q with
  | nil => cases hq; rfl
  | @cons a c p t ha _ ih =>
    cases hq with
    | @cons b _ q _ hb hq =>
      simp only [ND.bshapeEq, ih hq, List.zipWith_cons_cons, bmax]
      by_cases hab : a = b
      · subst hab; simp
      · by_cases h1 : a = 1
        · simp [hab, h1]
        · have : b = 1 := by
            rcases ha with rfl | rfl
            · rcases hb with rfl | rfl
              · exact absurd rfl hab
              · rfl
            · exact absurd rfl h1
          simp [hab, h1, this]

theorem bmax_fit {p q t : List ℕ} (hp : Bcast p t) (hq : Bcast q t) : Bcast (List.zipWith bmax p q) t := by
  induction hp generalizing q with
  | nil => cases hq; exact .nil
  | @cons a c p t ha _ ih =>
    cases hq with
    | @cons b _ q _ hb hq =>
      refine .cons ?_ (ih hq)
      simp only [bmax]
      split
      · exact hb
      · exact ha

theorem padTo_length {n : ℕ} {s : List ℕ} (h : s.length ≤ n) : (padTo n s).length = n := by simp [padTo]; omega

theorem padTo_split {n m : ℕ} {s : List ℕ} (h1 : s.length ≤ m) (h2 : m ≤ n) : padTo n s = List.replicate (n - m) 1 ++ padTo m s := by
  simp only [padTo]
  rw [← List.append_assoc, List.replicate_append_replicate]
  congr 2
  omega

theorem padTo_zip {n m : ℕ} {s t : List ℕ} (hs : s.length ≤ m) (ht : t.length ≤ m) (h : m ≤ n) :
    padTo n (List.zipWith bmax (padTo m s) (padTo m t)) = List.zipWith bmax (padTo n s) (padTo n t) := by
  have l : (List.zipWith bmax (padTo m s) (padTo m t)).length = m := by simp [padTo_length hs, padTo_length ht]
  rw [padTo_split hs h, padTo_split ht h, List.zipWith_append (by simp)]
  conv_lhs => rw [padTo, l]
  congr 1
  generalize n - m = k
  induction k with
  | zero => rfl
  | succ k ih => simp only [List.replicate_succ, List.zipWith_cons_cons, ← ih]; rfl

theorem fit_drop {n k : ℕ} {s t : List ℕ} (h : Bcast (List.replicate k 1 ++ s) t) : Bcast s (t.drop k) := by
  induction k generalizing t with
  | zero => simpa using h
  | succ k ih =>
    cases h with
    | cons _ h => simpa using ih h

theorem bidx_drop (u x : List ℕ) (k : ℕ) : (ND.bidx u x).drop k = ND.bidx (u.drop k) (x.drop k) := by
  rw [bidx_eq_pick, bidx_eq_pick]
  simp [pickIdx, List.drop_zipWith]

theorem bidx_bidx {s c : List ℕ} (h : List.Forall₂ (fun a b => b = 1 → a = 1) s c) (y : List ℕ) : ND.bidx s (ND.bidx c y) = ND.bidx s y := by
  induction h generalizing y with
  | nil => cases y <;> rfl
  | @cons a b s c hab _ ih =>
    cases y with
    | nil => rfl
    | cons i y =>
      simp only [ND.bidx, ih]
      by_cases ha : a = 1
      · simp [ha]
      · have : b ≠ 1 := fun h => ha (hab h)
        simp [ha, this]

theorem padShape_eq (n : ℕ) (s : List ℕ) : ND.padShape n s = padTo n s := rfl

theorem padTo_max (s t : List ℕ) : padTo t.length s = padTo (max s.length t.length) s := by
  simp only [padTo]
  congr 2
  omega

/-- Reading through an array whose axes of length one include those of `a`. -/
theorem bget_through {α : Type} (a : ND α) {u idx : List ℕ} (hl : a.shape.length ≤ u.length) (hu : u.length ≤ idx.length)
    (h : List.Forall₂ (fun x y => y = 1 → x = 1) (padTo u.length a.shape) u) :
    a.bget (ND.bidx u (idx.drop (idx.length - u.length))) = a.bget idx := by
  have hlen : (idx.drop (idx.length - u.length)).length = u.length := by simp; omega
  have hb : (ND.bidx u (idx.drop (idx.length - u.length))).length = u.length := bidx_length hlen.symm
  simp only [ND.bget, ND.ndim, hb]
  congr 1
  rw [bidx_drop, List.drop_drop, show idx.length - u.length + (u.length - a.shape.length) = idx.length - a.shape.length by omega]
  apply bidx_bidx
  have : ∀ (k : ℕ) (s t : List ℕ), List.Forall₂ (fun x y : ℕ => y = 1 → x = 1) (List.replicate k 1 ++ s) t →
      List.Forall₂ (fun x y : ℕ => y = 1 → x = 1) s (t.drop k) := by
    intro k
    induction k with
    | zero => intro s t h; simpa using h
    | succ k ih =>
      intro s t h
      rw [List.replicate_succ, List.cons_append] at h
      cases h with
      | cons _ h => simpa using ih _ _ h
  exact this _ _ _ h

theorem bmax_left {p q : List ℕ} (h : p.length = q.length) : List.Forall₂ (fun x y => y = 1 → x = 1) p (List.zipWith bmax p q) := by
  induction p generalizing q with
  | nil => cases q <;> simp at h ⊢
  | cons a p ih =>
    cases q with
    | nil => simp at h
    | cons b q =>
      refine .cons ?_ (ih (by simpa using h))
      simp only [bmax]
      split
      · intro _; assumption
      · exact id

theorem bmax_right {p q t : List ℕ} (hp : Bcast p t) (hq : Bcast q t) : List.Forall₂ (fun x y => y = 1 → x = 1) q (List.zipWith bmax p q) := by
  induction hp generalizing q with
  | nil => cases hq; exact .nil
  | @cons a c p t ha _ ih =>
    cases hq with
    | @cons b _ q _ hb hq =>
      refine .cons ?_ (ih hq)
      simp only [bmax]
      split
      · exact id
      · rename_i h1
        intro h; exact absurd h h1

/-- One step: both shapes fit the common shape. -/
theorem bop_fit {α β γ : Type} (f : α → β → γ) (a : ND α) (b : ND β) {sh : List ℕ} (la : a.shape.length ≤ sh.length) (lb : b.shape.length ≤ sh.length)
    (ha : Bcast (padTo sh.length a.shape) sh) (hb : Bcast (padTo sh.length b.shape) sh) :
    ∃ c : ND γ, ND.bop f a b = .ok c ∧ c.shape.length = max a.shape.length b.shape.length ∧
      padTo sh.length c.shape = List.zipWith bmax (padTo sh.length a.shape) (padTo sh.length b.shape) ∧
      ∀ idx : List ℕ, idx.length = sh.length → c.bget idx = f (a.bget idx) (b.bget idx) := by
  generalize hm : max a.shape.length b.shape.length = m
  have ham : a.shape.length ≤ m := by omega
  have hbm : b.shape.length ≤ m := by omega
  have hmn : m ≤ sh.length := by omega
  have fa : Bcast (padTo m a.shape) (sh.drop (sh.length - m)) := by
    rw [padTo_split ham hmn] at ha
    exact fit_drop (n := 0) ha
  have fb : Bcast (padTo m b.shape) (sh.drop (sh.length - m)) := by
    rw [padTo_split hbm hmn] at hb
    exact fit_drop (n := 0) hb
  have e : ND.bshape a.shape b.shape = some (List.zipWith bmax (padTo m a.shape) (padTo m b.shape)) := by
    simp only [ND.bshape, padShape_eq]
    rw [padTo_max a.shape b.shape, padTo_max b.shape a.shape, max_comm b.shape.length, hm]
    exact bshapeEq_fit fa fb
  have hl : (List.zipWith bmax (padTo m a.shape) (padTo m b.shape)).length = m := by simp [padTo_length ham, padTo_length hbm]
  refine ⟨⟨List.zipWith bmax (padTo m a.shape) (padTo m b.shape), fun idx => f (a.bget idx) (b.bget idx)⟩, by simp only [ND.bop, e], hl,
    padTo_zip ham hbm hmn, fun idx hi => ?_⟩
  show f (a.bget (ND.bidx _ (idx.drop (idx.length - _)))) (b.bget (ND.bidx _ (idx.drop (idx.length - _)))) = _
  simp only [ND.ndim]
  rw [bget_through a (by rw [hl]; exact ham) (by rw [hl, hi]; exact hmn), bget_through b (by rw [hl]; exact hbm) (by rw [hl, hi]; exact hmn)]
  · rw [hl]; exact bmax_right fa fb
  · rw [hl]; exact bmax_left (by rw [padTo_length ham, padTo_length hbm])

theorem getD_bmax {p q : List ℕ} {i : ℕ} (h1 : i < p.length) (h2 : i < q.length) :
    (List.zipWith bmax p q).getD i 0 = bmax (p.getD i 0) (q.getD i 0) := by
  simp [List.getD_eq_getElem?_getD, h1, h2]

theorem fit_of_getD {p t : List ℕ} (hl : p.length = t.length) (h : ∀ i < t.length, p.getD i 0 = 1 ∨ p.getD i 0 = t.getD i 0) : Bcast p t := by
  induction p generalizing t with
  | nil => cases t with
    | nil => exact .nil
    | cons => simp at hl
  | cons a p ih =>
    cases t with
    | nil => simp at hl
    | cons b t =>
      refine .cons ?_ (ih (by simpa using hl) fun i hi => ?_)
      · have := h 0 (by simp)
        simp at this
        exact this.symm
      · simpa using h (i + 1) (by simpa using hi)

/-- The shapes seen so far determine the shape of the accumulator. -/
theorem fold_bop (sh : List ℕ) : ∀ (Qs : List (ND Quat)) (acc : ND Quat), (∀ Q ∈ acc :: Qs, Q.shape.length ≤ sh.length) →
    (∀ Q ∈ acc :: Qs, Bcast (padTo sh.length Q.shape) sh) →
    ∃ R, Qs.foldlM (fun acc x => ND.bop (fun a b => a * b) acc x) acc = (.ok R : Res (ND Quat)) ∧ R.shape.length ≤ sh.length ∧
      (∀ Q ∈ acc :: Qs, Q.shape.length ≤ R.shape.length) ∧ Bcast (padTo sh.length R.shape) sh ∧
      (∀ i < sh.length, ∀ Q ∈ acc :: Qs, (padTo sh.length Q.shape).getD i 0 = sh.getD i 0 → (padTo sh.length R.shape).getD i 0 = sh.getD i 0) ∧
      ∀ idx : List ℕ, idx.length = sh.length → R.bget idx = acc.bget idx * (Qs.map fun Q => Q.bget idx).prod
  | [], acc, hl, hf => ⟨acc, rfl, hl acc (by simp), by simp, hf acc (by simp), by simp, by simp⟩
  | Q :: Qs, acc, hl, hf => by
    have la := hl acc (by simp)
    have lq := hl Q (by simp)
    have fa := hf acc (by simp)
    have fq := hf Q (by simp)
    obtain ⟨c, c1, c2, c3, c4⟩ := bop_fit (fun a b : Quat => a * b) acc Q la lq fa fq
    have lc : c.shape.length ≤ sh.length := by rw [c2]; omega
    have fc : Bcast (padTo sh.length c.shape) sh := by rw [c3]; exact bmax_fit fa fq
    obtain ⟨R, r1, r2, r3, r4, r5, r6⟩ := fold_bop sh Qs c
      (by intro X hX; rcases List.mem_cons.mp hX with rfl | hX; exacts [lc, hl X (by simp [hX])])
      (by intro X hX; rcases List.mem_cons.mp hX with rfl | hX; exacts [fc, hf X (by simp [hX])])
    refine ⟨R, ?_, r2, ?_, r4, ?_, ?_⟩
    · simp only [List.foldlM_cons, c1, bind, Except.bind]
      exact r1
    · have := r3 c (by simp)
      intro X hX
      rcases List.mem_cons.mp hX with rfl | hX
      · omega
      · rcases List.mem_cons.mp hX with rfl | hX
        · omega
        · exact r3 X (by simp [hX])
    · intro i hi X hX hx
      have pa : i < (padTo sh.length acc.shape).length := by rw [padTo_length la]; exact hi
      have pq : i < (padTo sh.length Q.shape).length := by rw [padTo_length lq]; exact hi
      have fitsAt : ∀ {p : List ℕ}, Bcast p sh → p.getD i 0 = sh.getD i 0 ∨ p.getD i 0 = 1 := by
        intro p hp
        have hlp := hp.length
        have := (List.forall₂_iff_get.mp hp).2 i (by omega) hi
        simpa [List.getD_eq_getElem?_getD, hi, show i < p.length by omega] using this
      have key : (padTo sh.length acc.shape).getD i 0 = sh.getD i 0 ∨ (padTo sh.length Q.shape).getD i 0 = sh.getD i 0 →
          (padTo sh.length R.shape).getD i 0 = sh.getD i 0 := by
        intro h
        refine r5 i hi c (by simp) ?_
        rw [c3, getD_bmax pa pq, bmax]
        split
        · rename_i h1
          rcases h with h | h
          · rcases fitsAt fq with h' | h'
            · exact h'
            · rw [h', ← h, h1]
          · exact h
        · rename_i h1
          rcases fitsAt fa with h' | h'
          · exact h'
          · exact absurd h' h1
      rcases List.mem_cons.mp hX with rfl | hX
      · exact key (.inl hx)
      · rcases List.mem_cons.mp hX with rfl | hX
        · exact key (.inr hx)
        · exact r5 i hi X (by simp [hX]) hx
    · intro idx hi
      rw [r6 idx hi, c4 idx hi, List.map_cons, List.prod_cons, mul_assoc]

/-- Reduction of a list of arrays with a common shape. -/
theorem qreduce_common {sh : List ℕ} {Qs : List (ND Quat)} (hc : CommonShape (Qs.map fun Q => Q.shape) sh) :
    ∃ R, qreduce Qs = .ok R ∧ R.shape = sh ∧ ∀ idx, Valid sh idx → R.get idx = (Qs.map fun Q => Q.get (pickFrom Q.shape idx)).prod := by
  cases Qs with
  | nil => obtain ⟨s, hs, _⟩ := hc.len; simp at hs
  | cons Q Qs =>
    have hshape : ∀ X ∈ (Q.map fun x => 1 * x) :: Qs, ∃ Y ∈ Q :: Qs, X.shape = Y.shape := by
      intro X hX
      rcases List.mem_cons.mp hX with rfl | hX
      · exact ⟨Q, by simp, rfl⟩
      · exact ⟨X, by simp [hX], rfl⟩
    have hl : ∀ Y ∈ Q :: Qs, Y.shape.length ≤ sh.length := fun Y hY => hc.le _ (List.mem_map.mpr ⟨Y, hY, rfl⟩)
    have hf : ∀ Y ∈ Q :: Qs, Bcast (padTo sh.length Y.shape) sh := fun Y hY =>
      fit_of_getD (padTo_length (hl Y hY)) (hc.fits _ (List.mem_map.mpr ⟨Y, hY, rfl⟩))
    obtain ⟨R, r1, r2, r3, r4, r5, r6⟩ := fold_bop sh Qs (Q.map fun x => 1 * x)
      (by intro X hX; obtain ⟨Y, hY, e⟩ := hshape X hX; rw [e]; exact hl Y hY)
      (by intro X hX; obtain ⟨Y, hY, e⟩ := hshape X hX; rw [e]; exact hf Y hY)
    have hback : ∀ Y ∈ Q :: Qs, ∃ X ∈ (Q.map fun x => 1 * x) :: Qs, X.shape = Y.shape := by
      intro X hX
      rcases List.mem_cons.mp hX with rfl | hX
      · exact ⟨_, List.mem_cons_self, rfl⟩
      · exact ⟨X, by simp [hX], rfl⟩
    have hlen : R.shape.length = sh.length := by
      obtain ⟨s, hs, e⟩ := hc.len
      obtain ⟨Y, hY, rfl⟩ := List.mem_map.mp hs
      obtain ⟨X, hX, e'⟩ := hback Y hY
      have := r3 X hX
      rw [e'] at this
      omega
    have hpad : padTo sh.length R.shape = R.shape := by simp [padTo, hlen]
    have hsh : R.shape = sh := by
      apply list_ext_getD hlen
      intro i hi
      obtain ⟨s, hs, e⟩ := hc.taken i (by omega)
      obtain ⟨Y, hY, rfl⟩ := List.mem_map.mp hs
      obtain ⟨X, hX, e'⟩ := hback Y hY
      have := r5 i (by omega) X hX (by rw [e']; exact e)
      rwa [hpad] at this
    refine ⟨R, r1, hsh, fun idx hv => ?_⟩
    rw [← bget_valid R (by rw [hsh]; exact hv), r6 idx hv.length]
    have e : ∀ X : ND Quat, X.bget idx = X.get (pickFrom X.shape idx) := by
      intro X
      simp only [ND.bget, ND.ndim, pickFrom, bidx_eq_pick]
    simp only [e, List.map_cons, List.prod_cons]
    congr 1
    show 1 * Q.get (pickFrom Q.shape idx) = _
    rw [one_mul]

end RBM
