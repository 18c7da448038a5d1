import Verif.Props.ShortestArc
import Verif.Props.QuatBroadcast
import Verif.Props.TopLevel

/-!
`shortest_arc_rotation` of arrays of different shapes (C45): for instance many vectors and one reference direction.
-/

namespace RBM.Props

open RBM.Spec
open scoped Matrix

theorem bshape_of_common {s t sh : List ℕ} (h : CommonShape [s, t] sh) : ND.bshape s t = some sh := by
  obtain ⟨R, h1, h2, -⟩ := qreduce_common (Qs := [⟨s, fun _ => 0⟩, ⟨t, fun _ => 0⟩]) (sh := sh) h
  have h1' : ND.bop (fun a b : Quat => a * b) ⟨s, fun _ => 0⟩ ⟨t, fun _ => 0⟩ = .ok R := by
    simpa [qreduce, List.foldlM, ND.map] using h1
  simp only [ND.bop] at h1'
  cases hb : ND.bshape s t with
  | none => rw [hb] at h1'; cases h1'
  | some r =>
    rw [hb] at h1'
    cases h1'
    exact congrArg some h2

theorem common_of_bshape {s t r : List ℕ} (e : ND.bshape s t = some r) : CommonShape [s, t] r := common_step (common_single s) e

theorem bshapeEq_snoc {s t r : List ℕ} (k : ℕ) (h : ND.bshapeEq s t = some r) : ND.bshapeEq (s ++ [k]) (t ++ [k]) = some (r ++ [k]) := by
  induction s generalizing t r with
  | nil => cases t with
    | nil => cases h; simp [ND.bshapeEq]
    | cons => simp [ND.bshapeEq] at h
  | cons a s ih => cases t with
    | nil => simp [ND.bshapeEq] at h
    | cons b t =>
      simp only [ND.bshapeEq, List.cons_append] at h ⊢
      cases hr : ND.bshapeEq s t with
      | none => rw [hr] at h; cases h
      | some r' =>
        rw [hr] at h
        rw [ih hr]
        simp only at h ⊢
        split_ifs at h ⊢ <;> cases h <;> rfl

theorem bshape_snoc {s t r : List ℕ} (k : ℕ) (h : ND.bshape s t = some r) : ND.bshape (s ++ [k]) (t ++ [k]) = some (r ++ [k]) := by
  simp only [ND.bshape, ND.padShape, List.length_append, List.length_singleton, Nat.add_sub_add_right] at h ⊢
  rw [← List.append_assoc, ← List.append_assoc]
  exact bshapeEq_snoc k h

theorem bshapeEq_of_snoc {s t r : List ℕ} (k : ℕ) (h : ND.bshapeEq (s ++ [k]) (t ++ [k]) = some r) : ∃ r', ND.bshapeEq s t = some r' := by
  induction s generalizing t r with
  | nil => cases t with
    | nil => exact ⟨[], rfl⟩
    | cons b t => cases t <;> simp [ND.bshapeEq] at h
  | cons a s ih => cases t with
    | nil => cases s <;> simp [ND.bshapeEq] at h
    | cons b t =>
      simp only [ND.bshapeEq, List.cons_append] at h ⊢
      cases hr : ND.bshapeEq (s ++ [k]) (t ++ [k]) with
      | none => rw [hr] at h; cases h
      | some r2 =>
        rw [hr] at h
        obtain ⟨r', e⟩ := ih hr
        rw [e]
        simp only at h ⊢
        split_ifs at h ⊢ <;> exact ⟨_, rfl⟩

theorem bshape_of_snoc {s t r : List ℕ} (k : ℕ) (h : ND.bshape (s ++ [k]) (t ++ [k]) = some r) : ∃ r', ND.bshape s t = some r' := by
  simp only [ND.bshape, ND.padShape, List.length_append, List.length_singleton, Nat.add_sub_add_right] at h ⊢
  rw [← List.append_assoc, ← List.append_assoc] at h
  exact bshapeEq_of_snoc k h

/-- Reading a broadcast array along its last axis. -/
theorem bget_snoc {α : Type} (a : ND α) {s idx : List ℕ} {n k : ℕ} (hs : a.shape = s ++ [n]) (hl : s.length ≤ idx.length) (hk : k < n) :
    a.bget (idx ++ [k]) = a.get (pickFrom s idx ++ [k]) := by
  simp only [ND.bget, ND.ndim, hs, List.length_append, List.length_singleton, Nat.add_sub_add_right]
  rw [List.drop_append_of_le_length (by omega), bidx_append (by simp; omega), pickFrom, ← bidx_eq_pick]
  congr 2
  simp only [ND.bidx]
  split_ifs with h
  · rw [show k = 0 by omega]
  · rfl

theorem norm_last (n : ℕ) : normAxis (-1) (n + 1) = some n := by
  have := axisIs_norm (axis := -1) (n := n + 1) (p := n) ⟨by omega, .inr (by push_cast; ring)⟩
  exact this

theorem set_snoc (idx : List ℕ) (k j : ℕ) : (idx ++ [j]).set idx.length k = idx ++ [k] := by simp

theorem sumKeep_last (a : ND ℝ) {s : List ℕ} {n : ℕ} (hs : a.shape = s ++ [n]) : ∃ c, a.sumKeep (-1) = .ok c ∧ c.shape = s ++ [1] ∧
    ∀ idx : List ℕ, idx.length = s.length → ∀ j, c.get (idx ++ [j]) = ((List.range n).map fun k => a.get (idx ++ [k])).sum := by
  refine ⟨_, sumKeep_ok a (p := s.length) (by rw [ND.ndim, hs]; simpa using norm_last s.length), by simp [hs], fun idx hl j => ?_⟩
  have e : (s ++ [n]).getD s.length 0 = n := by simp
  have e2 : ∀ k, (idx ++ [j]).set s.length k = idx ++ [k] := fun k => by rw [← hl]; simp
  simp only [hs, e, e2]

theorem vec3_last (a : ND ℝ) {s : List ℕ} {i : List ℕ} (hl : i.length = s.length) (j : ℕ) :
    vec3 a s.length (i ++ [j]) = ![a.get (i ++ [0]), a.get (i ++ [1]), a.get (i ++ [2])] := by
  simp [vec3, ← hl]

theorem pickFrom_length {s idx : List ℕ} (h : s.length ≤ idx.length) : (pickFrom s idx).length = s.length := by
  simp [pickFrom, pickIdx]; omega

theorem cross_common (v w : ND ℝ) {sv sw sh : List ℕ} (hv : v.shape = sv ++ [3]) (hw : w.shape = sw ++ [3]) (hb : ND.bshape sv sw = some sh)
    (lv : sv.length ≤ sh.length) (lw : sw.length ≤ sh.length) :
    ∃ C, npCrossAxis v w (-1) = .ok C ∧ C.shape = sh ++ [3] ∧ ∀ i : List ℕ, i.length = sh.length → ∀ k, C.get (i ++ [k]) =
      (vec3 v sv.length (pickFrom sv i ++ [0]) ⨯₃ vec3 w sw.length (pickFrom sw i ++ [0])) (Fin.ofNat 3 k) := by
  have hm : ∀ (u : ND ℝ) (s : List ℕ), u.shape = s ++ [3] → u.moveaxis s.length (u.ndim - 1) = ⟨s ++ [3], fun idx => u.get (moveL s.length s.length idx)⟩ := by
    intro u s hu
    have : u.ndim - 1 = s.length := by simp [ND.ndim, hu]
    rw [this]
    simp only [ND.moveaxis, hu, moveL_last_self]
  have nv : normAxis (-1) v.ndim = some sv.length := by rw [ND.ndim, hv]; simpa using norm_last _
  have nw : normAxis (-1) w.ndim = some sw.length := by rw [ND.ndim, hw]; simpa using norm_last _
  obtain ⟨c, e1, e2, e3⟩ : ∃ c, crossLast (v.moveaxis sv.length (v.ndim - 1)) (w.moveaxis sw.length (w.ndim - 1)) = .ok c ∧ c.shape = sh ++ [3] ∧
      ∀ i : List ℕ, i.length = sh.length → ∀ k, c.get (i ++ [k]) =
        (vec3 v sv.length (pickFrom sv i ++ [0]) ⨯₃ vec3 w sw.length (pickFrom sw i ++ [0])) (Fin.ofNat 3 k) := by
    rw [hm v sv hv, hm w sw hw]
    refine ⟨?w, ?h1, ?h2, ?h3⟩
    case h1 =>
      simp only [crossLast]
      rw [if_pos (by simp)]
      simp only [List.dropLast_concat, hb]
      exact rfl
    case h2 => rfl
    case h3 =>
      intro i hi k
      simp only [List.dropLast_concat, List.getLast?_concat, Option.getD_some, ND.ndim, List.length_append, List.length_singleton, Nat.add_sub_cancel]
      have key : ∀ (u : ND ℝ) (s : List ℕ), s.length ≤ sh.length →
          (fun k : Fin 3 => u.get (moveL s.length s.length (ND.bidx s (List.drop (i.length - s.length) i) ++ [k.val]))) =
            vec3 u s.length (pickFrom s i ++ [0]) := by
        intro u s hs
        have hp : ND.bidx s (List.drop (i.length - s.length) i) = pickFrom s i := by rw [pickFrom, bidx_eq_pick]
        have hl := pickFrom_length (s := s) (idx := i) (by omega)
        rw [hp, vec3_last u hl]
        funext k
        rw [← hl, moveL_last_self]
        fin_cases k <;> rfl
      rw [key v sv lv, key w sw lw]
  have nc : normAxis (-1) c.ndim = some sh.length := by rw [ND.ndim, e2]; simpa using norm_last _
  refine ⟨c.moveaxis (c.ndim - 1) sh.length, ?_, ?_, ?_⟩
  · simp only [npCrossAxis, nv, nw, e1, nc]
  · simp only [ND.moveaxis, ND.ndim, e2, List.length_append, List.length_singleton, Nat.add_sub_cancel, moveL_last_self]
  · intro i hi k
    simp only [ND.moveaxis, ND.ndim, e2, List.length_append, List.length_singleton, Nat.add_sub_cancel]
    rw [← hi, moveL_last_self]
    exact e3 i hi k

/-- What `shortestArc` computes for arrays of different shapes. -/
theorem arc_common (v w : ND ℝ) {sv sw sh : List ℕ} (hv : v.shape = sv ++ [3]) (hw : w.shape = sw ++ [3]) (hc : CommonShape [sv, sw] sh) :
    ∃ R : ND ℝ, R.shape = sh ++ [4] ∧
      (∀ i, Valid sh i → quat4 R sh.length (i ++ [0]) =
        (Real.sqrt (nsq (arcRaw (vec3 v sv.length (pickFrom sv i ++ [0])) (vec3 w sw.length (pickFrom sw i ++ [0])))))⁻¹ •
          arcRaw (vec3 v sv.length (pickFrom sv i ++ [0])) (vec3 w sw.length (pickFrom sw i ++ [0]))) ∧
      (¬ (∃ i, Valid sh i ∧ nsq (arcRaw (vec3 v sv.length (pickFrom sv i ++ [0])) (vec3 w sw.length (pickFrom sw i ++ [0]))) = 0) →
        shortestArc v w (-1) = .ok R) ∧
      ((∃ i, Valid sh i ∧ nsq (arcRaw (vec3 v sv.length (pickFrom sv i ++ [0])) (vec3 w sw.length (pickFrom sw i ++ [0]))) = 0) →
        shortestArc v w (-1) = .error .nonfinite) := by
  have hb := bshape_of_common hc
  have lv : sv.length ≤ sh.length := hc.le _ (by simp)
  have lw : sw.length ≤ sh.length := hc.le _ (by simp)
  set A : List ℕ → Vec := fun i => vec3 v sv.length (pickFrom sv i ++ [0]) with hA
  set B : List ℕ → Vec := fun i => vec3 w sw.length (pickFrom sw i ++ [0]) with hB
  obtain ⟨C, hC, hCs, hCg⟩ := cross_common v w hv hw hb lv lw
  obtain ⟨s1, e1, s1s, s1g⟩ := sumKeep_last (v.map fun x => x ^ 2) (s := sv) (n := 3) hv
  obtain ⟨s2, e2, s2s, s2g⟩ := sumKeep_last (w.map fun x => x ^ 2) (s := sw) (n := 3) hw
  have vg : ∀ (i : List ℕ), i.length = sh.length → ∀ k : ℕ, k < 3 → v.get (pickFrom sv i ++ [k]) = A i (Fin.ofNat 3 k) := by
    intro i hi k hk
    simp only [hA, vec3_last v (pickFrom_length (s := sv) (idx := i) (by omega))]
    interval_cases k <;> rfl
  have wg : ∀ (i : List ℕ), i.length = sh.length → ∀ k : ℕ, k < 3 → w.get (pickFrom sw i ++ [k]) = B i (Fin.ofNat 3 k) := by
    intro i hi k hk
    simp only [hB, vec3_last w (pickFrom_length (s := sw) (idx := i) (by omega))]
    interval_cases k <;> rfl
  set pr : ND ℝ := ⟨sh ++ [3], fun idx => v.bget idx * w.bget idx⟩ with hpr
  have e3 : ND.bop (fun x y : ℝ => x * y) v w = .ok pr := by
    simp only [ND.bop, hv, hw, bshape_snoc 3 hb, hpr]
  obtain ⟨d, e4, ds, dg⟩ := sumKeep_last pr (s := sh) (n := 3) rfl
  have dg' : ∀ i : List ℕ, i.length = sh.length → d.get (i ++ [0]) = dot (A i) (B i) := by
    intro i hi
    have hk : ∀ k : ℕ, k < 3 → pr.get (i ++ [k]) = A i (Fin.ofNat 3 k) * B i (Fin.ofNat 3 k) := by
      intro k hk
      show v.bget (i ++ [k]) * w.bget (i ++ [k]) = _
      rw [bget_snoc v hv (by omega) hk, bget_snoc w hw (by omega) hk, vg i hi k hk, wg i hi k hk]
    rw [dg i hi, sum3, hk 0 (by decide), hk 1 (by decide), hk 2 (by decide)]
    rfl
  set ss : ND ℝ := ⟨sh ++ [1], fun idx => s1.bget idx * s2.bget idx⟩ with hss
  have e5 : ND.bop (fun x y : ℝ => x * y) s1 s2 = .ok ss := by
    simp only [ND.bop, s1s, s2s, bshape_snoc 1 hb, hss]
  have ssg : ∀ i : List ℕ, i.length = sh.length → ss.get (i ++ [0]) = dot (A i) (A i) * dot (B i) (B i) := by
    intro i hi
    show s1.bget (i ++ [0]) * s2.bget (i ++ [0]) = _
    rw [bget_snoc s1 s1s (by omega) (by decide), bget_snoc s2 s2s (by omega) (by decide), s1g _ (pickFrom_length (by omega)), s2g _ (pickFrom_length (by omega)), sum3, sum3]
    simp only [ND.map]
    rw [vg i hi 0 (by decide), vg i hi 1 (by decide), vg i hi 2 (by decide), wg i hi 0 (by decide), wg i hi 1 (by decide), wg i hi 2 (by decide)]
    simp only [dot, ← pow_two]
    rfl
  obtain ⟨re, e6, res, reg⟩ : ∃ re, ND.bop (fun x y : ℝ => x + y) (ss.map Real.sqrt) d = .ok re ∧ re.shape = sh ++ [1] ∧
      ∀ i, Valid sh i → re.get (i ++ [0]) = (arcRaw (A i) (B i)).re := by
    refine ⟨_, bop_left _ (ss.map Real.sqrt) d (by simp only [ND.map, hss, ds]; exact Bcast.refl _), ds, ?_⟩
    intro i hi
    have hi1 : Valid (sh ++ [1]) (i ++ [0]) := valid_snoc_mk hi (by decide)
    show (ss.map Real.sqrt).bget (i ++ [0]) + d.bget (i ++ [0]) = _
    rw [bget_valid _ (by simpa [ND.map, hss] using hi1), bget_valid d (by rw [ds]; exact hi1), dg' i hi.length]
    simp only [ND.map, ssg i hi.length, arcRaw]
  set rotation : ND ℝ := ⟨sh ++ [4], fun idx => if idx.getD sh.length 0 < 1 then re.get idx else C.get (idx.set sh.length (idx.getD sh.length 0 - 1))⟩ with hrot
  have e7 : re.concat2 C (-1) = .ok rotation := by
    have hn : normAxis (-1) (sh.length + 1) = some sh.length := norm_last _
    simp only [ND.concat2, ND.ndim, res, hCs, List.length_append, List.length_singleton, hn]
    rw [if_neg (by simp [List.eraseIdx_append_of_length_le])]
    simp [hrot]
  have hrg : ∀ i, Valid sh i → quat4 rotation sh.length (i ++ [0]) = arcRaw (A i) (B i) := by
    intro i hi
    have hl := hi.length
    have hset : ∀ k, (i ++ [0]).set sh.length k = i ++ [k] := fun k => by rw [← hl]; simp
    have hget : ∀ k, (i ++ [k]).getD sh.length 0 = k := fun k => by rw [← hl]; simp
    have hset' : ∀ k j, (i ++ [k]).set sh.length j = i ++ [j] := fun k j => by rw [← hl]; simp
    ext
    · simp only [quat4, hset, hrot, hget, Nat.zero_lt_one, if_true]
      exact reg i hi
    · simp only [quat4, hset, hrot, hget, lt_irrefl, if_false, hset', Nat.sub_self]
      rw [hCg i hl 0, show vec3 v sv.length (pickFrom sv i ++ [0]) = A i from rfl, show vec3 w sw.length (pickFrom sw i ++ [0]) = B i from rfl, cross_apply]
      rfl
    · simp only [quat4, hset, hrot, hget, hset']
      rw [if_neg (by decide), hCg i hl, show vec3 v sv.length (pickFrom sv i ++ [0]) = A i from rfl, show vec3 w sw.length (pickFrom sw i ++ [0]) = B i from rfl, cross_apply]
      rfl
    · simp only [quat4, hset, hrot, hget, hset']
      rw [if_neg (by decide), hCg i hl, show vec3 v sv.length (pickFrom sv i ++ [0]) = A i from rfl, show vec3 w sw.length (pickFrom sw i ++ [0]) = B i from rfl, cross_apply]
      rfl
  obtain ⟨sq, e8, sqs, sqg⟩ := sumKeep_last (rotation.map fun x => x ^ 2) (s := sh) (n := 4) rfl
  have sqg' : ∀ i, Valid sh i → sq.get (i ++ [0]) = nsq (arcRaw (A i) (B i)) := by
    intro i hi
    rw [← hrg i hi, sqg i hi.length, sum4]
    have hset : ∀ k, (i ++ [0]).set sh.length k = i ++ [k] := fun k => by rw [← hi.length]; simp
    simp only [ND.map, nsq, quat4, hset]
  set n : ND ℝ := sq.map Real.sqrt with hn
  have hns : n.shape = sh ++ [1] := sqs
  have hsplit : ∀ idx, Valid (sh ++ [1]) idx → ∃ i, Valid sh i ∧ idx = i ++ [0] := by
    intro idx hi
    obtain ⟨i, j, rfl, h1, h2⟩ := valid_snoc hi
    exact ⟨i, h1, by rw [show j = 0 by omega]⟩
  have hcond : (∃ idx, Valid n.shape idx ∧ n.get idx = 0) ↔ ∃ i, Valid sh i ∧ nsq (arcRaw (A i) (B i)) = 0 := by
    constructor
    · rintro ⟨idx, hi, h0⟩
      rw [hns] at hi
      obtain ⟨i, hi', rfl⟩ := hsplit idx hi
      refine ⟨i, hi', ?_⟩
      rw [← sqg' i hi']
      have hnn : 0 ≤ sq.get (i ++ [0]) := by rw [sqg' i hi']; simp only [nsq]; positivity
      exact (Real.sqrt_eq_zero hnn).mp h0
    · rintro ⟨i, hi, h0⟩
      refine ⟨i ++ [0], by rw [hns]; exact valid_snoc_mk hi (by decide), ?_⟩
      show Real.sqrt (sq.get (i ++ [0])) = 0
      rw [sqg' i hi, h0, Real.sqrt_zero]
  have hb' : Bcast n.shape rotation.shape := by
    rw [hns]
    have := bcast_set1 (sh ++ [4]) sh.length 4
    simpa [hrot] using this
  refine ⟨⟨rotation.shape, fun idx => rotation.bget idx / n.bget idx⟩, rfl, ?_, ?_, ?_⟩
  · intro i hi
    have hset : ∀ k, (i ++ [0]).set sh.length k = i ++ [k] := fun k => by rw [← hi.length]; simp
    have hg : ∀ k, k < 4 → rotation.bget (i ++ [k]) / n.bget (i ++ [k]) = (Real.sqrt (nsq (arcRaw (A i) (B i))))⁻¹ * rotation.get (i ++ [k]) := by
      intro k hk
      have hvk : Valid rotation.shape (i ++ [k]) := valid_snoc_mk hi hk
      have hnk : n.bget (i ++ [k]) = n.get (i ++ [0]) := by
        simp only [ND.bget, ND.ndim, hns, List.length_append, List.length_singleton, hi.length, Nat.sub_self, List.drop_zero]
        rw [bidx_append hi.length.symm, bidx_valid hi]
        rfl
      rw [bget_valid _ hvk, hnk, div_eq_mul_inv, mul_comm]
      show (Real.sqrt (sq.get (i ++ [0])))⁻¹ * _ = _
      rw [sqg' i hi]
    show _ = (Real.sqrt (nsq (arcRaw (A i) (B i))))⁻¹ • arcRaw (A i) (B i)
    generalize hr : Real.sqrt (nsq (arcRaw (A i) (B i))) = r at hg ⊢
    rw [← hrg i hi]
    ext
    · simp only [quat4, hset, Quaternion.re_smul, smul_eq_mul]; exact hg 0 (by decide)
    · simp only [quat4, hset, Quaternion.imI_smul, smul_eq_mul]; exact hg 1 (by decide)
    · simp only [quat4, hset, Quaternion.imJ_smul, smul_eq_mul]; exact hg 2 (by decide)
    · simp only [quat4, hset, Quaternion.imK_smul, smul_eq_mul]; exact hg 3 (by decide)
  · intro hno
    rw [← hcond] at hno
    simp only [shortestArc, e1, e2, e3, e4, hC, e5, e6, e7, e8, bind, Except.bind]
    rw [← hn, if_neg hno]
    exact bop_right _ rotation n hb'
  · intro hyes
    rw [← hcond] at hyes
    simp only [shortestArc, e1, e2, e3, e4, hC, e5, e6, e7, e8, bind, Except.bind]
    rw [← hn, if_pos hyes]
    rfl

/-- `shortest_arc_rotation` of two plain arrays of different but compatible shapes, with the vectors along the last axis (a single
reference direction for many vectors, for instance): the result has the common shape, and each of its quaternions is the shortest arc
between the vectors at this position. -/
theorem C45_broadcast (x : XrOps) {v w : ND ℝ} {sv sw sh : List ℕ} (hv : v.shape = sv ++ [3]) (hw : w.shape = sw ++ [3])
    (hc : CommonShape [sv, sw] sh)
    (hall : ∀ i, Valid sh i → ArcPair (vec3 v sv.length (pickFrom sv i ++ [0])) (vec3 w sw.length (pickFrom sw i ++ [0]))) :
    ∃ R, shortestArcRotation x (.nd v) w = .ok (.nd R) ∧ R.shape = sh ++ [4] ∧ ∀ i, Valid sh i →
      IsShortestArc (vec3 v sv.length (pickFrom sv i ++ [0])) (vec3 w sw.length (pickFrom sw i ++ [0])) (quat4 R sh.length (i ++ [0])) := by
  obtain ⟨R, h1, h2, h4, -⟩ := arc_common v w hv hw hc
  refine ⟨R, ?_, h1, fun i hi => ?_⟩
  · have h := h4 (by rintro ⟨i, hi, h0⟩; exact (arcPair_iff _ _).mp (hall i hi) h0)
    simp only [shortestArcRotation, unpackNoTime, bind, Except.bind]
    rw [show orDefault none (-1) = -1 from rfl, h]
    rfl
  · rw [h2 i hi]
    exact arc_spec (hall i hi)

/-- A single pair of zero or opposite vectors makes the result not finite. -/
theorem C45_broadcast_singular (x : XrOps) {v w : ND ℝ} {sv sw sh : List ℕ} (hv : v.shape = sv ++ [3]) (hw : w.shape = sw ++ [3])
    (hc : CommonShape [sv, sw] sh) {i : List ℕ} (hi : Valid sh i)
    (hno : ¬ ArcPair (vec3 v sv.length (pickFrom sv i ++ [0])) (vec3 w sw.length (pickFrom sw i ++ [0]))) :
    shortestArcRotation x (.nd v) w = .error .nonfinite := by
  obtain ⟨R, h1, h2, -, h5⟩ := arc_common v w hv hw hc
  have h := h5 ⟨i, hi, by by_contra hcon; exact hno ((arcPair_iff _ _).mpr hcon)⟩
  simp only [shortestArcRotation, unpackNoTime, bind, Except.bind]
  rw [show orDefault none (-1) = -1 from rfl, h]

/-- Shapes that are not compatible raise ValueError. -/
theorem C45_incompatible (x : XrOps) {v w : ND ℝ} {sv sw : List ℕ} (hv : v.shape = sv ++ [3]) (hw : w.shape = sw ++ [3])
    (hn : ¬ ∃ sh, CommonShape [sv, sw] sh) : shortestArcRotation x (.nd v) w = .error .valueError := by
  obtain ⟨s1, e1, -, -⟩ := sumKeep_last (v.map fun x => x ^ 2) (s := sv) (n := 3) hv
  obtain ⟨s2, e2, -, -⟩ := sumKeep_last (w.map fun x => x ^ 2) (s := sw) (n := 3) hw
  have e3 : ND.bop (fun x y : ℝ => x * y) v w = .error .valueError := by
    simp only [ND.bop, hv, hw]
    cases hb : ND.bshape (sv ++ [3]) (sw ++ [3]) with
    | none => rfl
    | some r =>
      obtain ⟨r', e⟩ := bshape_of_snoc 3 hb
      exact absurd ⟨r', common_of_bshape e⟩ hn
  have h : shortestArc v w (-1) = .error .valueError := by
    simp only [shortestArc, e1, e2, e3, bind, Except.bind]
  simp only [shortestArcRotation, unpackNoTime, bind, Except.bind]
  rw [show orDefault none (-1) = -1 from rfl, h]

/-- A DataArray with the spatial dimension last, and an array that is broadcast to its shape: the result is a DataArray of this shape
with the spatial dimension replaced by `quaternion_axis`. -/
theorem C45_broadcast_dataarray (x : XrOps) {d : DArr} (hd : DArr.Ok d) {w : ND ℝ} {sv sw : List ℕ} (hv : d.data.shape = sv ++ [3])
    (hw : w.shape = sw ++ [3]) (hc : CommonShape [sv, sw] sv) {old : String} (hat : DimAt d old sv.length)
    (hfree : "quaternion_axis" ∉ d.info.dims ∨ "quaternion_axis" = old)
    (hall : ∀ i, Valid sv i → ArcPair (vec3 d.data sv.length (i ++ [0])) (vec3 w sw.length (pickFrom sw i ++ [0]))) :
    ∃ out, shortestArcRotation x (.da d) w = .ok (.da out) ∧ out.data.shape = sv ++ [4] ∧
      (∀ i, Valid sv i → IsShortestArc (vec3 d.data sv.length (i ++ [0])) (vec3 w sw.length (pickFrom sw i ++ [0])) (quat4 out.data sv.length (i ++ [0]))) ∧
      Relabelled d out sv.length old "quaternion_axis" ["w", "x", "y", "z"] := by
  have hnd : d.data.ndim = sv.length + 1 := by simp [ND.ndim, hv]
  have hax : AxisIs (-1) d.data.ndim sv.length := ⟨by omega, .inr (by rw [hnd]; push_cast; ring)⟩
  have hu : unpackAxis d none none = .ok (-1, old) := by
    exact unpackAxis_axis hd (axis := none) hax hat
  have hp : ∀ i, Valid sv i → pickFrom sv i = i := by
    intro i hi
    rw [pickFrom, ← bidx_eq_pick, hi.length, Nat.sub_self, List.drop_zero, bidx_valid hi]
  obtain ⟨R, h1, h2, h4, -⟩ := arc_common d.data w hv hw hc
  have h := h4 (by rintro ⟨i, hi, h0⟩; rw [hp i hi] at h0; exact (arcPair_iff _ _).mp (hall i hi) h0)
  obtain ⟨m', e1, e2, e3⟩ := relabel_ok x hd hat hax (into := "quaternion") (n := 3) (ndim := "quaternion_axis") (labels := ["w", "x", "y", "z"])
    rfl hfree (out := R) (by rw [h1, hv]; simp)
  refine ⟨⟨R, m'⟩, ?_, h1, fun i hi => ?_, e3⟩
  · have hcn : ¬ (d.data.ndim > 1 ∧ (-1 : ℤ) % d.data.ndim = 0) := by
      rintro ⟨a, b⟩
      rw [axisIs_emod hax] at b
      omega
    simp only [shortestArcRotation, unpackNoTime, hu, bind, Except.bind, if_neg hcn, Pure.pure, Except.pure, h, e1, e2]
  · have := h2 i hi
    rw [hp i hi] at this
    rw [this]
    exact arc_spec (hall i hi)

/-- If the dimension is named, its position must exist in the second array too: a single reference direction is then rejected for
every DataArray with further dimensions. -/
theorem C45_named_dim_fails (x : XrOps) {d : DArr} (hd : DArr.Ok d) {w : ND ℝ} {sv : List ℕ} (hv : d.data.shape = sv ++ [3])
    (hlen : w.ndim ≤ sv.length) {old : String} (hat : DimAt d old sv.length) :
    shortestArcRotation x (.da d) w (dim := some old) = .error .valueError := by
  have hu := unpackAxis_dim hd hat
  have hnd : d.data.ndim = sv.length + 1 := by simp [ND.ndim, hv]
  have hax : AxisIs (sv.length : ℤ) d.data.ndim sv.length := axisIs_nat (by omega)
  have hn : normAxis (sv.length : ℤ) w.ndim = none := by
    simp only [normAxis]
    split_ifs <;> first | rfl | omega
  have h : shortestArc d.data w (sv.length : ℤ) = .error .valueError := by
    have e1 := sumKeep_ok (d.data.map fun x => x ^ 2) (axis := (sv.length : ℤ)) (p := sv.length) (axisIs_norm hax)
    have e2 : (w.map fun x => x ^ 2).sumKeep (sv.length : ℤ) = .error .valueError := by
      simp only [ND.sumKeep]
      rw [show (w.map fun x => x ^ 2).ndim = w.ndim from rfl, hn]
    simp only [shortestArc, e1, e2, bind, Except.bind]
  simp only [shortestArcRotation, unpackNoTime, hu, bind, Except.bind]
  split_ifs
  · rfl
  · simp only [Pure.pure, Except.pure, h]

/-- Two vectors and one reference direction. -/
example (x : XrOps) : ∃ R, shortestArcRotation x (.nd (fitArr [![1, 0, 0], ![0, 3, 0]])) (Ex.arr1 [1, 2, 0]) = .ok (.nd R) ∧
    R.shape = [2, 4] ∧ IsShortestArc ![0, 3, 0] ![1, 2, 0] (quat4 R 1 [1, 0]) := by
  have hw : ∀ i : List ℕ, vec3 (Ex.arr1 [1, 2, 0]) 0 (pickFrom [] i ++ [0]) = ![1, 2, 0] := by
    intro i; simp [vec3, Ex.arr1, pickFrom, pickIdx]
  have hv : ∀ k, k < 2 → vec3 (fitArr [![1, 0, 0], ![0, 3, 0]]) 1 (pickFrom [2] [k] ++ [0]) = [![1, 0, 0], ![0, 3, 0]].getD k 0 := by
    intro k hk
    have : pickFrom [2] [k] ++ [0] = [k, 0] := by simp [pickFrom, pickIdx]
    rw [this, fitArr_row]
  obtain ⟨R, h1, h2, h3⟩ := C45_broadcast x (v := fitArr [![1, 0, 0], ![0, 3, 0]]) (w := Ex.arr1 [1, 2, 0]) (sv := [2]) (sw := []) (sh := [2])
    (by simp [fitArr]) (by simp [Ex.arr1]) (common_of_bshape (by decide)) (by
      intro i hi
      match i, hi with
      | [k], hi =>
        have hk : k < 2 := by simpa [Valid] using hi
        show ArcPair (vec3 _ 1 _) (vec3 _ 0 _)
        rw [hw, hv k hk]
        interval_cases k
        · refine ⟨?_, ?_, ?_⟩
          · intro h; have := congrFun h 0; simp at this
          · intro h; have := congrFun h 0; simp at this
          · rintro ⟨c, -, h⟩
            have := congrFun h 1
            simp at this
        · refine ⟨?_, ?_, ?_⟩
          · intro h; have := congrFun h 1; simp at this
          · intro h; have := congrFun h 1; simp at this
          · rintro ⟨c, hc, h⟩
            have := congrFun h 0
            simp at this)
  refine ⟨R, h1, by simpa using h2, ?_⟩
  have h := h3 [1] ⟨by norm_num, trivial⟩
  have e := hv 1 (by norm_num)
  rw [show ([2] : List ℕ).length = 1 from rfl, show ([] : List ℕ).length = 0 from rfl, hw, e] at h
  exact h

/-- Three positions with time and the direction of the third axis: accepted if the dimension is not named, else rejected. -/
example (x : XrOps) : (∃ out, shortestArcRotation x (.da exTimed) (Ex.arr1 [0, 0, 2]) = .ok (.da out) ∧ out.data.shape = [3, 4] ∧
      out.info.dims = ["time", "quaternion_axis"]) ∧
    shortestArcRotation x (.da exTimed) (Ex.arr1 [0, 0, 2]) (dim := some "cartesian_axis") = .error .valueError := by
  constructor
  · obtain ⟨out, h1, h2, -, h3⟩ := C45_broadcast_dataarray x exTimed_ok.ok (w := Ex.arr1 [0, 0, 2]) (sv := [3]) (sw := []) (by simp [exTimed, Ex.arr2])
      (by simp [Ex.arr1]) (common_of_bshape (by decide)) (old := "cartesian_axis") rfl (.inl (by simp [exTimed])) (by
        intro i hi
        match i, hi with
        | [k], hi =>
          have hk : k < 3 := by simpa [Valid] using hi
          have hw : vec3 (Ex.arr1 [0, 0, 2]) ([] : List ℕ).length (pickFrom [] [k] ++ [0]) = ![0, 0, 2] := by
            simp [vec3, Ex.arr1, pickFrom, pickIdx]
          rw [hw]
          have hv : 0 < vec3 exTimed.data ([3] : List ℕ).length ([k] ++ [0]) 0 := by
            interval_cases k <;> simp [vec3, exTimed, Ex.arr2]
          refine ⟨?_, ?_, ?_⟩
          · intro h; rw [h] at hv; simp at hv
          · intro h; have := congrFun h 2; simp at this
          · rintro ⟨c, hc, h⟩
            have := congrFun h 0
            simp only [Pi.smul_apply, smul_eq_mul, Matrix.cons_val_zero] at this
            rcases mul_eq_zero.mp this.symm with h0 | h0
            · exact absurd h0 hc.ne
            · exact absurd h0 hv.ne')
    exact ⟨out, h1, h2, by rw [h3.dims]; rfl⟩
  · exact C45_named_dim_fails x exTimed_ok.ok (sv := [3]) (by simp [exTimed, Ex.arr2]) (by simp [ND.ndim, Ex.arr1]) rfl

end RBM.Props
