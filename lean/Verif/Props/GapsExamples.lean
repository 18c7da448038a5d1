import Verif.Props.GapsOutliers
import Verif.Lemmas.Example3

/-!
Angular velocity in rotation vector mode with missing samples (C78), and concrete cases for C77-C79.
-/

namespace RBM.Props

open RBM.Spec

variable {arr : ND (Option ℝ)} {n k : ℕ} {ts : List ℝ}

theorem rotation_vector_gaps (ext : Ext) (hs : arr.shape = [n, 4]) (hn : ts.length = n) (h2 : 2 ≤ n) (hi : StrictlyIncreasing ts) :
    estimateAngularVelocityGaps ext arr none none (.arr (ofList ts)) none "rotation_vector" none none =
      .ok ⟨[n, 3], fun idx => gradAtGaps ts ((rotVecsGaps arr).lane 0 idx) (idx.getD 0 0)⟩ := by
  have hR : (rotVecsGaps arr).shape = [n, 3] := by simp [rotVecsGaps, hs]
  have hg := npGradientGaps_timed (arr := rotVecsGaps arr) (ts := ts) (ax := (0 : ℕ)) (p := 0)
    ⟨by rw [ND.ndim, hR]; simp, .inl rfl⟩ (by rw [hR, hn]; rfl) (by omega) hi
  rw [hR] at hg
  refine (angular_outlier_facts ext hs hn "rotation_vector" (v := _) ?_ rfl).1
  rw [rawAngularGaps, if_neg (by decide), if_pos rfl, if_neg (by rw [hs]; simp)]
  exact hg

/-- Rotation vector mode for `(n, 4)` arrays: the velocity of a sample is NaN exactly if a direct neighbour has a missing component,
or the sample itself has one and is at the boundary or the timestamps are uneven. All other velocities are those of any series that
agrees on the entries present. -/
theorem C78_rotation_vector (ext : Ext) (x : XrOps) (hs : arr.shape = [n, 4]) (hn : ts.length = n) (h2 : 2 ≤ n) (hi : StrictlyIncreasing ts) :
    ∃ w, estimateAngularVelocityGaps ext arr none none (.arr (ofList ts)) none "rotation_vector" none none = .ok w ∧ w.shape = [n, 3] ∧
      (∀ i j, i < n → j < 3 → (w.get [i, j] = none ↔ Lost ts (fun k => ¬ RowPresent arr 4 k) i)) ∧
      ∀ arr', Completes arr' arr → ∃ v, estimateAngularVelocity ext x (.nd arr') none none (.arr (ofList ts)) none "rotation_vector" none none = .ok (.nd v) ∧
        ∀ i j, i < n → j < 3 → w.get [i, j] ≠ none → w.get [i, j] = v.get [i, j] := by
  have hlane : ∀ (a : ND (Option ℝ)), a.shape = [n, 4] → ∀ i j m, m < n → ((rotVecsGaps a).lane 0 [i, j]).getD m none = (rotVecsGaps a).get [m, j] := by
    intro a ha i j m hm
    have hR : (rotVecsGaps a).shape = [n, 3] := by simp [rotVecsGaps, ha]
    rw [lane_get _ _ _ (by rw [hR]; exact hm)]; rfl
  have hnone : ∀ m j, (rotVecsGaps arr).get [m, j] = none ↔ ¬ RowPresent arr 4 m := by
    intro m j
    rw [rotVecsGaps_get]
    by_cases h : RowPresent arr 4 m
    · simp [h]
    · simp [h]
  refine ⟨_, rotation_vector_gaps ext hs hn h2 hi, rfl, ?_, ?_⟩
  · intro i j hin hj
    show gradAtGaps ts ((rotVecsGaps arr).lane 0 [i, j]) i = none ↔ _
    rw [(gradAtGaps_lost (by omega) (by omega)).1]
    refine or_congr ⟨?_, ?_⟩ (and_congr_left fun _ => by show (((rotVecsGaps arr).lane 0 [i, j]).getD i none = none) ↔ _; rw [hlane arr hs i j i hin, hnone])
    · rintro ⟨k, h1, h3, h4⟩
      exact ⟨k, h1, h3, (hnone k j).mp (by rw [← hlane arr hs i j k (by omega)]; exact h4)⟩
    · rintro ⟨k, h1, h3, h4⟩
      exact ⟨k, h1, h3, by show ((rotVecsGaps arr).lane 0 [i, j]).getD k none = none; rw [hlane arr hs i j k (by omega)]; exact (hnone k j).mpr h4⟩
  · intro arr' hc
    have hs' : (arr'.map some).shape = [n, 4] := by rw [← hs]; exact hc.1
    obtain ⟨r, e, hag⟩ := C77_no_gaps ext x arr' none none (.arr (ofList ts)) none "rotation_vector" none none
    rw [rotation_vector_gaps ext hs' hn h2 hi] at hag
    rcases hag with ⟨e'⟩ | ⟨a, b, hab⟩
    refine ⟨b, e, fun i j hin hj hw => ?_⟩
    rw [← hab.2 [i, j] (show Valid [n, 3] [i, j] from ⟨hin, hj, trivial⟩)]
    have hfull : ∀ m, RowPresent (arr'.map some) 4 m := fun m c _ => by simp [ND.map]
    show gradAtGaps ts ((rotVecsGaps arr).lane 0 [i, j]) i = gradAtGaps ts ((rotVecsGaps (arr'.map some)).lane 0 [i, j]) i
    refine ((gradAtGaps_lost (xs := ts) (i := i) (by omega) (by omega)).2 (((rotVecsGaps (arr'.map some)).lane 0 [i, j]).map fun o => o.getD 0) (fun m y hm => ?_) hw).trans
      (gradAtGaps_present (xs := ts) (i := i) (fun m hm => ?_)).symm
    · have hml : m < n := by
        have hl := lane_length (rotVecsGaps arr) 0 [i, j]
        have hR : (rotVecsGaps arr).shape = [n, 3] := by simp [rotVecsGaps, hs]
        rw [hR] at hl
        by_contra hcon
        rw [List.getD_eq_getElem?_getD, List.getElem?_eq_none (by rw [hl]; simp; omega)] at hm
        cases hm
      have hR' : (rotVecsGaps (arr'.map some)).shape = [n, 3] := by simp [rotVecsGaps, hs']
      have h2' := hlane _ hs' i j m hml
      rw [hlane arr hs i j m hml, rotVecsGaps_get] at hm
      rw [rotVecsGaps_get, if_pos (hfull m)] at h2'
      have hp : RowPresent arr 4 m := by
        by_contra hcon; rw [if_neg hcon] at hm; cases hm
      rw [if_pos hp] at hm
      have hq : quat4 (arr'.map some).fill 1 [m, 0] = quat4 arr.fill 1 [m, 0] := by
        have hf : ∀ c, c < 4 → (arr'.map some).fill.get [m, c] = arr.fill.get [m, c] := by
          intro c hc4
          obtain ⟨y, hy⟩ := Option.ne_none_iff_exists'.mp (hp c hc4)
          have hv : Valid arr.shape [m, c] := by rw [hs]; exact ⟨hml, hc4, trivial⟩
          simp [ND.fill, ND.map, hy, hc.2 _ _ hv hy]
        have h0 := hf 0 (by omega)
        have h1 := hf 1 (by omega)
        have h2 := hf 2 (by omega)
        have h3 := hf 3 (by omega)
        simp only [quat4, List.set_cons_succ, List.set_cons_zero, h0, h1, h2, h3]
        rfl
      rw [hq] at h2'
      rw [List.getD_eq_getElem?_getD] at h2' ⊢
      rw [List.getElem?_map]
      cases ho : ((rotVecsGaps (arr'.map some)).lane 0 [i, j])[m]? with
      | none => rw [ho] at h2'; cases h2'
      | some o =>
        rw [ho] at h2'
        have : o = _ := h2'
        rw [this]
        exact Option.some.inj hm
    · have hml := gradNeeds_lt (by omega) (by omega) hm
      rw [hlane _ hs' i j m (by omega), rotVecsGaps_get, if_pos (hfull m)]
      simp

/-! ### Concrete cases -/

/-- Four orientations (identity), one component of the second one is missing. -/
def exGap : ND (Option ℝ) := ⟨[4, 4], fun idx => if idx = [1, 2] then none else if idx.getD 1 0 = 0 then some 1 else some 0⟩

theorem exGap_present : Present exGap 0 [0, 2, 3] := by
  refine ⟨by simp, fun i => ⟨fun h => ?_, fun h => ?_⟩⟩
  · have hi : i = 0 ∨ i = 2 ∨ i = 3 := by simpa using h
    refine ⟨by simp [exGap]; omega, fun idx hv he => ?_⟩
    have hne : idx ≠ [1, 2] := by rintro rfl; simp at he; omega
    simp only [exGap, if_neg hne]
    split_ifs <;> simp
  · have h1 : i < 4 := h.1
    have h2 : i ≠ 1 := by
      rintro rfl
      exact h.2 [1, 2] ⟨by omega, by omega, trivial⟩ rfl (by simp [exGap])
    simp; omega

/-- `C77_gaps` with `exGap`: the velocities at 0, 2, 3 are those of the series without sample 1, the velocity at 1 is NaN. -/
example (x : XrOps) : ∃ (arr' : ND ℝ) (ts' : List ℝ) (v w : ND (Option ℝ)), Selected exGap [0, 1, 3, 4] 0 [0, 2, 3] arr' ts' ∧ ts' = [0, 3, 4] ∧
    estimateAngularVelocity Ex.ext x (.nd arr') none none (.arr (ofList ts')) none "quaternion" none none = .ok (.nd v) ∧
    estimateAngularVelocityGaps Ex.ext exGap none none (.arr (ofList [0, 1, 3, 4])) none "quaternion" none none = .ok w ∧
    w.get [1, 0] = none ∧ w.get [2, 1] = v.get [1, 1] ∧ w.get [2, 1] ≠ none := by
  obtain ⟨ks, arr', ts', h1, h2⟩ := exists_selected exGap [0, 1, 3, 4] (p := 0) (by simp [exGap, ND.ndim]) rfl
  have hk : ks = [0, 2, 3] := sorted_ext h1.sorted exGap_present.sorted fun i => (h1.mem i).trans (exGap_present.mem i).symm
  subst hk
  have hts : ts' = [0, 3, 4] := by
    have a0 := h2.times 0 0 rfl
    have a1 := h2.times 1 2 rfl
    have a2 := h2.times 2 3 rfl
    have hl := h2.length
    match ts', hl with
    | [a, b, c], _ => simp at a0 a1 a2; simp [a0, a1, a2]
  refine ⟨arr', ts', ?_⟩
  have hax : AxisIs (orDefault none (-1)) exGap.ndim 1 := ⟨by simp [exGap, ND.ndim], .inr (by simp [orDefault, exGap, ND.ndim])⟩
  have hp : AxisIs (orDefault none 0) exGap.ndim 0 := ⟨by simp [exGap, ND.ndim], .inl rfl⟩
  rcases C77_gaps (ext := Ex.ext) x hax hp (by omega) rfl h1 h2 with ⟨e, he, _⟩ | ⟨v, w, e1, e2, e3, e4, e5⟩
  · exfalso
    subst hts
    have hsh : arr'.shape = [3, 4] := h2.shape
    have hax' : AxisIs (orDefault none (-1)) arr'.ndim 1 := ⟨by simp [ND.ndim, hsh], .inr (by simp [orDefault, ND.ndim, hsh])⟩
    have hp' : AxisIs (orDefault none 0) arr'.ndim 0 := ⟨by simp [ND.ndim, hsh], .inl rfl⟩
    obtain ⟨v, hv, _⟩ := C37_quaternion_mode (ext := Ex.ext) (arr := arr') (ts := [0, 3, 4]) x (Ex.ext_deriv.accepts _ (by simp) (by simp [StrictlyIncreasing]; norm_num))
      hax' hp' (by omega) (by rw [hsh]; rfl) (by rw [hsh]; rfl)
    rw [hv] at he; cases he
  · have hw : w.shape = [4, 3] := e3
    refine ⟨v, w, h2, hts, e1, e2, e4 _ (by rw [hw]; exact ⟨by omega, by omega, trivial⟩) (by simp), ?_⟩
    exact e5 [2, 1] 1 2 (by rw [hw]; exact ⟨by omega, by omega, trivial⟩) rfl rfl

/-- Positions 0, 1, 2, 3, 4 of which the second is missing. -/
def exHole : ND (Option ℝ) := ⟨[5, 1], fun idx => if idx.getD 0 0 = 1 then none else some (idx.getD 0 0 : ℕ)⟩

/-- `C78_gaps` with evenly spaced timestamps: the neighbours of the missing sample have no velocity, the missing sample has one. -/
example (ext : Ext) (x : XrOps) : ∃ w, estimateLinearVelocityGaps ext exHole none none (.arr (ofList [0, 1, 2, 3, 4])) none none none = .ok w ∧
    w.get [0, 0] = none ∧ w.get [1, 0] ≠ none ∧ w.get [2, 0] = none ∧ w.get [3, 0] ≠ none := by
  have hU : Uniform [0, 1, 2, 3, 4] := by
    intro k a b c d ha hb hc hd
    match k with
    | 0 => simp at ha hb hc hd; rw [← ha, ← hb, ← hc, ← hd]
    | 1 => simp at ha hb hc hd; rw [← ha, ← hb, ← hc, ← hd]; norm_num
    | 2 => simp at ha hb hc hd; rw [← ha, ← hb, ← hc, ← hd]; norm_num
    | 3 => simp at ha hb hc hd; rw [← ha, ← hb, ← hc, ← hd]; norm_num
    | m + 4 => simp at hb
  have hm : ∀ k, (exHole.get ((([0, 0] : List ℕ)).set 0 k) = none ↔ k = 1) := by
    intro k; simp [exHole]
  obtain ⟨w, e, hw, h1, -⟩ := C78_gaps (ext := ext) (arr := exHole) (axis := none) (ta := none) (pa := 1) (p := 0) (ts := [0, 1, 2, 3, 4]) x
    ⟨by simp [exHole, ND.ndim], .inr (by simp [orDefault, exHole, ND.ndim])⟩ ⟨by simp [exHole, ND.ndim], .inl rfl⟩ (by omega) rfl (by simp)
    (by simp [StrictlyIncreasing]; norm_num)
  have hL : ∀ i, i < 5 → (w.get [i, 0] = none ↔ i = 0 ∨ i = 2) := by
    intro i hi
    rw [h1 [i, 0] ⟨hi, by omega, trivial⟩]
    have hm' : ∀ k, (exHole.get (([i, 0] : List ℕ).set 0 k) = none ↔ k = 1) := by intro k; simp [exHole]
    simp only [Lost, hm']
    simp only [List.getD_cons_zero, hU, not_true_eq_false, or_false, List.length_cons, List.length_nil]
    constructor
    · rintro (⟨k, _, h, rfl⟩ | ⟨rfl, h⟩) <;> omega
    · intro h
      exact .inl ⟨1, by omega, by omega, rfl⟩
  exact ⟨w, e, (hL 0 (by omega)).mpr (.inl rfl), fun h => by simpa using (hL 1 (by omega)).mp h, (hL 2 (by omega)).mpr (.inr rfl),
    fun h => by simpa using (hL 3 (by omega)).mp h⟩

/-- Six evenly moving positions, the first one missing. -/
def exFirst : ND (Option ℝ) := ⟨[6, 1], fun idx => if idx.getD 0 0 = 0 then none else some (idx.getD 0 0 : ℕ)⟩
def exFull : ND ℝ := ⟨[6, 1], fun idx => (idx.getD 0 0 : ℕ)⟩

theorem exFirst_completes : Completes exFull exFirst := by
  refine ⟨rfl, fun idx x _ h => ?_⟩
  simp only [exFirst] at h
  split_ifs at h
  exact Option.some.inj h

theorem exFirst_row (m : ℕ) : RowPresent exFirst 1 m ↔ m ≠ 0 := by
  simp [RowPresent, exFirst]

theorem exFirst_known (i : ℕ) (h : 2 ≤ i) : JumpKnown exFirst 6 1 i := by
  intro m hm
  rw [exFirst_row]; omega

theorem exFull_jump (i : ℕ) : jump exFull 6 1 i = 0 := by
  have hb : ∀ i, bend exFull 6 1 i = 0 := by
    intro i
    simp only [bend, exFull]
    split_ifs with h
    · obtain ⟨k, rfl⟩ : ∃ k, i = k + 1 := ⟨i - 1, by omega⟩
      simp
      ring_nf
      exact Real.sqrt_zero
    · rfl
  rw [jump, hb, hb]; simp

/-- `C79_linear`: with the first position missing the first two velocities are dropped. -/
example (ext : Ext) : ∃ v w, estimateLinearVelocityGaps ext exFirst none none (.arr (ofList [0, 1, 2, 3, 4, 5])) none none none = .ok v ∧
    estimateLinearVelocityGaps ext exFirst none none (.arr (ofList [0, 1, 2, 3, 4, 5])) none (some 1) none = .ok w ∧
    w.get [1, 0] = none ∧ w.get [3, 0] = v.get [3, 0] ∧ v.get [3, 0] ≠ none := by
  have hj : ∀ i, jump exFull 6 1 i ≤ 1 := fun i => by rw [exFull_jump]; norm_num
  obtain ⟨v, w, e1, e2, -, -, hI, hp⟩ := C79_linear ext (arr := exFirst) (n := 6) (k := 1) (ts := [0, 1, 2, 3, 4, 5]) rfl rfl
    (by simp [StrictlyIncreasing]; norm_num) 1 exFirst_completes ((exFirst_row _).mpr (by omega)) ((exFirst_row _).mpr (by omega)) (a := 2) (b := 3)
    (by omega) (by omega) ⟨exFirst_known 2 (by omega), hj 2⟩ ⟨exFirst_known 3 (by omega), hj 3⟩
  refine ⟨v, w, e1, e2, hI.outside 1 0 (by omega) (by omega) (.inl fun m hm h => ?_), hI.kept 3 0 (by omega) (by omega) ⟨exFirst_known 3 (by omega), hj 3⟩,
    hp 3 (by omega) ⟨exFirst_known 3 (by omega), hj 3⟩ 0 (by omega)⟩
  exact (exFirst_row 0).mp (h.1 0 (by omega)) rfl

/-- Six evenly moving positions, the last one missing: `C79_last_missing` makes the velocities from the fourth on NaN. -/
def exLast : ND (Option ℝ) := ⟨[6, 1], fun idx => if idx.getD 0 0 = 5 then none else some (idx.getD 0 0 : ℕ)⟩

example (ext : Ext) : ∃ w, estimateLinearVelocityGaps ext exLast none none (.arr (ofList [0, 1, 2, 3, 4, 5])) none (some 1) none = .ok w ∧
    w.get [3, 0] = none ∧ w.get [4, 0] = none ∧ w.get [5, 0] = none := by
  have hrow : ∀ m, RowPresent exLast 1 m ↔ m ≠ 5 := fun m => by simp [RowPresent, exLast]
  have hc : Completes exFull exLast := by
    refine ⟨rfl, fun idx x _ h => ?_⟩
    simp only [exLast] at h
    split_ifs at h
    exact Option.some.inj h
  have hj : ∀ i, jump exFull 6 1 i ≤ 1 := fun i => by rw [exFull_jump]; norm_num
  obtain ⟨w, e, -, h⟩ := C79_last_missing ext (arr := exLast) (n := 6) (k := 1) (ts := [0, 1, 2, 3, 4, 5]) rfl rfl
    (by simp [StrictlyIncreasing]; norm_num) (th := 1) (by norm_num) hc (j := 0) (by simp [exLast]) (a := 2) (by omega)
    ⟨fun m hm => (hrow m).mpr (by omega), hj 2⟩ (fun m h1 h2 h3 => (hrow 5).mp (h3.1 5 (by omega)) rfl)
  exact ⟨w, e, h 3 (by omega) (by omega), h 4 (by omega) (by omega), h 5 (by omega) (by omega)⟩

end RBM.Props
