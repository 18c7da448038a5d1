import Verif.Spec.Units
import Verif.Lemmas.Clock

/-!
The matcher commutes with a change of the clock and of the unit of length.
-/

namespace RBM

open Spec

variable {k c : ℝ} (hk : 0 < k)

/-- Local notation for the times of a list by another clock. -/
abbrev rcL (k c : ℝ) (l : List ℝ) : List ℝ := l.map (reclock k c)

include hk in
theorem reclock_lt {a b : ℝ} : reclock k c a < reclock k c b ↔ a < b := by
  simp only [reclock, add_lt_add_iff_right, mul_lt_mul_iff_right₀ hk]

include hk in
theorem reclock_le {a b : ℝ} : reclock k c a ≤ reclock k c b ↔ a ≤ b := by
  simp only [reclock, add_le_add_iff_right, mul_le_mul_iff_right₀ hk]

include hk in
theorem reclock_inj {a b : ℝ} : reclock k c a = reclock k c b ↔ a = b := by
  simp only [reclock, add_left_inj, mul_right_inj' hk.ne']

theorem reclock_sub {a b : ℝ} : reclock k c a - reclock k c b = k * (a - b) := by
  simp only [reclock]; ring

theorem rcL_getD {l : List ℝ} {i : ℕ} (h : i < l.length) : (rcL k c l).getD i 0 = reclock k c (l.getD i 0) := by
  simp [rcL, h]

theorem rcL_length (l : List ℝ) : (rcL k c l).length = l.length := by simp [rcL]

include hk in
theorem anyDecrease_units : ∀ l : List ℝ, anyDecrease (rcL k c l) ↔ anyDecrease l
  | [] => Iff.rfl
  | [_] => Iff.rfl
  | a :: b :: l => by
    have ih := anyDecrease_units (b :: l)
    simp only [rcL, List.map_cons, anyDecrease] at ih ⊢
    rw [ih, sub_neg, sub_neg, reclock_lt hk]

include hk in
theorem checkTimestamps_units (ts : Option (List ℝ)) (n : ℕ) : checkTimestamps (ts.map (rcL k c)) n = checkTimestamps ts n := by
  cases ts with
  | none => rfl
  | some ts =>
    simp only [checkTimestamps, Option.map_some, rcL_length]
    by_cases h : anyDecrease ts
    · rw [if_pos h, if_pos ((anyDecrease_units hk ts).mpr h)]
    · rw [if_neg h, if_neg (fun h' => h ((anyDecrease_units hk ts).mp h'))]

include hk in
theorem discreteRows_units {α : Type} (rows : List α) (ev ts : List ℝ) : discreteRows rows (rcL k c ev) (rcL k c ts) = discreteRows rows ev ts := by
  cases rows with
  | nil => rfl
  | cons r0 rows =>
    simp only [discreteRows, rcL_length, Except.ok.injEq]
    generalize List.replicate ts.length r0 = out
    generalize r0 :: rows = rows
    induction rows generalizing ev out with
    | nil => rfl
    | cons r rows ih =>
      cases ev with
      | nil => rfl
      | cons e ev =>
        simp only [rcL, List.map_cons, List.zip_cons_cons, List.foldl_cons] at ih ⊢
        rw [← ih]
        congr 1
        rw [List.zipWith_map_right]
        congr 1
        funext o τ
        simp only [ge_iff_le, reclock_le hk]

include hk in
theorem searchLeft_units (xs : List ℝ) (t : ℝ) : searchLeft (rcL k c xs) (reclock k c t) = searchLeft xs t := by
  simp only [searchLeft, rcL, List.filter_map, List.length_map]
  congr 2
  funext x
  simp only [Function.comp_apply, reclock_lt hk]

include hk in
theorem interpLoc_units (xs : List ℝ) (t : ℝ) : interpLoc (rcL k c xs) (reclock k c t) = interpLoc xs t := by
  simp only [interpLoc, rcL_length, searchLeft_units hk]
  by_cases hn : xs.length = 0
  · simp [hn]
  · have h0 : 0 < xs.length := by omega
    simp only [if_neg hn]
    rw [rcL_getD h0, rcL_getD (by omega : xs.length - 1 < xs.length)]
    have hhi : min (max (searchLeft xs t) 1) (xs.length - 1) < xs.length := by omega
    have hlo : (if min (max (searchLeft xs t) 1) (xs.length - 1) = 0 then xs.length - 1 else min (max (searchLeft xs t) 1) (xs.length - 1) - 1) < xs.length := by
      split <;> omega
    rw [rcL_getD hhi, rcL_getD hlo]
    simp only [reclock_lt hk, reclock_inj hk]

include hk in
theorem interpVal_units {V} [AddCommGroup V] [Module ℝ V] (u : ℝ) (xs : List ℝ) (ys : List V) (t : ℝ) {loc : ℕ × ℕ} (h1 : loc.1 < xs.length) (h2 : loc.2 < xs.length) (hl : xs.length = ys.length) :
    interpVal (rcL k c xs) (ys.map (u • ·)) (reclock k c t) loc = u • interpVal xs ys t loc := by
  have e : ∀ {i : ℕ}, i < xs.length → (ys.map (u • ·)).getD i 0 = u • ys.getD i 0 := fun {i} hi => by
    simp [hl ▸ hi]
  simp only [interpVal, rcL_getD h1, rcL_getD h2, reclock_sub, e h1, e h2, smul_add, ← smul_sub]
  congr 1
  generalize ys.getD loc.2 0 - ys.getD loc.1 0 = y
  simp only [smul_smul]
  congr 1
  rw [one_div, one_div, mul_inv]
  field_simp

include hk in
theorem interpAt_units {V} [AddCommGroup V] [Module ℝ V] (u : ℝ) (xs : List ℝ) (ys : List V) (t : ℝ) :
    interpAt (rcL k c xs) (ys.map (u • ·)) (reclock k c t) = (interpAt xs ys t).map (u • ·) := by
  simp only [interpAt, rcL_length, interpLoc_units hk, List.length_map]
  split
  · rfl
  · rename_i hl
    cases h : interpLoc xs t with
    | error e => rfl
    | ok loc =>
      obtain ⟨h1, h2⟩ := interpLoc_lt h
      simp only [interpVal_units hk u xs ys t h1 h2 (not_not.mp hl), Except.map]

include hk in
theorem anyOutside_units {xs : List ℝ} (h : 0 < xs.length) (ts : List ℝ) : anyOutside (rcL k c xs) (rcL k c ts) ↔ anyOutside xs ts := by
  simp only [anyOutside, rcL_length, rcL_getD h, rcL_getD (by omega : xs.length - 1 < xs.length)]
  constructor
  · rintro ⟨t, ht, h⟩
    obtain ⟨t', ht', rfl⟩ := List.mem_map.mp ht
    exact ⟨t', ht', by simpa only [reclock_lt hk] using h⟩
  · rintro ⟨t, ht, h⟩
    exact ⟨reclock k c t, List.mem_map.mpr ⟨t, ht, rfl⟩, by simpa only [reclock_lt hk] using h⟩

theorem collect_exceptMap {α β : Type} (f : α → β) (l : List (Res α)) : collect (l.map (Except.map f)) = (collect l).map (List.map f) := by
  induction l with
  | nil => rfl
  | cons x l ih =>
    cases x with
    | error e => rfl
    | ok a =>
      simp only [List.map_cons, Except.map, collect, ih]
      cases collect l <;> rfl

include hk in
theorem interp1d_units {V : Type} [AddCommGroup V] [Module ℝ V] (u : ℝ) (xs : List ℝ) (ys : List V) (ts : List ℝ) :
    interp1d (rcL k c xs) (ys.map (u • ·)) (rcL k c ts) = (interp1d xs ys ts).map (List.map (u • ·)) := by
  by_cases hl : xs.length ≠ ys.length
  · simp only [interp1d, rcL_length, List.length_map, if_pos hl]; rfl
  · by_cases h0 : 0 < xs.length
    · simp only [interp1d, rcL_length, List.length_map, if_neg hl]
      have : (rcL k c ts).map (interpAt (rcL k c xs) (ys.map (u • ·))) = (ts.map (interpAt xs ys)).map (Except.map (u • ·)) := by
        rw [rcL, List.map_map, List.map_map]
        apply List.map_congr_left
        intro t _
        exact interpAt_units hk u xs ys t
      rw [this]
      by_cases h : anyOutside xs ts
      · rw [if_pos h, if_pos ((anyOutside_units hk h0 ts).mpr h)]; rfl
      · rw [if_neg h, if_neg (fun h' => h ((anyOutside_units hk h0 ts).mp h')), collect_exceptMap]
    · have hx : xs = [] := List.length_eq_zero_iff.mp (by omega)
      subst hx
      have hy : ys = [] := List.length_eq_zero_iff.mp (by simp only [List.length_nil, ne_eq, not_not] at hl; exact hl.symm)
      subst hy
      have key : ∀ ts : List ℝ, interp1d [] ([] : List V) ts = if ts = [] then .ok [] else .error .valueError := by
        intro ts
        by_cases h : ts = []
        · subst h; simp [interp1d, anyOutside, collect]
        · simp only [interp1d, if_neg h, collect_empty_data ts h, ite_self]
      rw [show rcL k c [] = [] from rfl, List.map_nil, key, key]
      by_cases h : ts = [] <;> simp [rcL, h, Except.map]

include hk in
theorem squad_units {sq : SquadFn} (hsq : UnitsLaw sq) (qs : List Quat) (xs ts : List ℝ) : squad sq qs (rcL k c xs) (rcL k c ts) = squad sq qs xs ts := by
  simp only [squad, rcL, List.map_eq_nil_iff, List.map_map]
  congr 3
  apply List.map_congr_left
  intro t _
  exact hsq k c qs xs t hk

/-- A frame of the matcher in other units. -/
noncomputable def rcF (k c u : ℝ) (f : MFrame) : MFrame := { f with translation := f.translation.map (u • ·), timestamps := f.timestamps.map (rcL k c) }

/-- An array of the matcher in other units: one new unit for times, another one for the values. -/
noncomputable def rcA (k c w : ℝ) (a : MArray) : MArray := ⟨a.data.map (w * ·), a.timestamps.map (rcL k c)⟩

/-- A matcher in other units: lengths of the frames, values of the arrays. -/
noncomputable def rcM (k c u w : ℝ) (m : Matcher) : Matcher := ⟨m.frames.map (rcF k c u), m.arrays.map (rcA k c w)⟩

theorem tileRows_map {α β : Type} (f : α → β) (n : ℕ) (a : Arr α) : tileRows n (a.map f) = (tileRows n a).map f := by
  cases a with
  | one a => simp [tileRows, Arr.map]
  | many l => simp [tileRows, Arr.map, List.map_flatten]

theorem discreteRows_map {α β : Type} (f : α → β) (rows : List α) (ev ts : List ℝ) : discreteRows (rows.map f) ev ts = (discreteRows rows ev ts).map (List.map f) := by
  cases rows with
  | nil => rfl
  | cons r0 rows =>
    simp only [discreteRows, List.map_cons, Except.map, Except.ok.injEq]
    rw [show f r0 :: rows.map f = (r0 :: rows).map f from rfl, show List.replicate ts.length (f r0) = (List.replicate ts.length r0).map f by simp]
    generalize List.replicate ts.length r0 = out
    generalize r0 :: rows = rows
    induction rows generalizing ev out with
    | nil => rfl
    | cons r rows ih =>
      cases ev with
      | nil => rfl
      | cons e ev =>
        simp only [List.map_cons, List.zip_cons_cons, List.foldl_cons] at ih ⊢
        rw [← ih]
        congr 1
        rw [List.zipWith_map_left, List.map_zipWith]
        congr 1
        funext o τ
        split <;> rfl

include hk in
theorem transformFromFrame_units {sq : SquadFn} (hsq : UnitsLaw sq) (u : ℝ) (f : MFrame) (ts : Option (List ℝ)) :
    transformFromFrame sq (rcF k c u f) (ts.map (rcL k c)) = (transformFromFrame sq f ts).map fun p => (p.1.map (u • ·), p.2) := by
  obtain ⟨tr, ro, fts, disc, inv⟩ := f
  cases fts with
  | none => cases ts <;> simp only [transformFromFrame, rcF, Option.map_none, Option.map_some, rcL_length, Except.map, tileRows_map] <;> rfl
  | some fts =>
  cases ts with
  | none => rfl
  | some ts =>
  cases tr with
  | one t => cases ro <;> rfl
  | many tr =>
  cases ro with
  | one t => rfl
  | many ro =>
  simp only [transformFromFrame, rcF, Option.map_some, Arr.map]
  simp only [discreteRows_units hk, discreteRows_map, interp1d_units hk, squad_units hk hsq]
  cases disc
  · simp only [Bool.false_eq_true, if_false]
    cases interp1d fts tr ts with
    | error e => rfl
    | ok t => cases squad sq ro fts ts <;> rfl
  · simp only [if_true]
    cases discreteRows tr fts ts with
    | error e => rfl
    | ok t => cases discreteRows ro fts ts <;> rfl

theorem firstLen_map (f : Vec → Vec) (a : Arr Vec) : firstLen (a.map f) = firstLen a := by
  cases a <;> simp [firstLen, Arr.map]

include hk in
theorem addFrame_units (u w : ℝ) (m : Matcher) (f : MFrame) : (rcM k c u w m).addFrame (rcF k c u f) = (m.addFrame f).map (rcM k c u w) := by
  have : checkTimestamps (rcF k c u f).timestamps (firstLen (rcF k c u f).translation) = checkTimestamps f.timestamps (firstLen f.translation) := by
    simp only [rcF, firstLen_map]
    exact checkTimestamps_units hk _ _
  simp only [Matcher.addFrame, this]
  cases checkTimestamps f.timestamps (firstLen f.translation) with
  | error e => rfl
  | ok _ => simp [Except.map, rcM]

theorem filterMap_units {α : Type} (f : α → Option (List ℝ)) (g : α → α) (h : ∀ a, f (g a) = (f a).map (rcL k c)) (l : List α) :
    (l.map g).filterMap f = (l.filterMap f).map (rcL k c) := by
  induction l with
  | nil => rfl
  | cons a l ih =>
    simp only [List.map_cons, List.filterMap_cons, h, ih]
    cases f a <;> rfl

theorem continuous_units (u w : ℝ) (m : Matcher) : (rcM k c u w m).continuous = m.continuous.map (rcL k c) := by
  simp only [Matcher.continuous, rcM, List.map_append]
  congr 1
  · exact filterMap_units _ _ (fun f => by obtain ⟨_, _, _, disc, _⟩ := f; cases disc <;> rfl) _
  · exact filterMap_units (fun a : MArray => a.timestamps) (rcA k c w) (fun f => rfl) _

theorem firstStamps_units : ∀ l : List (List ℝ), firstStamps (l.map (rcL k c)) = (firstStamps l).map (rcL k c)
  | [] => rfl
  | [] :: _ => rfl
  | (a :: x) :: ls => by
    have ih := firstStamps_units ls
    simp only [List.map_cons, firstStamps, rcL] at ih ⊢
    rw [ih]
    cases firstStamps ls <;> rfl

theorem lastStamps_units : ∀ l : List (List ℝ), lastStamps (l.map (rcL k c)) = (lastStamps l).map (rcL k c)
  | [] => rfl
  | [] :: _ => rfl
  | (a :: x) :: ls => by
    have ih := lastStamps_units ls
    simp only [List.map_cons, lastStamps, rcL] at ih ⊢
    rw [ih]
    cases lastStamps ls with
    | error e => rfl
    | ok r =>
      simp only [Except.map, List.map_cons, Except.ok.injEq, List.cons.injEq, and_true]
      have := List.getLast_map (f := reclock k c) (l := a :: x) (by simp)
      simpa using this

include hk in
theorem reclock_mono : Monotone (reclock k c) := fun _ _ h => (reclock_le hk).mpr h

include hk in
theorem foldl_max_units (l : List ℝ) (a : ℝ) : (rcL k c l).foldl max (reclock k c a) = reclock k c (l.foldl max a) := by
  induction l generalizing a with
  | nil => rfl
  | cons b l ih =>
    simp only [rcL, List.map_cons, List.foldl_cons] at ih ⊢
    rw [← (reclock_mono hk).map_max, ih]

include hk in
theorem foldl_min_units (l : List ℝ) (a : ℝ) : (rcL k c l).foldl min (reclock k c a) = reclock k c (l.foldl min a) := by
  induction l generalizing a with
  | nil => rfl
  | cons b l ih =>
    simp only [rcL, List.map_cons, List.foldl_cons] at ih ⊢
    rw [← (reclock_mono hk).map_min, ih]

include hk in
theorem npMax_units (l : List ℝ) : npMax (rcL k c l) = (npMax l).map (reclock k c) := by
  cases l with
  | nil => rfl
  | cons a l => simp only [rcL, List.map_cons, npMax, Option.map_some]; rw [← foldl_max_units hk]

include hk in
theorem npMin_units (l : List ℝ) : npMin (rcL k c l) = (npMin l).map (reclock k c) := by
  cases l with
  | nil => rfl
  | cons a l => simp only [rcL, List.map_cons, npMin, Option.map_some]; rw [← foldl_min_units hk]

include hk in
theorem getRange_units (u w : ℝ) (m : Matcher) : (rcM k c u w m).getRange = m.getRange.map fun p => (p.1.map (reclock k c), p.2.map (reclock k c)) := by
  simp only [Matcher.getRange, continuous_units u w, firstStamps_units, lastStamps_units]
  cases firstStamps m.continuous with
  | error e => rfl
  | ok f => cases lastStamps m.continuous with
    | error e => rfl
    | ok l => simp only [Except.map, npMax_units hk, npMin_units hk]

include hk in
theorem selectRange_units (range : Option ℝ × Option ℝ) (ts : List ℝ) :
    selectRange (range.1.map (reclock k c), range.2.map (reclock k c)) (rcL k c ts) = rcL k c (selectRange range ts) := by
  simp only [selectRange, rcL, List.filter_map]
  congr 2
  funext t
  obtain ⟨a, b⟩ := range
  cases a <;> cases b <;> simp [reclock_le hk]

include hk in
theorem insertUnique_units (a : ℝ) (l : List ℝ) : insertUnique (reclock k c a) (rcL k c l) = rcL k c (insertUnique a l) := by
  induction l with
  | nil => rfl
  | cons b l ih =>
    simp only [rcL, List.map_cons, insertUnique, reclock_lt hk, reclock_inj hk] at ih ⊢
    split
    · rfl
    · split
      · rfl
      · rw [ih]; rfl

include hk in
theorem npUnique_units (l : List ℝ) : npUnique (rcL k c l) = rcL k c (npUnique l) := by
  induction l with
  | nil => rfl
  | cons a l ih =>
    simp only [npUnique, rcL, List.map_cons, List.foldr_cons] at ih ⊢
    rw [ih]
    exact insertUnique_units hk a _

theorem flatten_units (ls : List (List ℝ)) : (ls.map (rcL k c)).flatten = rcL k c ls.flatten := by
  simp only [rcL, List.map_flatten]

include hk in
theorem getTimestamps_units (u w : ℝ) (m : Matcher) (af : Bool) : (rcM k c u w m).getTimestamps af = (m.getTimestamps af).map (Option.map (rcL k c)) := by
  simp only [Matcher.getTimestamps, getRange_units hk u w]
  cases m.getRange with
  | error e => rfl
  | ok range =>
    have e1 : (rcM k c u w m).arrays.filterMap (·.timestamps) = (m.arrays.filterMap (·.timestamps)).map (rcL k c) :=
      filterMap_units (fun a : MArray => a.timestamps) (rcA k c w) (fun f => rfl) _
    have e2 : ((rcM k c u w m).frames.filterMap fun f => if f.discrete then f.timestamps else none) =
        (m.frames.filterMap fun f => if f.discrete then f.timestamps else none).map (rcL k c) :=
      filterMap_units _ _ (fun f => by obtain ⟨_, _, _, disc, _⟩ := f; cases disc <;> rfl) _
    have e3 : ((rcM k c u w m).frames.filterMap fun f => if f.discrete then none else f.timestamps) =
        (m.frames.filterMap fun f => if f.discrete then none else f.timestamps).map (rcL k c) :=
      filterMap_units _ _ (fun f => by obtain ⟨_, _, _, disc, _⟩ := f; cases disc <;> rfl) _
    simp only [Except.map, e1, e2, e3]
    generalize m.arrays.filterMap (·.timestamps) = A
    generalize (m.frames.filterMap fun f => if f.discrete then f.timestamps else none) = D
    generalize (m.frames.filterMap fun f => if f.discrete then none else f.timestamps) = C
    have e4 : (if af = true then A.map (rcL k c) ++ C.map (rcL k c) else C.map (rcL k c) ++ A.map (rcL k c)) =
        (if af = true then A ++ C else C ++ A).map (rcL k c) := by split <;> simp
    rw [e4]
    generalize (if af = true then A ++ C else C ++ A) = E
    cases E with
    | cons ts _ =>
      simp only [List.map_cons, Option.map_some]
      rw [← selectRange_units hk]
    | nil =>
      cases D with
      | nil => rfl
      | cons d D =>
        have := flatten_units (k := k) (c := c) (d :: D)
        simp only [List.map_cons] at this
        simp only [List.map_nil, List.map_cons, Option.map_some, this, npUnique_units hk]

/-! ### Lengths -/

theorem bzip_map {f : Vec → Vec → Vec} {u : ℝ} (hf : ∀ a b, f (u • a) (u • b) = u • f a b) (x y : Arr Vec) :
    Arr.bzip f (x.map (u • ·)) (y.map (u • ·)) = (Arr.bzip f x y).map (Arr.map (u • ·)) := by
  cases x with
  | one a =>
    cases y with
    | one b => simp only [Arr.map, Arr.bzip, Except.map, hf]
    | many bs => simp [Arr.map, Arr.bzip, Except.map, hf]
  | many as =>
    cases y with
    | one b => simp [Arr.map, Arr.bzip, Except.map, hf]
    | many bs =>
      simp only [Arr.map, Arr.bzip, List.length_map]
      by_cases h : as.length = bs.length
      · simp only [if_pos h, Except.map, Arr.map, List.zipWith_map_left, List.zipWith_map_right, List.map_zipWith, hf]
      · simp only [if_neg h]
        match as, bs with
        | [a], bs => simp [Except.map, Arr.map, hf]
        | [], [] => simp at h
        | [], [b] => simp [Except.map, Arr.map]
        | [], b :: b' :: bs => simp [Except.map]
        | a :: a' :: as, [] => simp [Except.map]
        | a :: a' :: as, [b] => simp [Except.map, Arr.map, hf]
        | a :: a' :: as, b :: b' :: bs => simp [Except.map]

theorem rotateMatrixForm_smul (q : Quat) (u : ℝ) (v : Vec) : rotateMatrixForm q (u • v) = u • rotateMatrixForm q v :=
  Matrix.mulVec_smul _ _ _

theorem rotateCrossForm_smul (q : Quat) (u : ℝ) (v : Vec) : rotateCrossForm q (u • v) = u • rotateCrossForm q v := by
  simp only [rotateCrossForm, map_smul, smul_add, smul_comm u, map_add]

theorem bzip_rot {u : ℝ} (qs : List Quat) (vs : List Vec) :
    Arr.bzip rotateCrossForm (.many qs) (.many (vs.map (u • ·))) = (Arr.bzip rotateCrossForm (.many qs) (.many vs)).map (Arr.map (u • ·)) := by
  simp only [Arr.bzip, List.length_map]
  by_cases h : qs.length = vs.length
  · simp only [if_pos h, Except.map, Arr.map, List.zipWith_map_right, List.map_zipWith, rotateCrossForm_smul]
  · simp only [if_neg h]
    match qs, vs with
    | [a], bs => simp [Except.map, Arr.map, rotateCrossForm_smul]
    | [], [] => simp at h
    | [], [b] => simp [Except.map, Arr.map]
    | [], b :: b' :: bs => simp [Except.map]
    | a :: a' :: as, [] => simp [Except.map]
    | a :: a' :: as, [b] => simp [Except.map, Arr.map, rotateCrossForm_smul]
    | a :: a' :: as, b :: b' :: bs => simp [Except.map]

theorem rotateVectors_units (u : ℝ) (r : Arr Quat) (v : Arr Vec) : rotateVectors r (v.map (u • ·)) = (rotateVectors r v).map (Arr.map (u • ·)) := by
  cases r with
  | one q =>
    simp only [rotateVectors]
    split
    · rfl
    · cases v <;> simp [Arr.map, Except.map, rotateMatrixForm_smul]
  | many qs =>
    cases v with
    | one v => rfl
    | many vs =>
      simp only [rotateVectors, Arr.map, bzip_rot]
      cases Arr.bzip rotateCrossForm (.many qs) (.many vs) with
      | error e => rfl
      | ok r =>
        simp only [Except.map]
        split <;> rfl

/-- Translation in other units. -/
noncomputable def rcT (u : ℝ) (p : Arr Vec × Arr Quat) : Arr Vec × Arr Quat := (p.1.map (u • ·), p.2)

include hk in
theorem transStep_units {sq : SquadFn} (hsq : UnitsLaw sq) (u : ℝ) (ts : Option (List ℝ)) (f : MFrame) (acc : Arr Vec × Arr Quat) :
    transStep sq (ts.map (rcL k c)) (rcF k c u f) (rcT u acc) = (transStep sq ts f acc).map (rcT u) := by
  have hinv : (rcF k c u f).inverse = f.inverse := rfl
  simp only [transStep, transformFromFrame_units hk hsq, hinv, bind, Except.bind]
  cases transformFromFrame sq f ts with
  | error e => rfl
  | ok p =>
    obtain ⟨t, r⟩ := p
    simp only [Except.map, rcT]
    cases f.inverse
    · simp only [Bool.false_eq_true, if_false, rotateVectors_units]
      cases rotateVectors r acc.1 with
      | error e => rfl
      | ok d =>
        simp only [Except.map, bzip_map (f := fun a b => a + b) (u := u) fun a b => (smul_add u a b).symm]
        cases Arr.bzip (fun a b : Vec => a + b) d t with
        | error e => rfl
        | ok t' =>
          simp only [Except.map]
          cases Arr.bzip (fun a b : Quat => a * b) r acc.2 <;> rfl
    · simp only [if_true]
      cases qinvArr r with
      | error e => rfl
      | ok ri =>
        simp only [bzip_map (f := fun a b => a - b) (u := u) fun a b => (smul_sub u a b).symm]
        cases Arr.bzip (fun a b : Vec => a - b) acc.1 t with
        | error e => rfl
        | ok d =>
          simp only [Except.map, rotateVectors_units]
          cases rotateVectors ri d with
          | error e => rfl
          | ok t' =>
            simp only [Except.map]
            cases Arr.bzip (fun a b : Quat => a * b) ri acc.2 <;> rfl

include hk in
theorem transLoop_units {sq : SquadFn} (hsq : UnitsLaw sq) (u : ℝ) (ts : Option (List ℝ)) (fs : List MFrame) (acc : Arr Vec × Arr Quat) :
    transLoop sq (ts.map (rcL k c)) (fs.map (rcF k c u)) (rcT u acc) = (transLoop sq ts fs acc).map (rcT u) := by
  induction fs generalizing acc with
  | nil => rfl
  | cons f fs ih =>
    simp only [List.map_cons, transLoop, transStep_units hk hsq]
    cases transStep sq ts f acc with
    | error e => rfl
    | ok acc' => exact ih acc'

include hk in
theorem addFrames_units (u w : ℝ) (s : State) (inverse : Bool) (is : List ℕ) (m : Matcher) :
    (unitsState k c u s).addFrames inverse is (rcM k c u w m) = (s.addFrames inverse is m).map (rcM k c u w) := by
  induction is generalizing m with
  | nil => rfl
  | cons i is ih =>
    have : (unitsState k c u s).addFrame (rcM k c u w m) i inverse = (s.addFrame m i inverse).map (rcM k c u w) := by
      simp only [State.addFrame, unitsState]
      cases s.data i with
      | none => rfl
      | some d =>
        obtain ⟨pose, ts, disc⟩ := d
        cases pose with
        | none => rfl
        | some p => exact addFrame_units hk u w m ⟨p.1, p.2, ts, disc, inverse⟩
    simp only [State.addFrames, this]
    cases s.addFrame m i inverse with
    | error e => rfl
    | ok m' => exact ih m'

include hk in
theorem getTransformation_units {sq : SquadFn} (hsq : UnitsLaw sq) (u w : ℝ) (m : Matcher) :
    (rcM k c u w m).getTransformation sq = (m.getTransformation sq).map fun p => (p.1.map (u • ·), p.2.1, p.2.2.map (rcL k c)) := by
  simp only [Matcher.getTransformation, getTimestamps_units hk u w, bind, Except.bind]
  cases m.getTimestamps with
  | error e => rfl
  | ok ts =>
    simp only [Except.map]
    have e : (initTranslation (ts.map (rcL k c)), Arr.one (1 : Quat)) = rcT u (initTranslation ts, .one 1) := by
      cases ts <;> simp [initTranslation, rcT, Arr.map]
    rw [e, show (rcM k c u w m).frames = m.frames.map (rcF k c u) from rfl, transLoop_units hk hsq]
    cases transLoop sq ts m.frames (initTranslation ts, .one 1) with
    | error e => rfl
    | ok p => rfl

end RBM
