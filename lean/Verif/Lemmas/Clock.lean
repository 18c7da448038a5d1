import Verif.Spec.Clock
import Verif.Lemmas.Transform

/-!
The matcher commutes with a shift of all timestamps.
-/

namespace RBM

open Spec

variable (c : ℝ)

/-- Local notation for the shift of a list. -/
abbrev shL (l : List ℝ) : List ℝ := l.map (· + c)

theorem shL_getD {l : List ℝ} {k : ℕ} (h : k < l.length) : (shL c l).getD k 0 = l.getD k 0 + c := by
  simp [shL, h]

theorem shL_length (l : List ℝ) : (shL c l).length = l.length := by simp [shL]

theorem anyDecrease_shift : ∀ l : List ℝ, anyDecrease (shL c l) ↔ anyDecrease l
  | [] => Iff.rfl
  | [_] => Iff.rfl
  | a :: b :: l => by
    have ih := anyDecrease_shift (b :: l)
    simp only [shL, List.map_cons, anyDecrease] at ih ⊢
    rw [ih]
    simp

theorem checkTimestamps_shift (ts : Option (List ℝ)) (n : ℕ) : checkTimestamps (ts.map (shL c)) n = checkTimestamps ts n := by
  cases ts with
  | none => rfl
  | some ts =>
    simp only [checkTimestamps, Option.map_some, shL_length]
    by_cases h : anyDecrease ts
    · rw [if_pos h, if_pos ((anyDecrease_shift c ts).mpr h)]
    · rw [if_neg h, if_neg (fun h' => h ((anyDecrease_shift c ts).mp h'))]

theorem zipWith_shift {α : Type} (f : α → ℝ → α) (out : List α) (ts : List ℝ) :
    List.zipWith f out (shL c ts) = List.zipWith (fun o t => f o (t + c)) out ts := by
  rw [shL, List.zipWith_map_right]

theorem discreteRows_shift {α : Type} (rows : List α) (ev ts : List ℝ) : discreteRows rows (shL c ev) (shL c ts) = discreteRows rows ev ts := by
  cases rows with
  | nil => rfl
  | cons r0 rows =>
    simp only [discreteRows, shL_length, Except.ok.injEq]
    generalize List.replicate ts.length r0 = out
    generalize r0 :: rows = rows
    induction rows generalizing ev out with
    | nil => rfl
    | cons r rows ih =>
      cases ev with
      | nil => rfl
      | cons e ev =>
        simp only [shL, List.map_cons, List.zip_cons_cons, List.foldl_cons] at ih ⊢
        rw [← ih]
        congr 1
        have := zipWith_shift c (fun o τ => if τ ≥ e + c then r else o) out ts
        rw [shL] at this
        rw [this]
        congr 1
        funext o τ
        simp

theorem searchLeft_shift (xs : List ℝ) (t : ℝ) : searchLeft (shL c xs) (t + c) = searchLeft xs t := by
  simp only [searchLeft, shL, List.filter_map, List.length_map]
  congr 2
  funext x
  simp

theorem interpLoc_shift (xs : List ℝ) (t : ℝ) : interpLoc (shL c xs) (t + c) = interpLoc xs t := by
  simp only [interpLoc, shL_length, searchLeft_shift]
  by_cases hn : xs.length = 0
  · simp [hn]
  · have h0 : 0 < xs.length := by omega
    simp only [if_neg hn]
    rw [shL_getD c h0, shL_getD c (by omega : xs.length - 1 < xs.length)]
    have hhi : min (max (searchLeft xs t) 1) (xs.length - 1) < xs.length := by omega
    have hlo : (if min (max (searchLeft xs t) 1) (xs.length - 1) = 0 then xs.length - 1 else min (max (searchLeft xs t) 1) (xs.length - 1) - 1) < xs.length := by
      split <;> omega
    rw [shL_getD c hhi, shL_getD c hlo]
    simp only [add_lt_add_iff_right, add_left_inj]

theorem interpLoc_lt {xs : List ℝ} {t : ℝ} {loc : ℕ × ℕ} (h : interpLoc xs t = .ok loc) : loc.1 < xs.length ∧ loc.2 < xs.length := by
  simp only [interpLoc] at h
  split at h
  · cases h
  · split at h
    · cases h
    · rename_i h0 _
      have hlo : (if min (max (searchLeft xs t) 1) (xs.length - 1) = 0 then xs.length - 1 else min (max (searchLeft xs t) 1) (xs.length - 1) - 1) < xs.length := by
        split <;> omega
      generalize (if min (max (searchLeft xs t) 1) (xs.length - 1) = 0 then xs.length - 1 else min (max (searchLeft xs t) 1) (xs.length - 1) - 1) = lo at h hlo
      split at h
      · cases h
      · cases h
        exact ⟨hlo, by simp only; omega⟩

theorem interpVal_shift {V} [AddCommGroup V] [Module ℝ V] (xs : List ℝ) (ys : List V) (t : ℝ) {loc : ℕ × ℕ} (h1 : loc.1 < xs.length) (h2 : loc.2 < xs.length) :
    interpVal (shL c xs) ys (t + c) loc = interpVal xs ys t loc := by
  simp only [interpVal, shL_getD c h1, shL_getD c h2, add_sub_add_right_eq_sub]

theorem interpAt_shift {V} [AddCommGroup V] [Module ℝ V] (xs : List ℝ) (ys : List V) (t : ℝ) :
    interpAt (shL c xs) ys (t + c) = interpAt xs ys t := by
  simp only [interpAt, shL_length, interpLoc_shift]
  split
  · rfl
  · cases h : interpLoc xs t with
    | error e => rfl
    | ok loc =>
      obtain ⟨h1, h2⟩ := interpLoc_lt h
      simp only [interpVal_shift c xs ys t h1 h2]

theorem anyOutside_shift {xs : List ℝ} (h : 0 < xs.length) (ts : List ℝ) : anyOutside (shL c xs) (shL c ts) ↔ anyOutside xs ts := by
  simp only [anyOutside, shL_length, shL_getD c h, shL_getD c (by omega : xs.length - 1 < xs.length)]
  constructor
  · rintro ⟨t, ht, h⟩
    obtain ⟨t', ht', rfl⟩ := List.mem_map.mp ht
    exact ⟨t', ht', by simpa using h⟩
  · rintro ⟨t, ht, h⟩
    exact ⟨t + c, List.mem_map.mpr ⟨t, ht, rfl⟩, by simpa using h⟩

theorem collect_empty_data {V} [AddCommGroup V] [Module ℝ V] (ts : List ℝ) (hts : ts ≠ []) :
    collect (ts.map (interpAt [] ([] : List V))) = .error .valueError := by
  cases ts with
  | nil => exact absurd rfl hts
  | cons t ts => simp [collect, interpAt, interpLoc]

theorem interp1d_shift {V} [AddCommGroup V] [Module ℝ V] (xs : List ℝ) (ys : List V) (ts : List ℝ) :
    interp1d (shL c xs) ys (shL c ts) = interp1d xs ys ts := by
  by_cases hl : xs.length ≠ ys.length
  · simp only [interp1d, shL_length, if_pos hl]
  · by_cases h0 : 0 < xs.length
    · simp only [interp1d, shL_length, if_neg hl]
      have : (shL c ts).map (interpAt (shL c xs) ys) = ts.map (interpAt xs ys) := by
        rw [shL, List.map_map]
        apply List.map_congr_left
        intro t _
        exact interpAt_shift c xs ys t
      rw [this]
      by_cases h : anyOutside xs ts
      · rw [if_pos h, if_pos ((anyOutside_shift c h0 ts).mpr h)]
      · rw [if_neg h, if_neg (fun h' => h ((anyOutside_shift c h0 ts).mp h'))]
    · have hx : xs = [] := List.length_eq_zero_iff.mp (by omega)
      subst hx
      have hy : ys = [] := List.length_eq_zero_iff.mp (by simp only [List.length_nil, ne_eq, not_not] at hl; exact hl.symm)
      subst hy
      have key : ∀ ts : List ℝ, interp1d [] ([] : List V) ts = if ts = [] then .ok [] else .error .valueError := by
        intro ts
        by_cases h : ts = []
        · subst h; simp [interp1d, anyOutside, collect]
        · simp only [interp1d, if_neg h, collect_empty_data ts h, ite_self]
      rw [show shL c [] = [] from rfl, key, key]
      simp [shL]

theorem squad_shift {sq : SquadFn} (hsq : ShiftLaw sq) (qs : List Quat) (xs ts : List ℝ) : squad sq qs (shL c xs) (shL c ts) = squad sq qs xs ts := by
  simp only [squad, shL, List.map_eq_nil_iff, List.map_map]
  congr 3
  apply List.map_congr_left
  intro t _
  exact hsq c qs xs t

/-- A frame of the matcher, shifted. -/
def shF (f : MFrame) : MFrame := { f with timestamps := f.timestamps.map (shL c) }
/-- An array of the matcher, shifted. -/
def shA (a : MArray) : MArray := { a with timestamps := a.timestamps.map (shL c) }
/-- A matcher, shifted. -/
def shM (m : Matcher) : Matcher := ⟨m.frames.map (shF c), m.arrays.map (shA c)⟩

theorem transformFromFrame_shift {sq : SquadFn} (hsq : ShiftLaw sq) (f : MFrame) (ts : Option (List ℝ)) :
    transformFromFrame sq (shF c f) (ts.map (shL c)) = transformFromFrame sq f ts := by
  obtain ⟨tr, ro, fts, disc, inv⟩ := f
  cases fts <;> cases ts <;> simp only [transformFromFrame, shF, Option.map_none, Option.map_some, shL_length]
  rename_i fts ts
  cases tr <;> cases ro <;> simp only [discreteRows_shift, interp1d_shift, squad_shift c hsq]

theorem addFrame_shift (m : Matcher) (f : MFrame) : (shM c m).addFrame (shF c f) = (m.addFrame f).map (shM c) := by
  have : checkTimestamps (shF c f).timestamps (firstLen (shF c f).translation) = checkTimestamps f.timestamps (firstLen f.translation) :=
    checkTimestamps_shift c _ _
  simp only [Matcher.addFrame, this]
  cases checkTimestamps f.timestamps (firstLen f.translation) with
  | error e => rfl
  | ok _ => simp [Except.map, shM]

theorem filterMap_shift {α : Type} (f : α → Option (List ℝ)) (g : α → α) (h : ∀ a, f (g a) = (f a).map (shL c)) (l : List α) :
    (l.map g).filterMap f = (l.filterMap f).map (shL c) := by
  induction l with
  | nil => rfl
  | cons a l ih =>
    simp only [List.map_cons, List.filterMap_cons, h, ih]
    cases f a <;> rfl

theorem continuous_shift (m : Matcher) : (shM c m).continuous = m.continuous.map (shL c) := by
  simp only [Matcher.continuous, shM, List.map_append]
  congr 1
  · exact filterMap_shift c _ _ (fun f => by obtain ⟨_, _, _, disc, _⟩ := f; cases disc <;> rfl) _
  · exact filterMap_shift c (fun a : MArray => a.timestamps) (shA c) (fun f => rfl) _

theorem firstStamps_shift : ∀ l : List (List ℝ), firstStamps (l.map (shL c)) = (firstStamps l).map (shL c)
  | [] => rfl
  | [] :: _ => rfl
  | (a :: x) :: ls => by
    have ih := firstStamps_shift ls
    simp only [List.map_cons, firstStamps, shL] at ih ⊢
    rw [ih]
    cases firstStamps ls <;> rfl

theorem lastStamps_shift : ∀ l : List (List ℝ), lastStamps (l.map (shL c)) = (lastStamps l).map (shL c)
  | [] => rfl
  | [] :: _ => rfl
  | (a :: x) :: ls => by
    have ih := lastStamps_shift ls
    simp only [List.map_cons, lastStamps, shL] at ih ⊢
    rw [ih]
    cases lastStamps ls with
    | error e => rfl
    | ok r =>
      simp only [Except.map, List.map_cons, Except.ok.injEq, List.cons.injEq, and_true]
      have := List.getLast_map (f := (· + c)) (l := a :: x) (by simp)
      simpa using this

theorem foldl_max_shift (l : List ℝ) (a : ℝ) : (shL c l).foldl max (a + c) = l.foldl max a + c := by
  induction l generalizing a with
  | nil => rfl
  | cons b l ih =>
    simp only [shL, List.map_cons, List.foldl_cons] at ih ⊢
    rw [max_add_add_right, ih]

theorem foldl_min_shift (l : List ℝ) (a : ℝ) : (shL c l).foldl min (a + c) = l.foldl min a + c := by
  induction l generalizing a with
  | nil => rfl
  | cons b l ih =>
    simp only [shL, List.map_cons, List.foldl_cons] at ih ⊢
    rw [min_add_add_right, ih]

theorem npMax_shift (l : List ℝ) : npMax (shL c l) = (npMax l).map (· + c) := by
  cases l with
  | nil => rfl
  | cons a l => simp only [shL, List.map_cons, npMax, Option.map_some]; rw [← foldl_max_shift]

theorem npMin_shift (l : List ℝ) : npMin (shL c l) = (npMin l).map (· + c) := by
  cases l with
  | nil => rfl
  | cons a l => simp only [shL, List.map_cons, npMin, Option.map_some]; rw [← foldl_min_shift]

theorem getRange_shift (m : Matcher) : (shM c m).getRange = m.getRange.map fun p => (p.1.map (· + c), p.2.map (· + c)) := by
  simp only [Matcher.getRange, continuous_shift, firstStamps_shift, lastStamps_shift]
  cases firstStamps m.continuous with
  | error e => rfl
  | ok f => cases lastStamps m.continuous with
    | error e => rfl
    | ok l => simp only [Except.map, npMax_shift, npMin_shift]

theorem selectRange_shift (range : Option ℝ × Option ℝ) (ts : List ℝ) :
    selectRange (range.1.map (· + c), range.2.map (· + c)) (shL c ts) = shL c (selectRange range ts) := by
  simp only [selectRange, shL, List.filter_map]
  congr 2
  funext t
  obtain ⟨a, b⟩ := range
  cases a <;> cases b <;> simp

theorem insertUnique_shift (a : ℝ) (l : List ℝ) : insertUnique (a + c) (shL c l) = shL c (insertUnique a l) := by
  induction l with
  | nil => rfl
  | cons b l ih =>
    simp only [shL, List.map_cons, insertUnique, add_lt_add_iff_right, add_left_inj] at ih ⊢
    split
    · rfl
    · split
      · rfl
      · rw [ih]; rfl

theorem npUnique_shift (l : List ℝ) : npUnique (shL c l) = shL c (npUnique l) := by
  induction l with
  | nil => rfl
  | cons a l ih =>
    simp only [npUnique, shL, List.map_cons, List.foldr_cons] at ih ⊢
    rw [ih]
    exact insertUnique_shift c a _

theorem flatten_shift (ls : List (List ℝ)) : (ls.map (shL c)).flatten = shL c ls.flatten := by
  simp only [shL, List.map_flatten]

theorem getTimestamps_shift (m : Matcher) (af : Bool) : (shM c m).getTimestamps af = (m.getTimestamps af).map (Option.map (shL c)) := by
  simp only [Matcher.getTimestamps, getRange_shift]
  cases m.getRange with
  | error e => rfl
  | ok range =>
    have e1 : (shM c m).arrays.filterMap (·.timestamps) = (m.arrays.filterMap (·.timestamps)).map (shL c) :=
      filterMap_shift c (fun a : MArray => a.timestamps) (shA c) (fun f => rfl) _
    have e2 : ((shM c m).frames.filterMap fun f => if f.discrete then f.timestamps else none) =
        (m.frames.filterMap fun f => if f.discrete then f.timestamps else none).map (shL c) :=
      filterMap_shift c _ _ (fun f => by obtain ⟨_, _, _, disc, _⟩ := f; cases disc <;> rfl) _
    have e3 : ((shM c m).frames.filterMap fun f => if f.discrete then none else f.timestamps) =
        (m.frames.filterMap fun f => if f.discrete then none else f.timestamps).map (shL c) :=
      filterMap_shift c _ _ (fun f => by obtain ⟨_, _, _, disc, _⟩ := f; cases disc <;> rfl) _
    simp only [Except.map, e1, e2, e3]
    generalize m.arrays.filterMap (·.timestamps) = A
    generalize (m.frames.filterMap fun f => if f.discrete then f.timestamps else none) = D
    generalize (m.frames.filterMap fun f => if f.discrete then none else f.timestamps) = C
    have e4 : (if af = true then A.map (shL c) ++ C.map (shL c) else C.map (shL c) ++ A.map (shL c)) =
        (if af = true then A ++ C else C ++ A).map (shL c) := by split <;> simp
    rw [e4]
    generalize (if af = true then A ++ C else C ++ A) = E
    cases E with
    | cons ts _ =>
      simp only [List.map_cons, Option.map_some]
      rw [← selectRange_shift]
    | nil =>
      cases D with
      | nil => rfl
      | cons d D =>
        have := flatten_shift c (d :: D)
        simp only [List.map_cons] at this
        simp only [List.map_nil, List.map_cons, Option.map_some, this, npUnique_shift]

theorem transLoop_shift {sq : SquadFn} (hsq : ShiftLaw sq) (ts : Option (List ℝ)) (fs : List MFrame) (acc : Arr Vec × Arr Quat) :
    transLoop sq (ts.map (shL c)) (fs.map (shF c)) acc = transLoop sq ts fs acc := by
  induction fs generalizing acc with
  | nil => rfl
  | cons f fs ih =>
    have : transStep sq (ts.map (shL c)) (shF c f) acc = transStep sq ts f acc := by
      simp only [transStep, transformFromFrame_shift c hsq]
      rfl
    simp only [List.map_cons, transLoop, this]
    cases transStep sq ts f acc with
    | error e => rfl
    | ok acc' => exact ih acc'

theorem addFrames_shift (s : State) (inverse : Bool) (is : List ℕ) (m : Matcher) :
    (shiftState c s).addFrames inverse is (shM c m) = (s.addFrames inverse is m).map (shM c) := by
  induction is generalizing m with
  | nil => rfl
  | cons i is ih =>
    have : (shiftState c s).addFrame (shM c m) i inverse = (s.addFrame m i inverse).map (shM c) := by
      simp only [State.addFrame, shiftState]
      cases s.data i with
      | none => rfl
      | some d =>
        obtain ⟨pose, ts, disc⟩ := d
        cases pose with
        | none => rfl
        | some p => exact addFrame_shift c m ⟨p.1, p.2, ts, disc, inverse⟩
    simp only [State.addFrames, this]
    cases s.addFrame m i inverse with
    | error e => rfl
    | ok m' => exact ih m'

theorem getTransformation_shift {sq : SquadFn} (hsq : ShiftLaw sq) (m : Matcher) :
    (shM c m).getTransformation sq = (m.getTransformation sq).map fun p => (p.1, p.2.1, p.2.2.map (shL c)) := by
  simp only [Matcher.getTransformation, getTimestamps_shift, bind, Except.bind]
  cases m.getTimestamps with
  | error e => rfl
  | ok ts =>
    simp only [Except.map]
    have e : initTranslation (ts.map (shL c)) = initTranslation ts := by cases ts <;> rfl
    rw [e, show (shM c m).frames = m.frames.map (shF c) from rfl, transLoop_shift c hsq]
    cases transLoop sq ts m.frames (initTranslation ts, .one 1) with
    | error e => rfl
    | ok p => rfl

end RBM
