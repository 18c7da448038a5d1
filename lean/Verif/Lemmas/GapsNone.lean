import Verif.Lemmas.GapsTransform
import Verif.Lemmas.AxisSame

namespace RBM

/-- An array without gaps as an array that may have gaps. -/
def ND.known (v : ND ℝ) : ND (Option ℝ) := v.map some

/-- A result without gaps. -/
def knownRes (r : Res (ND ℝ)) : Res (ND (Option ℝ)) := r.map ND.known

theorem known_bind (r : Res (ND ℝ)) (f : ND (Option ℝ) → Res (ND (Option ℝ))) : (knownRes r).bind f = r.bind fun x => f x.known := by
  cases r <;> rfl

theorem knownRes_bind {α} (r : Res α) (f : α → Res (ND ℝ)) : knownRes (r.bind f) = r.bind fun x => knownRes (f x) := by
  cases r <;> rfl

theorem fill_known (v : ND ℝ) : v.known.fill = v := rfl

theorem swapaxesZ_known (v : ND ℝ) (i j : ℤ) : v.known.swapaxesZ i j = knownRes (v.swapaxesZ i j) := by
  simp only [ND.swapaxesZ, ND.ndim, ND.known, ND.map]
  cases normAxis i v.shape.length <;> cases normAxis j v.shape.length <;> rfl

theorem bop_nanL (f : ℝ → ℝ → ℝ) (a b : ND ℝ) : ND.bop (nanL f) a b.known = knownRes (ND.bop f a b) := by
  simp only [ND.bop, ND.known, ND.map]
  cases ND.bshape a.shape b.shape <;> rfl

theorem bop_nan2 (f : ℝ → ℝ → ℝ) (a b : ND ℝ) : ND.bop (nan2 f) a.known b.known = knownRes (ND.bop f a b) := by
  simp only [ND.bop, ND.known, ND.map]
  cases ND.bshape a.shape b.shape <;> rfl

theorem bop_nanR (f : ℝ → ℝ → ℝ) (a b : ND ℝ) :
    ND.bop (fun (x : Option ℝ) (y : ℝ) => x.map fun x => f x y) a.known b = knownRes (ND.bop f a b) := by
  simp only [ND.bop, ND.known, ND.map]
  cases ND.bshape a.shape b.shape <;> rfl

theorem crossLast_known (a b : ND ℝ) : crossLastGaps a b.known = knownRes (crossLast a b) := by
  unfold crossLastGaps crossLast
  by_cases h3 : a.shape.getLast? = some 3 ∧ b.shape.getLast? = some 3
  · refine (if_pos h3).trans ?_
    rw [if_pos h3]
    show (match ND.bshape a.shape.dropLast b.shape.dropLast with
      | none => _
      | some sh => _) = _
    cases ND.bshape a.shape.dropLast b.shape.dropLast with
    | none => rfl
    | some sh =>
      simp only [knownRes, Except.map, ND.known, ND.map]
      congr 2
      funext idx
      exact crossNan_some _ _ _
  · refine (if_neg h3).trans ?_
    rw [if_neg h3]; rfl

theorem npCross_known (a b : ND ℝ) (axis : ℤ) : npCrossGaps a b.known axis = knownRes (npCross a b axis) := by
  simp only [npCrossGaps, npCross]
  have h1 : b.known.ndim = b.ndim := rfl
  rw [h1]
  cases normAxis axis b.ndim with
  | none => rfl
  | some pb =>
    simp only
    have h2 : b.known.moveaxis pb (b.ndim - 1) = (b.moveaxis pb (b.ndim - 1)).known := rfl
    rw [h2, crossLast_known]
    cases crossLast a (b.moveaxis pb (b.ndim - 1)) with
    | error e => rfl
    | ok c =>
      simp only [knownRes, Except.map]
      have h3 : c.known.ndim = c.ndim := rfl
      rw [h3]
      cases normAxis axis c.ndim <;> rfl

theorem rotateArrayFormula_known (q : ND Quat) (v : ND ℝ) (axis : ℤ) :
    rotateArrayFormulaGaps q v.known axis = knownRes (rotateArrayFormula q v axis) := by
  simp only [rotateArrayFormulaGaps, rotateArrayFormula, bind, knownRes_bind, npCross_known, known_bind, bop_nanL, bop_nan2]
  refine bind_same fun s _ => bind_same fun m _ => bind_same fun c1 _ => bind_same fun sv _ =>
    bind_same fun sum _ => bind_same fun c _ => ?_
  have h1 : (c.known.map fun x => x.map fun x => 2 * x) = (c.map fun x => 2 * x).known := rfl
  rw [h1, bop_nanR (fun x y => x / y), known_bind]
  simp only [bop_nan2]

theorem quatRv_known (q : ND Quat) (v : ND ℝ) (axis : ℤ) : quatRvGaps q v.known axis = knownRes (quatRv q v axis) := by
  simp only [quatRvGaps, quatRv]
  have h1 : v.known.shape = v.shape := rfl
  have h2 : v.known.ndim = v.ndim := rfl
  rw [h1, h2]
  split
  · rfl
  · cases normAxis axis v.ndim with
    | none => rfl
    | some p =>
      simp only
      split
      · rfl
      · split
        · rfl
        · simp only [knownRes, Except.map, ND.known, ND.map]
          congr 2
          funext idx
          exact mulVecNan_some _ _ _

theorem rotateVectorsQ_known (q : ND Quat) (v : ND ℝ) (axis : ℤ) : rotateVectorsQGaps q v.known axis = knownRes (rotateVectorsQ q v axis) := by
  simp only [rotateVectorsQGaps, rotateVectorsQ, quatRv_known, rotateArrayFormula_known]
  have h1 : v.known.shape = v.shape := rfl
  have h2 : v.known.ndim = v.ndim := rfl
  rw [h1, h2]
  by_cases hq : q.ndim = 0
  · simp [hq]
  · rw [if_neg hq, if_neg (by simp [hq])]
    cases normAxis axis v.ndim with
    | none => rfl
    | some p =>
      simp only
      split
      · rfl
      · split
        · rfl
        · cases rotateArrayFormula q v axis with
          | error e => rfl
          | ok r =>
            simp only [knownRes, Except.map]
            split <;> rfl

theorem rotateVectorsF_known (q : ND ℝ) (v : ND ℝ) (axis : ℤ) : rotateVectorsFGaps q v.known axis = knownRes (rotateVectorsF q v axis) := by
  simp only [rotateVectorsFGaps, rotateVectorsF, bind, knownRes_bind]
  exact bind_same fun q' _ => bind_same fun q'' _ => rotateVectorsQ_known _ _ _

theorem tileN1_known (v : ND ℝ) (n : ℕ) : v.known.tileN1 n = (v.tileN1 n).known := by
  obtain ⟨sh, g⟩ := v
  match sh with
  | [] => rfl
  | [k] => rfl
  | _ :: _ :: _ => rfl

theorem resampleArray_known (sq : SquadFn) (v : ND ℝ) (ats ts : Option (List ℝ)) :
    resampleArrayGaps sq v.known ats ts = knownRes (resampleArray sq ⟨v, ats⟩ ts) := by
  classical
  cases ats with
  | none =>
    cases ts with
    | none => rfl
    | some ts => simp only [resampleArrayGaps, resampleArray, tileN1_known, knownRes, Except.map]
  | some ats =>
    cases ts with
    | none => rfl
    | some ts =>
      have hm : ¬ ∃ idx, Valid v.known.shape idx ∧ v.known.get idx = none := by
        rintro ⟨idx, -, h⟩; cases h
      simp only [resampleArrayGaps]
      rw [if_neg hm, fill_known]
      have hs : v.known.shape = v.shape := rfl
      rw [hs]
      cases hv : v.shape with
      | nil => simp only [resampleArray, hv]; rfl
      | cons n rest =>
        simp only
        split
        · cases resampleArray sq ⟨v, some ats⟩ (some ts) <;> rfl
        · rename_i h4
          simp only [resampleArray, hv]
          rw [if_neg h4]
          split
          · rfl
          · split
            · rfl
            · cases collect (ts.map (interpLoc ats)) with
              | error e => rfl
              | ok locs =>
                simp only [knownRes, Except.map, ND.known, ND.map, reduceCtorEq, or_self, if_false, Option.getD_some]

theorem getArray1_known (sq : SquadFn) (fs : List MFrame) (v : ND ℝ) (ats ts : Option (List ℝ)) :
    (⟨fs, [⟨v, ats⟩]⟩ : Matcher).getArray1Gaps sq v.known ats ts = knownRes ((⟨fs, [⟨v, ats⟩]⟩ : Matcher).getArray1 sq ts) := by
  have key : ∀ T : Option (List ℝ), resampleArrayGaps sq v.known ats T =
      knownRes ((collect ([⟨v, ats⟩].map fun a => resampleArray sq a T)).bind fun arrs => match arrs with
        | [a] => (.ok a : Res (ND ℝ))
        | _ => .error .valueError) := by
    intro T
    rw [resampleArray_known]
    simp only [List.map_cons, List.map_nil, collect]
    cases resampleArray sq ⟨v, ats⟩ T <;> rfl
  cases ts with
  | some ts =>
    simp only [Matcher.getArray1Gaps, Matcher.getArray1, Matcher.getArrays, bind, Pure.pure, Except.pure, Except.bind, key]
    cases collect ([⟨v, ats⟩].map fun a => resampleArray sq a (some ts)) <;> rfl
  | none =>
    simp only [Matcher.getArray1Gaps, Matcher.getArray1, Matcher.getArrays, bind]
    cases (⟨fs, [⟨v, ats⟩]⟩ : Matcher).getTimestamps true with
    | error e => rfl
    | ok T =>
      simp only [Except.bind, key, Pure.pure, Except.pure]
      cases collect ([⟨v, ats⟩].map fun a => resampleArray sq a T) <;> rfl

theorem validateInput_known (v : ND ℝ) (axis : ℤ) (k : ℕ) (ts : Option (ND ℝ)) (ta : Option ℤ) :
    validateInputGaps v.known axis k ts ta = (validateInput v axis k ts ta).map fun p => (p.1.known, p.2) := by
  simp only [validateInputGaps, validateInput, bind, swapaxesZ_known]
  have hs : v.known.shape = v.shape := rfl
  rw [hs]
  cases pyShape v.shape axis with
  | error e => rfl
  | ok n =>
    simp only [Except.bind]
    split
    · rfl
    · cases ts with
      | none => rfl
      | some ts =>
        simp only
        rcases hts : ts.shape with _ | ⟨n, _ | ⟨m, l⟩⟩
        · rfl
        · cases ta with
          | none => rfl
          | some ta =>
            simp only
            cases pyShape v.shape ta with
            | error e => rfl
            | ok m =>
              simp only
              split
              · rfl
              · cases v.swapaxesZ 0 ta <;> rfl
        · rfl

theorem undo_known (v : ND ℝ) (ta : Option ℤ) : undoTimeSwapGaps v.known ta = knownRes (undoTimeSwap v ta) := by
  cases ta with
  | none => rfl
  | some ta => exact swapaxesZ_known v 0 ta

end RBM
