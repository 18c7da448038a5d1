import Verif.Lemmas.Units
import Verif.Lemmas.TransformArr

/-!
The transform functions commute with a change of units.
-/

namespace RBM

open Spec

variable {k c : ℝ} (hk : 0 < k)

include hk in
theorem addArray_units (u w : ℝ) (m : Matcher) (a : MArray) : (rcM k c u w m).addArray (rcA k c w a) = (m.addArray a).map (rcM k c u w) := by
  obtain ⟨data, ts⟩ := a
  cases ts with
  | none => simp [Matcher.addArray, rcA, rcM, Except.map]
  | some ts =>
    have e : (data.map (w * ·)).shape = data.shape := rfl
    simp only [Matcher.addArray, rcA, Option.map_some, e]
    cases data.shape with
    | nil => rfl
    | cons n sh =>
      have := checkTimestamps_units (c := c) hk (some ts) n
      simp only [Option.map_some] at this
      simp only [this]
      cases checkTimestamps (some ts) n with
      | error e => rfl
      | ok _ => simp [rcM, Except.map, rcA]

include hk in
theorem addArrays_units (u w : ℝ) (as : List MArray) (m : Matcher) : addArrays (as.map (rcA k c w)) (rcM k c u w m) = (addArrays as m).map (rcM k c u w) := by
  induction as generalizing m with
  | nil => rfl
  | cons a as ih =>
    simp only [List.map_cons, addArrays, addArray_units hk]
    cases m.addArray a with
    | error e => rfl
    | ok m' => exact ih m'

include hk in
theorem getMatcher_units (u w : ℝ) (s : State) (a : ℕ) (dst : FrameRef) (as : List MArray) :
    (unitsState k c u s).getMatcher a dst (as.map (rcA k c w)) = (s.getMatcher a dst as).map (rcM k c u w) := by
  have hres : ∀ r, (unitsState k c u s).resolve r = s.resolve r := fun r => by cases r <;> rfl
  have hw : (unitsState k c u s).walk a dst = s.walk a dst := by simp only [State.walk, hres]; rfl
  simp only [State.getMatcher, hw, bind, Except.bind]
  cases s.walk a dst with
  | error e => rfl
  | ok p =>
    have h0 := addFrames_units hk (c := c) u w s false p.1 Matcher.empty
    rw [show rcM k c u w Matcher.empty = Matcher.empty from rfl] at h0
    simp only [h0]
    cases s.addFrames false p.1 Matcher.empty with
    | error e => rfl
    | ok m =>
      simp only [Except.map, addFrames_units hk]
      cases s.addFrames true p.2 m with
      | error e => rfl
      | ok m' => exact addArrays_units hk u w as m'

theorem tileN1_scale (w : ℝ) (a : ND ℝ) (n : ℕ) : (scaleArr w a).tileN1 n = scaleArr w (a.tileN1 n) := by
  simp only [ND.tileN1, scaleArr, ND.map]
  split <;> rfl

theorem interpVal_const {V} [AddCommGroup V] [Module ℝ V] (xs : List ℝ) (ys : List V) (t : ℝ) (i : ℕ) : interpVal xs ys t (i, i) = ys.getD i 0 := by
  simp [interpVal]

theorem collect_getD {α : Type} {l : List (Res α)} {r : List α} (h : collect l = .ok r) {i : ℕ} (hi : i < l.length) (d : α) : l[i]? = some (.ok (r.getD i d)) := by
  induction l generalizing r i with
  | nil => simp at hi
  | cons x l ih =>
    cases x with
    | error e => simp [collect] at h
    | ok a =>
      simp only [collect] at h
      cases hc : collect l with
      | error e => rw [hc] at h; cases h
      | ok as =>
        rw [hc] at h
        cases h
        cases i with
        | zero => rfl
        | succ i => simpa using ih hc (by simpa using hi)

theorem collect_length {α : Type} {l : List (Res α)} {r : List α} (h : collect l = .ok r) : r.length = l.length := by
  induction l generalizing r with
  | nil => cases h; rfl
  | cons x l ih =>
    cases x with
    | error e => simp [collect] at h
    | ok a =>
      simp only [collect] at h
      cases hc : collect l with
      | error e => rw [hc] at h; cases h
      | ok as =>
        rw [hc] at h
        cases h
        simp [ih hc]

include hk in
theorem resampleArray_units (sq : SquadFn) (w : ℝ) (a : MArray) (h4 : a.timestamps = none ∨ a.data.shape.getLast? ≠ some 4) (ts : Option (List ℝ)) :
    resampleArray sq (rcA k c w a) (ts.map (rcL k c)) = (resampleArray sq a ts).map (scaleArr w) := by
  obtain ⟨data, ats⟩ := a
  cases ats with
  | none =>
    cases ts with
    | none => rfl
    | some ts => simp only [resampleArray, rcA, Option.map_none, Option.map_some, rcL_length, Except.map]; rw [← tileN1_scale]; rfl
  | some ats =>
    have h4 := h4.resolve_left (by simp)
    cases ts with
    | none => rfl
    | some ts =>
      obtain ⟨sh, get⟩ := data
      simp only [resampleArray, rcA, Option.map_some, ND.map] at h4 ⊢
      cases sh with
      | nil => rfl
      | cons n rest =>
        simp only [if_neg h4, rcL_length]
        by_cases hl : ats.length ≠ n
        · simp only [if_pos hl]; rfl
        · simp only [if_neg hl]
          have hl := not_not.mp hl
          have hloc : (rcL k c ts).map (interpLoc (rcL k c ats)) = ts.map (interpLoc ats) := by
            rw [rcL, List.map_map]
            exact List.map_congr_left fun t _ => interpLoc_units hk ats t
          have main : (match collect ((rcL k c ts).map (interpLoc (rcL k c ats))) with
              | .error e => (.error e : Res (ND ℝ))
              | .ok locs => .ok ⟨ts.length :: rest, fun idx => interpVal (rcL k c ats) ((List.range n).map fun i => w * get (i :: idx.drop 1))
                  ((rcL k c ts).getD (idx.getD 0 0) 0) (locs.getD (idx.getD 0 0) (0, 0))⟩) =
              (match collect (ts.map (interpLoc ats)) with
              | .error e => (.error e : Res (ND ℝ))
              | .ok locs => .ok ⟨ts.length :: rest, fun idx => interpVal ats ((List.range n).map fun i => get (i :: idx.drop 1))
                  (ts.getD (idx.getD 0 0) 0) (locs.getD (idx.getD 0 0) (0, 0))⟩).map (scaleArr w) := by
            rw [hloc]
            cases hc : collect (ts.map (interpLoc ats)) with
            | error e => rfl
            | ok locs =>
              simp only [Except.map, scaleArr, ND.map, Except.ok.injEq, ND.mk.injEq, true_and]
              funext idx
              rw [show ((List.range n).map fun i => w * get (i :: idx.drop 1)) = ((List.range n).map fun i => get (i :: idx.drop 1)).map (w • ·) by
                rw [List.map_map]; rfl]
              generalize hi : idx.getD 0 0 = i
              by_cases hlt : i < ts.length
              · have hcl := collect_getD hc (i := i) (by simpa using hlt) (0, 0)
                rw [List.getElem?_map, List.getElem?_eq_getElem hlt] at hcl
                simp only [Option.map_some, Option.some.injEq] at hcl
                obtain ⟨h1, h2⟩ := interpLoc_lt hcl
                rw [rcL_getD hlt, interpVal_units hk w ats _ _ h1 h2 (by simpa using hl)]
                rfl
              · have : locs.getD i (0, 0) = (0, 0) := by
                  rw [List.getD_eq_getElem?_getD, List.getElem?_eq_none (by rw [collect_length hc]; simpa using hlt)]; rfl
                rw [this, interpVal_const, interpVal_const]
                cases n <;> simp
          by_cases h0 : 0 < ats.length
          · by_cases ho : anyOutside ats ts
            · simp only [if_pos ho, if_pos ((anyOutside_units hk h0 ts).mpr ho)]; rfl
            · simp only [if_neg ho, if_neg (fun h => ho ((anyOutside_units hk h0 ts).mp h))]
              exact main
          · have hx : ats = [] := List.length_eq_zero_iff.mp (by omega)
            subst hx
            have hn : n = 0 := by simpa using hl.symm
            subst hn
            cases ts with
            | nil =>
              have h1 : ∀ x : List ℝ, ¬ anyOutside x [] := fun x => by simp [anyOutside]
              simp [h1, collect, Except.map, scaleArr, ND.map, interpVal]
            | cons t ts =>
              simp [collect, interpLoc, Except.map]

include hk in
theorem getArray1_units (sq : SquadFn) (u w : ℝ) {m : Matcher} {a : MArray} (ha : m.arrays = [a]) (h4 : a.timestamps = none ∨ a.data.shape.getLast? ≠ some 4)
    (ts : Option (List ℝ)) : (rcM k c u w m).getArray1 sq (ts.map (rcL k c)) = (m.getArray1 sq ts).map (scaleArr w) := by
  have harr : (rcM k c u w m).arrays = [rcA k c w a] := by simp [rcM, ha]
  have hts := getTimestamps_units hk (c := c) u w m true
  have key := resampleArray_units (c := c) hk sq w a h4
  cases ts with
  | none =>
    simp only [Matcher.getArray1, Matcher.getArrays, Option.map_none, hts, harr, ha, bind, Except.bind]
    cases m.getTimestamps true with
    | error e => rfl
    | ok t =>
      simp only [Except.map, List.map_cons, List.map_nil, collect, key]
      cases resampleArray sq a t <;> rfl
  | some ts =>
    have key := key (some ts)
    simp only [Option.map_some] at key
    simp only [Matcher.getArray1, Matcher.getArrays, Option.map_some, harr, ha, bind, Except.bind, Pure.pure, Except.pure, List.map_cons, List.map_nil, collect, key]
    cases resampleArray sq a (some ts) <;> rfl

theorem bop_scale_right {f : ℝ → ℝ → ℝ} {w : ℝ} (hf : ∀ x y, f x (w * y) = w * f x y) (a b : ND ℝ) :
    ND.bop f a (scaleArr w b) = (ND.bop f a b).map (scaleArr w) := by
  simp only [ND.bop, show (scaleArr w b).shape = b.shape from rfl]
  cases ND.bshape a.shape b.shape with
  | none => rfl
  | some sh =>
    simp only [Except.map, Except.ok.injEq, scaleArr, ND.map, ND.mk.injEq, true_and]
    funext idx
    exact hf _ _

theorem bop_scale_left {f : ℝ → ℝ → ℝ} {w : ℝ} (hf : ∀ x y, f (w * x) y = w * f x y) (a b : ND ℝ) :
    ND.bop f (scaleArr w a) b = (ND.bop f a b).map (scaleArr w) := by
  simp only [ND.bop, show (scaleArr w a).shape = a.shape from rfl]
  cases ND.bshape a.shape b.shape with
  | none => rfl
  | some sh =>
    simp only [Except.map, Except.ok.injEq, scaleArr, ND.map, ND.mk.injEq, true_and]
    funext idx
    exact hf _ _

theorem bop_scale {f : ℝ → ℝ → ℝ} {w : ℝ} (hf : ∀ x y, f (w * x) (w * y) = w * f x y) (a b : ND ℝ) :
    ND.bop f (scaleArr w a) (scaleArr w b) = (ND.bop f a b).map (scaleArr w) := by
  simp only [ND.bop, show (scaleArr w a).shape = a.shape from rfl, show (scaleArr w b).shape = b.shape from rfl]
  cases ND.bshape a.shape b.shape with
  | none => rfl
  | some sh =>
    simp only [Except.map, Except.ok.injEq, scaleArr, ND.map, ND.mk.injEq, true_and]
    funext idx
    exact hf _ _

theorem moveaxis_scale (w : ℝ) (a : ND ℝ) (i j : ℕ) : (scaleArr w a).moveaxis i j = scaleArr w (a.moveaxis i j) := rfl

theorem swapaxesZ_scale (w : ℝ) (a : ND ℝ) (i j : ℤ) : (scaleArr w a).swapaxesZ i j = (a.swapaxesZ i j).map (scaleArr w) := by
  simp only [ND.swapaxesZ, show (scaleArr w a).ndim = a.ndim from rfl]
  cases normAxis i a.ndim with
  | none => rfl
  | some i => cases normAxis j a.ndim <;> rfl

open Matrix in
theorem crossLast_scale (w : ℝ) (a b : ND ℝ) : crossLast a (scaleArr w b) = (crossLast a b).map (scaleArr w) := by
  simp only [crossLast, show (scaleArr w b).shape = b.shape from rfl, show (scaleArr w b).ndim = b.ndim from rfl]
  split
  · cases ND.bshape a.shape.dropLast b.shape.dropLast with
    | none => rfl
    | some sh =>
      simp only [Except.map, Except.ok.injEq, scaleArr, ND.map, ND.mk.injEq, true_and]
      funext idx
      generalize (fun k : Fin 3 => a.get _) = va
      have : ∀ g : Fin 3 → ℝ, (va ⨯₃ fun k => w * g k) = w • (va ⨯₃ g) := fun g => by
        rw [show (fun k => w * g k) = w • g from rfl, map_smul]
      rw [this]
      rfl
  · rfl

theorem npCross_scale (w : ℝ) (a b : ND ℝ) (axis : ℤ) : npCross a (scaleArr w b) axis = (npCross a b axis).map (scaleArr w) := by
  simp only [npCross, show (scaleArr w b).ndim = b.ndim from rfl, moveaxis_scale, crossLast_scale]
  cases normAxis axis b.ndim with
  | none => rfl
  | some pb =>
    simp only
    cases crossLast a (b.moveaxis pb (b.ndim - 1)) with
    | error e => rfl
    | ok x =>
      simp only [Except.map, show (scaleArr w x).ndim = x.ndim from rfl]
      cases normAxis axis x.ndim <;> rfl

theorem rotateArrayFormula_scale (w : ℝ) (q : ND Quat) (v : ND ℝ) (axis : ℤ) :
    rotateArrayFormula q (scaleArr w v) axis = (rotateArrayFormula q v axis).map (scaleArr w) := by
  simp only [rotateArrayFormula, npCross_scale, bind, Except.bind]
  cases ND.swapaxesZ (⟨q.shape ++ [1], fun idx => (q.get idx.dropLast).re⟩ : ND ℝ) (-1) axis with
  | error e => rfl
  | ok s =>
    simp only
    cases ND.swapaxesZ (⟨q.shape ++ [1], fun idx => Real.sqrt ((q.get idx.dropLast).re * (q.get idx.dropLast).re + (q.get idx.dropLast).imI * (q.get idx.dropLast).imI +
      (q.get idx.dropLast).imJ * (q.get idx.dropLast).imJ + (q.get idx.dropLast).imK * (q.get idx.dropLast).imK)⟩ : ND ℝ) (-1) axis with
    | error e => rfl
    | ok m =>
      simp only
      generalize (⟨q.shape ++ [3], fun idx => qcomp (q.get idx.dropLast) (idx.getLast?.getD 0 + 1)⟩ : ND ℝ) = r
      cases npCross r v axis with
      | error e => rfl
      | ok rxv =>
        simp only [Except.map, bop_scale_right (f := fun x y => x * y) (w := w) fun x y => by ring]
        cases ND.bop (fun x y : ℝ => x * y) s v with
        | error e => rfl
        | ok sv =>
          simp only [Except.map, bop_scale (f := fun x y => x + y) (w := w) fun x y => by ring]
          cases ND.bop (fun x y : ℝ => x + y) sv rxv with
          | error e => rfl
          | ok sum =>
            simp only [Except.map, npCross_scale]
            cases npCross r sum axis with
            | error e => rfl
            | ok x =>
              simp only [Except.map]
              have : (scaleArr w x).map (fun x => 2 * x) = scaleArr w (x.map fun x => 2 * x) := by
                simp only [scaleArr, ND.map, ND.mk.injEq, true_and]; funext i; ring
              simp only [this, bop_scale_left (f := fun x y => x / y) (w := w) fun x y => by ring]
              cases ND.bop (fun x y : ℝ => x / y) (x.map fun x => 2 * x) m with
              | error e => rfl
              | ok c2 => simp only [Except.map, bop_scale (f := fun x y => x + y) (w := w) fun x y => by ring]

theorem quatRv_scale (w : ℝ) (q : ND Quat) (v : ND ℝ) (axis : ℤ) : quatRv q (scaleArr w v) axis = (quatRv q v axis).map (scaleArr w) := by
  simp only [quatRv, show (scaleArr w v).shape = v.shape from rfl, show (scaleArr w v).ndim = v.ndim from rfl]
  split
  · rfl
  · cases normAxis axis v.ndim with
    | none => rfl
    | some p =>
      simp only
      split
      · rfl
      · split
        · rfl
        · simp only [Except.map, Except.ok.injEq, scaleArr, ND.map, ND.mk.injEq, true_and]
          funext idx
          rw [show ND.vecAt (⟨v.shape, fun i => w * v.get i⟩ : ND ℝ) p (idx.drop q.ndim) = w • v.vecAt p (idx.drop q.ndim) from rfl, rotateMatrixForm_smul]
          rfl

theorem rotateVectorsF_scale (w : ℝ) (q v : ND ℝ) (axis : ℤ) : rotateVectorsF q (scaleArr w v) axis = (rotateVectorsF q v axis).map (scaleArr w) := by
  simp only [rotateVectorsF, bind, Except.bind]
  cases q.swapaxesZ (-1) (-1) with
  | error e => rfl
  | ok q' =>
    simp only
    cases asQuatArray q' with
    | error e => rfl
    | ok q'' =>
      simp only [rotateVectorsQ, quatRv_scale, rotateArrayFormula_scale, show (scaleArr w v).shape = v.shape from rfl, show (scaleArr w v).ndim = v.ndim from rfl]
      split
      · rfl
      · cases normAxis axis v.ndim with
        | none => rfl
        | some p =>
          simp only
          split
          · rfl
          · split
            · rfl
            · cases rotateArrayFormula q'' v axis with
              | error e => rfl
              | ok r =>
                simp only [Except.map]
                split <;> rfl

theorem validateInput_units (w : ℝ) (arr : ND ℝ) (axis : ℤ) (n : ℕ) (ts : Option (ND ℝ)) (ta : Option ℤ) :
    validateInput (scaleArr w arr) axis n (ts.map (ND.map (reclock k c))) ta =
      (validateInput arr axis n ts ta).map fun p => (scaleArr w p.1, p.2.map (rcL k c)) := by
  simp only [validateInput, show (scaleArr w arr).shape = arr.shape from rfl, bind, Except.bind]
  cases pyShape arr.shape axis with
  | error e => rfl
  | ok m =>
    simp only
    split
    · rfl
    · cases ts with
      | none => rfl
      | some t =>
        obtain ⟨sh, get⟩ := t
        simp only [Option.map_some, ND.map]
        match sh with
        | [] => rfl
        | [l] =>
          cases ta with
          | none => rfl
          | some ta =>
            simp only
            cases pyShape arr.shape ta with
            | error e => rfl
            | ok l' =>
              simp only
              split
              · rfl
              · simp only [swapaxesZ_scale]
                cases arr.swapaxesZ 0 ta with
                | error e => rfl
                | ok a =>
                  simp only [Except.map, Pure.pure, Except.pure, Except.ok.injEq, Prod.mk.injEq, true_and, Option.map_some, Option.some.injEq, rcL, List.map_map]
                  rfl
        | _ :: _ :: _ => rfl

theorem validateInput_last {arr arr' : ND ℝ} {o : TArgs} {ts : Option (List ℝ)} (h : validateInput arr o.axis 3 o.timestamps o.timeAxis = .ok (arr', ts))
    (h4 : NotLikeOrientations arr o) : ts = none ∨ arr'.shape.getLast? ≠ some 4 := by
  rcases h4 with h4 | ⟨hax, hta⟩ | ⟨ta, q, hta, hq, hlt, h4⟩
  rotate_left
  · right
    rw [hax, hta] at h
    simp only [validateInput, bind, Except.bind] at h
    cases hp : pyShape arr.shape (-1) with
    | error e => rw [hp] at h; cases h
    | ok m =>
      rw [hp] at h
      simp only at h
      split at h
      · cases h
      · rename_i hm
        have hm3 : m = 3 := by simpa using hm
        have key : arr.shape.getLast? = some 3 := by
          subst hm3
          simp only [pyShape, normAxis] at hp
          by_cases h0 : -(arr.shape.length : ℤ) ≤ -1 ∧ (-1 : ℤ) < 0
          · rw [if_neg (by omega), if_pos h0] at hp
            rw [List.getLast?_eq_getElem?]
            have e : ((-1 : ℤ) + arr.shape.length).toNat = arr.shape.length - 1 := by omega
            simp only [e, Except.ok.injEq, List.getD_eq_getElem?_getD] at hp
            rw [List.getElem?_eq_getElem (by omega)] at hp ⊢
            simpa using hp
          · rw [if_neg (by omega), if_neg h0] at hp; cases hp
        cases hts : o.timestamps with
        | none => rw [hts] at h; cases h; rw [key]; simp
        | some t =>
          obtain ⟨sh, get⟩ := t
          rw [hts] at h
          match sh, h with
          | [], h => cases h
          | [l], h =>
            simp only at h
            cases hp2 : pyShape arr.shape 0 with
            | error e => rw [hp2] at h; cases h
            | ok m2 =>
              rw [hp2] at h
              simp only at h
              split at h
              · cases h
              · cases hsw : arr.swapaxesZ 0 0 with
                | error e => rw [hsw] at h; cases h
                | ok a =>
                  rw [hsw] at h
                  cases h
                  simp only [ND.swapaxesZ] at hsw
                  cases hn : normAxis 0 arr.ndim with
                  | none => rw [hn] at hsw; cases hsw
                  | some q =>
                    rw [hn] at hsw
                    simp only [Except.ok.injEq] at hsw
                    subst hsw
                    show (swapL q q arr.shape).getLast? ≠ some 4
                    rw [show swapL q q arr.shape = arr.shape by simp only [swapL, List.set_set, set_getD_self], key]
                    simp
          | _ :: _ :: _, h => cases h
  rotate_right
  · left
    rw [h4] at h
    simp only [validateInput, bind, Except.bind] at h
    cases hp : pyShape arr.shape o.axis with
    | error e => rw [hp] at h; cases h
    | ok m =>
      rw [hp] at h
      simp only at h
      split at h
      · cases h
      · cases h; rfl
  · cases hts : o.timestamps with
    | none =>
      left
      rw [hts] at h
      simp only [validateInput, bind, Except.bind] at h
      cases hp : pyShape arr.shape o.axis with
      | error e => rw [hp] at h; cases h
      | ok m =>
        rw [hp] at h
        simp only at h
        split at h
        · cases h
        · cases h; rfl
    | some t =>
      right
      obtain ⟨sh, get⟩ := t
      rw [hts, hta] at h
      simp only [validateInput, bind, Except.bind] at h
      cases hp : pyShape arr.shape o.axis with
      | error e => rw [hp] at h; cases h
      | ok m =>
        rw [hp] at h
        simp only at h
        split at h
        · cases h
        · match sh, h with
          | [], h => cases h
          | [l], h =>
            simp only at h
            cases hp2 : pyShape arr.shape ta with
            | error e => rw [hp2] at h; cases h
            | ok m =>
              rw [hp2] at h
              simp only at h
              split at h
              · cases h
              · cases hsw : arr.swapaxesZ 0 ta with
                | error e => rw [hsw] at h; cases h
                | ok a =>
                  rw [hsw] at h
                  cases h
                  have h0 : AxisIs 0 arr.ndim 0 := ⟨by omega, .inl rfl⟩
                  simp only [ND.swapaxesZ, axisIs_norm h0, axisIs_norm hq, Except.ok.injEq] at hsw
                  subst hsw
                  simp only [ND.ndim] at hlt
                  have e : (swapL 0 q arr.shape).getLast? = arr.shape.getLast? := by
                    rw [List.getLast?_eq_getElem?, List.getLast?_eq_getElem?]
                    simp only [swapL, List.length_set]
                    rw [List.getElem?_set_ne (by omega), List.getElem?_set_ne (by omega)]
                  show (swapL 0 q arr.shape).getLast? ≠ some 4
                  rw [e]; exact h4
          | _ :: _ :: _, h => cases h

theorem getMatcher_arrays {s : State} {a : ℕ} {dst : FrameRef} {as : List MArray} {m : Matcher} (h : s.getMatcher a dst as = .ok m) : m.arrays = as := by
  have hf : ∀ {inv : Bool} {is : List ℕ} {m m' : Matcher}, s.addFrames inv is m = .ok m' → m'.arrays = m.arrays := by
    intro inv is
    induction is with
    | nil => intro m m' h; simp only [State.addFrames, Except.ok.injEq] at h; rw [h]
    | cons i is ih =>
      intro m m' h
      simp only [State.addFrames] at h
      cases h1 : s.addFrame m i inv with
      | error e => rw [h1] at h; cases h
      | ok m1 =>
        rw [h1] at h
        refine (ih h).trans ?_
        simp only [State.addFrame] at h1
        cases hd : s.data i with
        | none => rw [hd] at h1; cases h1
        | some d =>
          rw [hd] at h1
          cases hp : d.pose with
          | none => simp only [hp] at h1; cases h1
          | some p =>
            obtain ⟨t, r⟩ := p
            simp only [hp, Matcher.addFrame] at h1
            split at h1
            · cases h1
            · cases h1; rfl
  have ha : ∀ {as : List MArray} {m m' : Matcher}, addArrays as m = .ok m' → m'.arrays = m.arrays ++ as := by
    intro as
    induction as with
    | nil => intro m m' h; simp only [addArrays, Except.ok.injEq] at h; simp [h]
    | cons x as ih =>
      intro m m' h
      simp only [addArrays] at h
      cases h1 : m.addArray x with
      | error e => rw [h1] at h; cases h
      | ok m1 =>
        rw [h1] at h
        rw [ih h]
        have : m1.arrays = m.arrays ++ [x] := by
          obtain ⟨d, ts⟩ := x
          cases ts with
          | none => simp only [Matcher.addArray, Except.ok.injEq] at h1; rw [← h1]
          | some ts =>
            obtain ⟨sh, get⟩ := d
            cases sh with
            | nil => simp only [Matcher.addArray] at h1; cases h1
            | cons n sh =>
              simp only [Matcher.addArray] at h1
              split at h1
              · cases h1
              · cases h1; rfl
        simp [this]
  simp only [State.getMatcher, bind, Except.bind] at h
  cases hw : s.walk a dst with
  | error e => rw [hw] at h; cases h
  | ok p =>
    rw [hw] at h
    simp only at h
    cases h1 : s.addFrames false p.1 Matcher.empty with
    | error e => rw [h1] at h; cases h
    | ok m1 =>
      rw [h1] at h
      simp only at h
      cases h2 : s.addFrames true p.2 m1 with
      | error e => rw [h2] at h; cases h
      | ok m2 =>
        rw [h2] at h
        rw [ha h, hf h2, hf h1]; rfl

theorem undoTimeSwap_scale (w : ℝ) (arr : ND ℝ) (ta : Option ℤ) : undoTimeSwap (scaleArr w arr) ta = (undoTimeSwap arr ta).map (scaleArr w) := by
  cases ta with
  | none => rfl
  | some ta => exact swapaxesZ_scale w arr 0 ta

theorem expand_scale (w : ℝ) (a : ND ℝ) (n : ℕ) : expandSingletonAxes (scaleArr w a) n = scaleArr w (expandSingletonAxes a n) := by
  simp only [expandSingletonAxes, show (scaleArr w a).ndim = a.ndim from rfl]
  split
  · rename_i hgt
    clear hgt
    generalize n - 2 = j
    induction j generalizing a with
    | zero => rfl
    | succ j ih => rw [Function.iterate_succ_apply, Function.iterate_succ_apply, show (scaleArr w a).expandDims1 = scaleArr w a.expandDims1 from rfl, ih]
  · rfl

theorem ofVecs_scale (u : ℝ) (t : Arr Vec) : ND.ofVecs (t.map (u • ·)) = scaleArr u (ND.ofVecs t) := by
  cases t with
  | one v => rfl
  | many l =>
    simp only [Arr.map, ND.ofVecs, scaleArr, ND.map, List.length_map, ND.mk.injEq, true_and]
    funext idx
    generalize idx.getD 0 0 = i
    generalize Fin.ofNat 3 (idx.getD 1 0) = j
    rw [List.getD_eq_getElem?_getD, List.getD_eq_getElem?_getD, List.getElem?_map]
    cases l[i]? <;> simp

include hk in
theorem vectorsCore_units {sq : SquadFn} (hsq : UnitsLaw sq) (u w : ℝ) (s : State) (a : ℕ) (arr : ND ℝ) (dst : FrameRef) (o : TArgs) (h4 : NotLikeOrientations arr o) :
    (unitsState k c u s).transformVectorsCore sq a (scaleArr w arr) dst (unitsArgs k c o) =
      (s.transformVectorsCore sq a arr dst o).map fun p => (scaleArr w p.1, p.2.map (rcL k c)) := by
  simp only [State.transformVectorsCore, unitsArgs, validateInput_units, bind, Except.bind]
  cases hv : validateInput arr o.axis 3 o.timestamps o.timeAxis with
  | error e => rfl
  | ok p =>
    obtain ⟨arr', ts⟩ := p
    have h4' := validateInput_last hv h4
    have hm := getMatcher_units hk (c := c) u w s a dst [⟨arr', ts⟩]
    simp only [List.map_cons, List.map_nil, rcA] at hm
    simp only [Except.map]
    rw [show scaleArr w arr' = arr'.map (w * ·) from rfl, hm]
    cases hg : s.getMatcher a dst [⟨arr', ts⟩] with
    | error e => rfl
    | ok m =>
      simp only [Except.map, getTransformation_units hk hsq]
      cases m.getTransformation sq with
      | error e => rfl
      | ok x =>
        obtain ⟨t, r, ts'⟩ := x
        simp only [getArray1_units hk sq u w (getMatcher_arrays hg) h4' ts']
        cases m.getArray1 sq ts' with
        | error e => rfl
        | ok y =>
          simp only [Except.map, rotateVectorsF_scale, show (scaleArr w y).ndim = y.ndim from rfl]
          cases rotateVectorsF (expandSingletonAxes (ND.ofQuats r) y.ndim) y o.axis <;> rfl

include hk in
theorem pointsCore_units {sq : SquadFn} (hsq : UnitsLaw sq) (u : ℝ) (s : State) (a : ℕ) (arr : ND ℝ) (dst : FrameRef) (o : TArgs) (h4 : NotLikeOrientations arr o) :
    (unitsState k c u s).transformPointsCore sq a (scaleArr u arr) dst (unitsArgs k c o) =
      (s.transformPointsCore sq a arr dst o).map fun p => (scaleArr u p.1, p.2.map (rcL k c)) := by
  simp only [State.transformPointsCore, unitsArgs, validateInput_units, bind, Except.bind]
  cases hv : validateInput arr o.axis 3 o.timestamps o.timeAxis with
  | error e => rfl
  | ok p =>
    obtain ⟨arr', ts⟩ := p
    have h4' := validateInput_last hv h4
    have hm := getMatcher_units hk (c := c) u u s a dst [⟨arr', ts⟩]
    simp only [List.map_cons, List.map_nil, rcA] at hm
    simp only [Except.map]
    rw [show scaleArr u arr' = arr'.map (u * ·) from rfl, hm]
    cases hg : s.getMatcher a dst [⟨arr', ts⟩] with
    | error e => rfl
    | ok m =>
      simp only [Except.map, getTransformation_units hk hsq]
      cases m.getTransformation sq with
      | error e => rfl
      | ok x =>
        obtain ⟨t, r, ts'⟩ := x
        simp only [getArray1_units hk sq u u (getMatcher_arrays hg) h4' ts']
        cases m.getArray1 sq ts' with
        | error e => rfl
        | ok y =>
          simp only [Except.map, rotateVectorsF_scale, show (scaleArr u y).ndim = y.ndim from rfl, ofVecs_scale, expand_scale]
          cases rotateVectorsF (expandSingletonAxes (ND.ofQuats r) y.ndim) y o.axis with
          | error e => rfl
          | ok z =>
            simp only [Except.map, bop_scale (f := fun x y => x + y) (w := u) fun x y => by ring]
            cases ND.bop (fun x y : ℝ => x + y) z (expandSingletonAxes (ND.ofVecs t) y.ndim) <;> rfl

end RBM
