import Verif.Lemmas.Velocity
import Verif.Lemmas.TransformLaws

namespace RBM

open Spec

theorem rowsOf_get {a : ND ℝ} {n : ℕ} (hs : a.shape = [n, 3]) {i : ℕ} (hi : i < n) : (rowsOf a)[i]? = some (vec3 a 1 [i, 0]) := by
  rw [rowsOf, hs, List.getElem?_map]
  simp [List.getElem?_range hi]

theorem rowsOf_length {a : ND ℝ} {n : ℕ} (hs : a.shape = [n, 3]) : (rowsOf a).length = n := by simp [rowsOf, hs]

theorem interpVal_vec {a : ND ℝ} {n : ℕ} (hs : a.shape = [n, 3]) {ats : List ℝ} {τ : ℝ} {loc : ℕ × ℕ} (h1 : loc.1 < n) (h2 : loc.2 < n)
    (j : Fin 3) : interpVal ats ((List.range n).map fun i => a.get [i, j]) τ loc = interpVal ats (rowsOf a) τ loc j := by
  have hg : ∀ m, m < n → ((List.range n).map fun i => a.get [i, (j : ℕ)]).getD m 0 = ((rowsOf a).getD m 0) j := by
    intro m hm
    rw [List.getD_eq_getElem?_getD, List.getD_eq_getElem?_getD, rowsOf_get hs hm, List.getElem?_map, List.getElem?_range hm]
    fin_cases j <;> rfl
  simp only [interpVal, hg _ h1, hg _ h2, Pi.add_apply, Pi.smul_apply, Pi.sub_apply]

/-- One resampled series of vectors. -/
theorem resample_series (sq : SquadFn) {a : ND ℝ} {ats : Option (List ℝ)} (ha : IsSeries a ats) {ts : List ℝ}
    (hin : ∀ y, ats = some y → ∀ τ ∈ ts, InRange y τ) :
    ∃ R, resampleArray sq ⟨a, ats⟩ (some ts) = .ok R ∧ R.shape = [ts.length, 3] ∧
      ∀ (i : ℕ) τ, ts[i]? = some τ → ValueAt a ats τ (vec3 R 1 [i, 0]) := by
  classical
  cases ats with
  | none =>
    have hs : a.shape = [3] := ha
    refine ⟨a.tileN1 ts.length, rfl, by simp [ND.tileN1, hs], fun i τ _ => ?_⟩
    show vec3 _ 1 _ = _
    simp [vec3, ND.tileN1, hs]
  | some ats =>
    obtain ⟨hs, h2, hinc⟩ := ha
    have hin := hin ats rfl
    have hrange : ∀ τ ∈ ts, ats.getD 0 0 ≤ τ ∧ τ ≤ ats.getD (ats.length - 1) 0 := by
      intro τ hτ
      have hne : ats ≠ [] := by intro h; rw [h] at h2; simp at h2
      exact inRange_getD hne (hin τ hτ)
    have hout : ¬ anyOutside ats ts := by
      rintro ⟨t, ht, h | h⟩
      · exact absurd (hrange t ht).1 (not_le.mpr h)
      · exact absurd (hrange t ht).2 (not_le.mpr h)
    have hloc : ∀ τ ∈ ts, ∃ loc, interpLoc ats τ = .ok loc ∧ loc.1 < ats.length ∧ loc.2 < ats.length := by
      intro τ hτ
      obtain ⟨lo, e, h3, _⟩ := interpLoc_spec hinc h2 (hrange τ hτ).1 (hrange τ hτ).2
      exact ⟨_, e, by simp; omega, by simp; omega⟩
    let L : ℝ → ℕ × ℕ := fun τ => match interpLoc ats τ with | .ok l => l | .error _ => (0, 0)
    have hL : ∀ τ ∈ ts, interpLoc ats τ = .ok (L τ) := by
      intro τ hτ; obtain ⟨l, e, _⟩ := hloc τ hτ; simp only [L, e]
    have hLl : ∀ τ ∈ ts, (L τ).1 < ats.length ∧ (L τ).2 < ats.length := by
      intro τ hτ; obtain ⟨l, e, h⟩ := hloc τ hτ; simp only [L, e]; exact h
    have hc := collect_map (ts := ts) hL
    refine ⟨⟨[ts.length, 3], fun idx =>
        interpVal ats ((List.range ats.length).map fun i => a.get (i :: idx.drop 1))
          (ts.getD (idx.getD 0 0) 0) ((ts.map L).getD (idx.getD 0 0) (0, 0))⟩, ?_, rfl, ?_⟩
    · simp only [resampleArray, hs]
      rw [if_neg (by simp), if_neg (by simp), if_neg hout, hc]
    · intro i τ hi
      have hτ : τ ∈ ts := List.mem_of_getElem? hi
      have e1 : ts.getD i 0 = τ := by rw [List.getD_eq_getElem?_getD, hi]; rfl
      have e2 : (ts.map L).getD i (0, 0) = L τ := by rw [List.getD_eq_getElem?_getD, List.getElem?_map, hi]; rfl
      have hrl : (rowsOf a).length = ats.length := rowsOf_length hs
      obtain ⟨v, e3, hv⟩ := interpAt_spec hinc h2 hrl (hrange τ hτ).1 (hrange τ hτ).2
      simp only [interpAt, hrl, ne_eq, not_true, if_false, hL τ hτ] at e3
      cases e3
      show IsLinInterp _ _ _ _
      convert hv using 1
      have key : ∀ j : Fin 3, interpVal ats ((List.range ats.length).map fun i => a.get [i, j]) τ (L τ) = interpVal ats (rowsOf a) τ (L τ) j :=
        fun j => interpVal_vec hs (hLl τ hτ).1 (hLl τ hτ).2 j
      have k0 := key 0
      have k1 := key 1
      have k2 := key 2
      simp only [vec3, List.set_cons_succ, List.set_cons_zero, List.drop_one, List.tail_cons, List.getD_cons_zero, e1, e2]
      ext j
      fin_cases j
      · exact k0
      · exact k1
      · exact k2

theorem collect_forall₂ {α β : Type} {f : α → Res β} {P : α → β → Prop} : ∀ {l : List α}, (∀ a ∈ l, ∃ b, f a = .ok b ∧ P a b) →
    ∃ bs, collect (l.map f) = .ok bs ∧ List.Forall₂ P l bs := by
  intro l
  induction l with
  | nil => intro _; exact ⟨[], rfl, .nil⟩
  | cons a l ih =>
    intro h
    obtain ⟨b, e, hb⟩ := h a (by simp)
    obtain ⟨bs, e', hbs⟩ := ih fun x hx => h x (by simp [hx])
    exact ⟨b :: bs, by simp [collect, e, e'], .cons hb hbs⟩

/-- The timestamps that matched series share: those of the first timestamped one in the range of all. -/
noncomputable def matchStamps (l : List MArray) : List ℝ :=
  commonStamps ((l.filterMap (·.timestamps)).headD []) (l.filterMap (·.timestamps))

theorem addArrays_all {l : List MArray} (h : ∀ a ∈ l, IsSeries a.data a.timestamps) : ∀ m : Matcher,
    addArrays l m = .ok ⟨m.frames, m.arrays ++ l⟩ := by
  induction l with
  | nil => intro m; simp [addArrays]
  | cons a l ih =>
    intro m
    have ha := h a (by simp)
    have hadd : m.addArray a = .ok ⟨m.frames, m.arrays ++ [a]⟩ := by
      cases hts : a.timestamps with
      | none => simp [Matcher.addArray, hts]
      | some ts =>
        rw [hts] at ha
        obtain ⟨h1, h2, h3⟩ := ha
        simp only [Matcher.addArray, hts, h1, checkTimestamps_ok h3.nonDecreasing rfl]
    rw [addArrays, hadd]
    simp only
    rw [ih (fun x hx => h x (by simp [hx]))]
    simp

/-- `_match_arrays` on vector series, at least one of them timestamped. -/
theorem matchArrays_series (sq : SquadFn) {l : List MArray} (h : ∀ a ∈ l, IsSeries a.data a.timestamps)
    (hne : l.filterMap (·.timestamps) ≠ []) :
    ∃ outs, matchArrays sq l = .ok (outs, some (matchStamps l)) ∧
      List.Forall₂ (fun (a : MArray) (R : ND ℝ) => R.shape = [(matchStamps l).length, 3] ∧
        ∀ (i : ℕ) τ, (matchStamps l)[i]? = some τ → ValueAt a.data a.timestamps τ (vec3 R 1 [i, 0])) l outs := by
  classical
  have hadd := addArrays_all h Matcher.empty
  have hm : addArrays l Matcher.empty = .ok ⟨[], l⟩ := by rw [hadd]; simp [Matcher.empty]
  have hcont : (⟨[], l⟩ : Matcher).continuous = l.filterMap (·.timestamps) := by simp [Matcher.continuous]
  have hcne : ∀ c ∈ (⟨[], l⟩ : Matcher).continuous, c ≠ [] := by
    intro c hc
    rw [hcont] at hc
    obtain ⟨a, ha, e⟩ := List.mem_filterMap.mp hc
    have := h a ha
    rw [e] at this
    intro hc0; rw [hc0] at this; have := this.2.1; simp at this
  have hts : (⟨[], l⟩ : Matcher).getTimestamps true = .ok (some (matchStamps l)) := by
    rcases getTimestamps_spec ⟨[], l⟩ true hcne with ⟨c, cs, ts, e1, e2, _, e3⟩ | ⟨e, _⟩ | ⟨e, _⟩
    · have hel : (⟨[], l⟩ : Matcher).elements true = l.filterMap (·.timestamps) := by simp [Matcher.elements]
      rw [e2, matchStamps, ← hel, e1]
      congr 2
      have := e3 (fun t => ∀ c' ∈ c :: cs, InRange c' t) (fun t => by rw [hcont, ← hel, e1])
      rw [this, commonStamps]; rfl
    · rw [hcont] at e; exact absurd e hne
    · rw [hcont] at e; exact absurd e hne
  have hin : ∀ a ∈ l, ∀ y, a.timestamps = some y → ∀ τ ∈ matchStamps l, InRange y τ := by
    intro a ha y hy τ hτ
    simp only [matchStamps, commonStamps, List.mem_filter, decide_eq_true_eq] at hτ
    exact hτ.2 y (List.mem_filterMap.mpr ⟨a, ha, hy⟩)
  obtain ⟨outs, o1, o2⟩ := collect_forall₂ (f := fun a => resampleArray sq a (some (matchStamps l)))
    (P := fun (a : MArray) (R : ND ℝ) => R.shape = [(matchStamps l).length, 3] ∧
        ∀ (i : ℕ) τ, (matchStamps l)[i]? = some τ → ValueAt a.data a.timestamps τ (vec3 R 1 [i, 0])) (l := l)
    (fun a ha => by
      obtain ⟨R, r1, r2, r3⟩ := resample_series sq (h a ha) (hin a ha)
      exact ⟨R, r1, r2, r3⟩)
  refine ⟨outs, ?_, o2⟩
  simp only [matchArrays, hm, bind, Except.bind, Matcher.getArrays, hts, o1, Pure.pure, Except.pure]

/-- `_match_arrays` without any timestamps. -/
theorem matchArrays_static (sq : SquadFn) {l : List MArray} (h : ∀ a ∈ l, a.timestamps = none) :
    matchArrays sq l = .ok (l.map (·.data), none) := by
  have hf : l.filterMap (·.timestamps) = [] := List.filterMap_eq_nil_iff.mpr h
  have hadd : ∀ (l : List MArray) (m : Matcher), (∀ a ∈ l, a.timestamps = none) → addArrays l m = .ok ⟨m.frames, m.arrays ++ l⟩ := by
    intro l
    induction l with
    | nil => intro m _; simp [addArrays]
    | cons a l ih =>
      intro m h
      have : m.addArray a = .ok ⟨m.frames, m.arrays ++ [a]⟩ := by simp [Matcher.addArray, h a (by simp)]
      rw [addArrays, this]
      simp only
      rw [ih _ (fun x hx => h x (by simp [hx]))]; simp
  have hm : addArrays l Matcher.empty = .ok ⟨[], l⟩ := by rw [hadd l _ h]; simp [Matcher.empty]
  have hts : (⟨[], l⟩ : Matcher).getTimestamps true = .ok none := by
    simp [Matcher.getTimestamps, Matcher.getRange, Matcher.continuous, hf, firstStamps, lastStamps]
  have hc : collect (l.map fun a => resampleArray sq a none) = .ok (l.map (·.data)) := by
    clear hf hm hts hadd
    induction l with
    | nil => rfl
    | cons a l ih =>
      have ha : resampleArray sq a none = .ok a.data := by simp [resampleArray, h a (by simp)]
      simp [collect, ha, ih (fun x hx => h x (by simp [hx]))]
  simp only [matchArrays, hm, bind, Except.bind, Matcher.getArrays, hts, hc, Pure.pure, Except.pure]

end RBM
