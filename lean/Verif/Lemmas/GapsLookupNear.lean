import Verif.Lemmas.GapsLookup

/-!
Rows of a lookup that are not missing (C98).
-/

namespace RBM

open Spec

/-- The row used for output `k` satisfies `P`. -/
def KnownAt {α : Type} (k : ℕ) (P : α → Prop) : Arr α → Prop
  | .one a => P a
  | .many l => ∀ a, (l[k]? = some a ∨ l = [a]) → P a

/-- It suffices to look at row `k` of an array that has this row. -/
theorem knownAt_of {α : Type} {k : ℕ} {P : α → Prop} {l : List α} (hk : k < l.length) (h : ∀ a, l[k]? = some a → P a) : KnownAt k P (.many l) := by
  rintro a (h1 | rfl)
  · exact h a h1
  · have : k = 0 := by simpa using hk
    subst this
    exact h a rfl

theorem knownAt_map {α β : Type} {k : ℕ} {P : α → Prop} {Q : β → Prop} {f : α → β} (hf : ∀ a, P a → Q (f a)) {x : Arr α} (h : KnownAt k P x) :
    KnownAt k Q (x.map f) := by
  cases x with
  | one a => exact hf a h
  | many l =>
    rintro b (hb | hb)
    · rw [List.getElem?_map] at hb
      cases ha : l[k]? with
      | none => rw [ha] at hb; cases hb
      | some a => rw [ha] at hb; cases hb; exact hf a (h a (.inl ha))
    · rcases l with _ | ⟨a, _ | ⟨c, l⟩⟩
      · cases hb
      · cases hb; exact hf a (h a (.inr rfl))
      · simp at hb

theorem knownAt_zip {α β γ : Type} {k : ℕ} {P : α → Prop} {Q : β → Prop} {T : γ → Prop} {f : α → β → γ} (hf : ∀ a b, P a → Q b → T (f a b))
    {x : Arr α} {y : Arr β} (hx : KnownAt k P x) (hy : KnownAt k Q y) {z : Arr γ} (e : Arr.bzip f x y = .ok z) : KnownAt k T z := by
  cases x with
  | one a =>
    cases y with
    | one b => cases e; exact hf a b hx hy
    | many m => cases e; exact knownAt_map (x := .many m) (fun b hb => hf a b hx hb) hy
  | many l =>
    cases y with
    | one b => cases e; exact knownAt_map (x := .many l) (fun a ha => hf a b ha hy) hx
    | many m =>
      by_cases hl : l.length = m.length
      · simp only [Arr.bzip, hl, if_true] at e
        cases e
        rintro c (hc | hc)
        · rw [List.getElem?_zipWith] at hc
          cases ha : l[k]? with
          | none => rw [ha] at hc; cases hc
          | some a => cases hb : m[k]? with
            | none => rw [ha, hb] at hc; cases hc
            | some b => rw [ha, hb] at hc; cases hc; exact hf a b (hx a (.inl ha)) (hy b (.inl hb))
        · rcases l with _ | ⟨a, _ | ⟨a', l⟩⟩
          · cases hc
          · rcases m with _ | ⟨b, _ | ⟨b', m⟩⟩
            · cases hc
            · cases hc; exact hf a b (hx a (.inr rfl)) (hy b (.inr rfl))
            · simp at hl
          · rcases m with _ | ⟨b, _ | ⟨b', m⟩⟩ <;> simp at hc hl
      · simp only [Arr.bzip, hl, if_false] at e
        rcases l with _ | ⟨a, _ | ⟨a', l⟩⟩
        · rcases m with _ | ⟨b, _ | ⟨b', m⟩⟩
          · exact absurd rfl hl
          · cases e; rintro c (hc | hc) <;> simp at hc
          · cases e
        · cases e
          exact knownAt_map (x := .many m) (fun b hb => hf a b (hx a (.inr rfl)) hb) hy
        · rcases m with _ | ⟨b, _ | ⟨b', m⟩⟩
          · cases e
          · cases e
            exact knownAt_map (x := .many (a :: a' :: l)) (fun a ha => hf a b ha (hy b (.inr rfl))) hx
          · cases e

/-! ### arithmetic -/

theorem complete_known {v : GVec} (h : Complete v) : ∃ w : Vec, v = fun k => some (w k) := by
  have : ∀ k, ∃ x, v k = some x := fun k => Option.ne_none_iff_exists'.mp (h k)
  choose w hw using this
  exact ⟨w, funext hw⟩

theorem complete_rot (f : Quat → Vec → Vec) {q : Option Quat} {v : GVec} (hq : q ≠ none) (hv : Complete v) : Complete (rotGaps f q v) := by
  obtain ⟨w, rfl⟩ := complete_known hv
  obtain ⟨p, rfl⟩ := Option.ne_none_iff_exists'.mp hq
  intro k
  simp [rotGaps, GVec.known]

theorem complete_sub {v w : GVec} (hv : Complete v) (hw : Complete w) : Complete (subGaps v w) := by
  obtain ⟨v, rfl⟩ := complete_known hv
  obtain ⟨w, rfl⟩ := complete_known hw
  intro k; simp [subGaps, nan2]

theorem complete_add {v w : GVec} (hv : Complete v) (hw : Complete w) : Complete (addGaps v w) := by
  obtain ⟨v, rfl⟩ := complete_known hv
  obtain ⟨w, rfl⟩ := complete_known hw
  intro k; simp [addGaps, nan2]

theorem known_mul {p q : Option Quat} (hp : p ≠ none) (hq : q ≠ none) : mulGaps p q ≠ none := by
  obtain ⟨p, rfl⟩ := Option.ne_none_iff_exists'.mp hp
  obtain ⟨q, rfl⟩ := Option.ne_none_iff_exists'.mp hq
  simp [mulGaps]

theorem known_rotate {k : ℕ} {q : Arr (Option Quat)} {v z : Arr GVec} (hq : KnownAt k (· ≠ none) q) (hv : KnownAt k Complete v)
    (e : rotateVectorsGaps q v = .ok z) : KnownAt k Complete z := by
  cases q with
  | one q =>
    simp only [rotateVectorsGaps] at e
    split at e
    · cases e
    · cases e; exact knownAt_map (fun a ha => complete_rot _ hq ha) hv
  | many qs =>
    cases v with
    | one v => cases e
    | many vs =>
      simp only [rotateVectorsGaps] at e
      cases hb : Arr.bzip (rotGaps rotateCrossForm) (.many qs) (.many vs) with
      | error x => rw [hb] at e; cases e
      | ok w =>
        rw [hb] at e
        simp only at e
        split at e
        · cases e
        · cases e; exact knownAt_zip (f := rotGaps rotateCrossForm) (T := Complete) (fun a b ha hb => complete_rot rotateCrossForm ha hb) hq hv hb

theorem known_inv {k : ℕ} {q z : Arr (Option Quat)} (hq : KnownAt k (· ≠ none) q) (e : qinvArrGaps q = .ok z) : KnownAt k (· ≠ none) z := by
  cases q with
  | one q =>
    simp only [qinvArrGaps] at e
    split at e
    · cases e
    · cases e
      exact fun h => hq (Option.map_eq_none_iff.mp h)
  | many qs =>
    simp only [qinvArrGaps] at e
    split at e
    · cases e
    · cases e
      exact knownAt_map (x := .many qs) (f := fun q : Option Quat => q.map fun q => q⁻¹) (fun a ha h => ha (Option.map_eq_none_iff.mp h)) hq

/-! ### one frame -/

theorem getElem?_of_getD {xs : List ℝ} {k : ℕ} (h : k < xs.length) : xs[k]? = some (xs.getD k 0) := by
  rw [List.getD_eq_getElem?_getD, List.getElem?_eq_getElem h]; rfl

theorem interpValGaps_complete {xs : List ℝ} {ys : List GVec} (hs : StrictlyIncreasing xs) (hl : 2 ≤ xs.length) (hy : ys.length = xs.length) {τ : ℝ}
    (hin : InRange xs τ) (h : ∀ k, Close xs 1 τ k → ∀ g : GVec, ys[k]? = some g → Complete g) {loc : ℕ × ℕ} (e : interpLoc xs τ = .ok loc) :
    Complete (interpValGaps xs ys τ loc) := by
  have h0 : xs.getD 0 0 ≤ τ := hin.1 _ (by rw [List.head?_eq_getElem?]; exact getElem?_of_getD (by omega))
  have h1 : τ ≤ xs.getD (xs.length - 1) 0 := hin.2 _ (by rw [List.getLast?_eq_getElem?]; exact getElem?_of_getD (by omega))
  obtain ⟨lo, e', hlt, l0, l1, _⟩ := interpLoc_spec hs hl h0 h1
  rw [e] at e'
  cases e'
  have mono : ∀ i j : ℕ, i < j → j < xs.length → xs.getD i 0 ≤ xs.getD j 0 := by
    intro i j hij hj
    have hi : i < xs.length := by omega
    have := List.pairwise_iff_getElem.mp hs i j hi hj hij
    simp only [List.getD_eq_getElem?_getD, List.getElem?_eq_getElem hi, List.getElem?_eq_getElem hj, Option.getD_some]
    exact this.le
  have c0 : Close xs 1 τ lo := by
    refine ⟨⟨_, getElem?_of_getD (by omega)⟩, fun y hy => ?_, fun j y hj hy => ?_⟩
    · rw [getElem?_of_getD hlt] at hy; cases hy; exact l1
    · rw [getElem?_of_getD (by omega)] at hy; cases hy
      exact (mono j lo (by omega) (by omega)).trans l0
  have c1 : Close xs 1 τ (lo + 1) := by
    refine ⟨⟨_, getElem?_of_getD hlt⟩, fun y hy => ?_, fun j y hj hy => ?_⟩
    · obtain ⟨b, _⟩ := List.getElem?_eq_some_iff.mp hy
      rw [getElem?_of_getD b] at hy; cases hy
      exact l1.trans (mono _ _ (by omega) b)
    · have : j = lo := by omega
      subst this
      rw [getElem?_of_getD (by omega)] at hy; cases hy; exact l0
  have g0 : ys[lo]? = some (ys.getD lo fun _ => none) := by
    rw [List.getD_eq_getElem?_getD, List.getElem?_eq_getElem (by omega)]; rfl
  have g1 : ys[lo + 1]? = some (ys.getD (lo + 1) fun _ => none) := by
    rw [List.getD_eq_getElem?_getD, List.getElem?_eq_getElem (by omega)]; rfl
  obtain ⟨v, hv⟩ := complete_known (h _ c0 _ g0)
  obtain ⟨w, hw⟩ := complete_known (h _ c1 _ g1)
  intro k
  simp only [interpValGaps, hv, hw]
  simp [nan2]

theorem interp1dGaps_rows {xs : List ℝ} {ys : List GVec} {ts : List ℝ} {z : List GVec} (e : interp1dGaps xs ys ts = .ok z) :
    xs.length = ys.length ∧ List.Forall₂ (fun τ g => ∃ loc, interpLoc xs τ = .ok loc ∧ g = interpValGaps xs ys τ loc) ts z := by
  simp only [interp1dGaps] at e
  by_cases h1 : xs.length ≠ ys.length
  · rw [if_pos h1] at e; cases e
  · rw [if_neg h1] at e
    by_cases h2 : anyOutside xs ts
    · rw [if_pos h2] at e; cases e
    · rw [if_neg h2] at e
      refine ⟨not_not.mp h1, ?_⟩
      clear h2
      induction ts generalizing z with
      | nil => cases e; exact .nil
      | cons t ts ih =>
        simp only [List.map_cons, collect] at e
        cases hi : interpLoc xs t with
        | error x => rw [hi] at e; cases e
        | ok loc =>
          rw [hi] at e
          simp only at e
          split at e
          · cases e
          · rename_i w hw
            cases e
            exact .cons ⟨loc, hi, rfl⟩ (ih hw)

theorem forall₂_row {α β : Type} {R : α → β → Prop} {l : List α} {l' : List β} (h : List.Forall₂ R l l') {k : ℕ} {a : α} {b : β}
    (ha : l[k]? = some a) (hb : l'[k]? = some b) : R a b := by
  induction h generalizing k with
  | nil => simp at ha
  | cons h1 _ ih =>
    cases k with
    | zero => cases ha; cases hb; exact h1
    | succ k => exact ih (by simpa using ha) (by simpa using hb)

theorem discreteRows_known {α : Type} {P : α → Prop} {rows : List α} {ev ts : List ℝ} (hl : rows.length = ev.length) (hs : NonDecreasing ev)
    (hne : ev ≠ []) {k : ℕ} {τ : ℝ} (hk : ts[k]? = some τ) (h : ∀ j, IsCurrentEvent ev τ j → ∀ a, rows[j]? = some a → P a) {z : List α}
    (e : discreteRows rows ev ts = .ok z) : KnownAt k P (.many z) := by
  cases rows with
  | nil => cases e
  | cons r0 rows =>
    rw [discreteRows_eq] at e
    cases e
    obtain ⟨b, _⟩ := List.getElem?_eq_some_iff.mp hk
    refine knownAt_of (by simpa using b) fun a ha => ?_
    rw [List.getElem?_map, hk] at ha
    cases ha
    obtain ⟨j, hj, hr⟩ := holdAt_spec hl hs hne (r0 := r0) rfl τ
    exact h j hj _ hr

theorem transformFromFrameGaps_known {sq : SquadFn} {sqg : SquadGapsFn} (hg : SquadGapsLaw sq sqg) {g : GFrame} {f : MFrame} (h : GFits g f)
    (hgood : GoodData f.data) {ts : List ℝ} {k : ℕ} {τ : ℝ} (hk : ts[k]? = some τ) (had : Admissible f.data τ)
    (hn : NoGapsNear τ ⟨some (g.translation, g.rotation), g.timestamps, g.discrete⟩) {t : Arr GVec} {r : Arr (Option Quat)}
    (e : transformFromFrameGaps sqg g (some ts) = .ok (t, r)) : KnownAt k Complete t ∧ KnownAt k (· ≠ none) r := by
  obtain ⟨b, _⟩ := List.getElem?_eq_some_iff.mp hk
  obtain ⟨gt, gr, gts, gdisc, ginv⟩ := g
  obtain ⟨ft, fr, fts, fdisc, finv⟩ := f
  obtain ⟨ht, hr, rfl, rfl, rfl⟩ := h
  simp only at ht hr hn
  simp only [MFrame.data] at hgood had
  cases hn with
  | static h1 h2 =>
    cases e
    refine ⟨knownAt_of (by simpa [tileRows] using b) fun a ha => ?_, knownAt_of (by simpa [tileRows] using b) fun a ha => ?_⟩
    · have := List.mem_of_getElem? ha
      simp [tileRows] at this
      rw [this.2]; exact h1
    · have := List.mem_of_getElem? ha
      simp [tileRows] at this
      rw [this.2]; exact h2
  | @discrete tr ro ev h1 h2 =>
    cases ht with
    | @many _ tr' ht =>
    cases hr with
    | @many _ ro' hr =>
    cases hgood with
    | discrete c1 c2 c3 c4 c5 =>
    have l1 := ht.length_eq
    have l2 := hr.length_eq
    simp only [transformFromFrameGaps, if_true] at e
    cases e1 : discreteRows tr ev ts with
    | error x => rw [e1] at e; cases e
    | ok z1 => cases e2 : discreteRows ro ev ts with
      | error x => rw [e1, e2] at e; cases e
      | ok z2 =>
        rw [e1, e2] at e
        cases e
        refine ⟨discreteRows_known (by omega) c4 c3 hk h1 e1, discreteRows_known (by omega) c4 c3 hk (fun j hj a ha hna => ?_) e2⟩
        subst hna
        exact h2 j hj ha
  | @continuous tr ro ev h1 h2 =>
    cases ht with
    | @many _ tr' ht =>
    cases hr with
    | @many _ ro' hr =>
    cases hgood with
    | continuous c1 c2 c3 c4 c5 =>
    have l1 := ht.length_eq
    have l2 := hr.length_eq
    have hin : InRange ev τ := had ev rfl rfl
    simp only [transformFromFrameGaps, Bool.false_eq_true, if_false] at e
    cases e1 : interp1dGaps ev tr ts with
    | error x => rw [e1] at e; cases e
    | ok z1 => cases e2 : squadGaps sqg ro ev ts with
      | error x => rw [e1, e2] at e; cases e
      | ok z2 =>
        rw [e1, e2] at e
        cases e
        obtain ⟨hlen, hrows⟩ := interp1dGaps_rows e1
        refine ⟨knownAt_of (by rw [← hrows.length_eq]; exact b) fun a ha => ?_, ?_⟩
        · obtain ⟨loc, hloc, rfl⟩ := forall₂_row hrows hk ha
          exact interpValGaps_complete c4 c3 hlen.symm hin h1 hloc
        · have hts : ts ≠ [] := by rintro rfl; simp at hk
          have hro : ro ≠ [] := by rintro rfl; simp at l2; omega
          simp only [squadGaps, hro, hts, or_self, if_false] at e2
          rw [if_neg (by omega)] at e2
          cases e2
          refine knownAt_of (by simpa using b) fun a ha => ?_
          rw [List.getElem?_map, hk] at ha
          cases ha
          exact hg.near ro ev τ (by omega) c3 c4 hin h2

/-! ### the loop -/

theorem transStepGaps_known {k : ℕ} {sqg : SquadGapsFn} {g : GFrame} {ts : Option (List ℝ)} {acc out : Arr GVec × Arr (Option Quat)}
    (hf : ∀ t r, transformFromFrameGaps sqg g ts = .ok (t, r) → KnownAt k Complete t ∧ KnownAt k (· ≠ none) r)
    (h1 : KnownAt k Complete acc.1) (h2 : KnownAt k (· ≠ none) acc.2) (e : transStepGaps sqg ts g acc = .ok out) :
    KnownAt k Complete out.1 ∧ KnownAt k (· ≠ none) out.2 := by
  simp only [transStepGaps, bind] at e
  obtain ⟨⟨t, r⟩, e1, e⟩ := bind_ok' e
  obtain ⟨ht, hr⟩ := hf t r e1
  simp only at e
  by_cases hi : g.inverse = true
  · rw [if_pos hi] at e
    obtain ⟨ri, e2, e⟩ := bind_ok' e
    obtain ⟨d, e3, e⟩ := bind_ok' e
    obtain ⟨t2, e4, e⟩ := bind_ok' e
    obtain ⟨r2, e5, e⟩ := bind_ok' e
    cases e
    have k2 := known_inv hr e2
    exact ⟨known_rotate k2 (knownAt_zip (fun _ _ => complete_sub) h1 ht e3) e4, knownAt_zip (f := mulGaps) (T := fun q : Option Quat => q ≠ none) (fun _ _ => known_mul) k2 h2 e5⟩
  · rw [if_neg hi] at e
    obtain ⟨d, e3, e⟩ := bind_ok' e
    obtain ⟨t2, e4, e⟩ := bind_ok' e
    obtain ⟨r2, e5, e⟩ := bind_ok' e
    cases e
    exact ⟨knownAt_zip (fun _ _ => complete_add) (known_rotate hr h1 e3) ht e4, knownAt_zip (f := mulGaps) (T := fun q : Option Quat => q ≠ none) (fun _ _ => known_mul) hr h2 e5⟩

theorem transLoopGaps_known {k : ℕ} {sqg : SquadGapsFn} {ts : Option (List ℝ)} {gs : List GFrame}
    (hf : ∀ g ∈ gs, ∀ t r, transformFromFrameGaps sqg g ts = .ok (t, r) → KnownAt k Complete t ∧ KnownAt k (· ≠ none) r)
    {acc out : Arr GVec × Arr (Option Quat)} (h1 : KnownAt k Complete acc.1) (h2 : KnownAt k (· ≠ none) acc.2)
    (e : transLoopGaps sqg ts gs acc = .ok out) : KnownAt k Complete out.1 ∧ KnownAt k (· ≠ none) out.2 := by
  induction gs generalizing acc with
  | nil => cases e; exact ⟨h1, h2⟩
  | cons g gs ih =>
    simp only [transLoopGaps] at e
    cases e1 : transStepGaps sqg ts g acc with
    | error x => rw [e1] at e; cases e
    | ok acc1 =>
      rw [e1] at e
      obtain ⟨a, b⟩ := transStepGaps_known (hf g (by simp)) h1 h2 e1
      exact ih (fun g hg => hf g (by simp [hg])) a b e

end RBM
