import Verif.Lemmas.GapsAllRotate
import Verif.Lemmas.GapsLookupNear
import Verif.Lemmas.UnitsArr
import Verif.Lemmas.SameView
import Verif.Lemmas.Clock
import Verif.Lemmas.Shaped
import Verif.Props.GapsLookup
import Verif.Props.Stamps

/-!
Continuation of `Lemmas/GapsAll`: matching an array with the frames of a path.
-/

namespace RBM

open Spec RBM.Props

variable {full : Bool}

/-- What is needed of `squad` to resample an array of quaternions. -/
def LaneLaw (full : Bool) (sq : SquadFn) (sqg : SquadGapsFn) (a' : ND ℝ) (ats ts : List ℝ) : Prop :=
  ∀ q' : ND Quat, asQuatArray a' = .ok q' → ∀ n rest, q'.shape = n :: rest → ∀ idx, Valid rest idx → ∀ τ ∈ ts, ∀ gs,
    List.Forall₂ (Fit full) gs ((List.range n).map fun i => q'.get (i :: idx)) →
      Fit full (sqg gs ats τ) (sq ((List.range n).map fun i => q'.get (i :: idx)) ats τ)

theorem getD_mem_lt {ts : List ℝ} {k : ℕ} (h : k < ts.length) : ts.getD k 0 ∈ ts := by
  rw [List.getD_eq_getElem?_getD, List.getElem?_eq_getElem h]; simp

theorem rel_resample {sq : SquadFn} {sqg : SquadGapsFn} {a : ND (Option ℝ)} {a' c' : ND ℝ} (h : NDRel (Fit full) a a') {arrTs tso : Option (List ℝ)}
    (hl : ∀ ats ts, arrTs = some ats → tso = some ts → a'.shape.getLast? = some 4 → LaneLaw full sq sqg a' ats ts)
    (e : resampleArray sq ⟨a', arrTs⟩ tso = .ok c') : ∃ c, resampleArrayAll sqg a arrTs tso = .ok c ∧ NDRel (Fit full) c c' := by
  cases arrTs with
  | none =>
    cases tso with
    | none => cases e; exact ⟨_, rfl, h⟩
    | some ts => cases e; exact ⟨_, rfl, rel_tile h _⟩
  | some ats =>
    cases tso with
    | none => cases e
    | some ts =>
      have hlane := hl ats ts rfl rfl
      simp only [resampleArray] at e
      simp only [resampleArrayAll]
      have hs := h.1
      rw [hs]
      cases hsh : a'.shape with
      | nil => rw [hsh] at e; cases e
      | cons n rest =>
        rw [hsh] at e hs hlane
        simp only at e ⊢
        by_cases h4 : (n :: rest).getLast? = some 4
        · rw [if_pos h4] at e ⊢
          cases eq : asQuatArray a' with
          | error x => rw [eq] at e; cases e
          | ok q' =>
            rw [eq] at e
            obtain ⟨q, fq, hq⟩ := rel_asQuat h eq
            rw [fq]
            simp only at e ⊢
            by_cases h0 : n = 0 ∨ ts = []
            · rw [if_pos h0] at e ⊢
              cases e
              exact ⟨_, rfl, rfl, fun _ _ => fit_some full _⟩
            · rw [if_neg h0] at e ⊢
              by_cases h1 : n < 2 ∨ rest = []
              · rw [if_pos h1] at e; cases e
              · rw [if_neg h1] at e ⊢
                cases e
                refine ⟨_, rfl, rel_asFloat ⟨rfl, fun idx hv => ?_⟩⟩
                have hqs : q'.shape = n :: rest.dropLast := by
                  simp only [asQuatArray] at eq
                  rw [hsh, h4] at eq
                  cases eq
                  simp only
                  push Not at h1
                  exact List.dropLast_cons_of_ne_nil h1.2
                match idx, hv with
                | i :: idx, hv =>
                  simp only [List.getD_cons_zero, List.drop_succ_cons, List.drop_zero]
                  refine hlane h4 q' eq n rest.dropLast hqs idx hv.2 _ (getD_mem_lt hv.1) _ (forall₂_range fun j hj => hq.2 _ ?_)
                  rw [hq.1, hqs]
                  exact ⟨hj, hv.2⟩
        · rw [if_neg h4] at e ⊢
          by_cases h1 : ats.length ≠ n
          · rw [if_pos h1] at e; cases e
          · rw [if_neg h1] at e ⊢
            by_cases h2 : anyOutside ats ts
            · rw [if_pos h2] at e; cases e
            · rw [if_neg h2] at e ⊢
              cases hc : collect (ts.map (interpLoc ats)) with
              | error x => rw [hc] at e; cases e
              | ok locs =>
                rw [hc] at e
                cases e
                refine ⟨_, rfl, rfl, fun idx hv => ?_⟩
                match idx, hv with
                | i :: idx, hv =>
                  simp only [List.getD_cons_zero, List.drop_succ_cons, List.drop_zero, interpVal, smul_eq_mul]
                  have hi : i < (ts.map (interpLoc ats)).length := by simpa using hv.1
                  have hloc := collect_getD hc hi (0, 0)
                  rw [List.getElem?_map] at hloc
                  obtain ⟨t, _, ht⟩ := Option.map_eq_some_iff.mp hloc
                  obtain ⟨l1, l2⟩ := interpLoc_lt ht
                  push Not at h1
                  have hys : List.Forall₂ (Fit full) ((List.range n).map fun j => a.get (j :: idx)) ((List.range n).map fun j => a'.get (j :: idx)) :=
                    forall₂_range fun j hj => h.2 _ (by rw [hs]; exact ⟨hj, hv.2⟩)
                  refine fit_nan2 _ (getD_rel_lt hys (by rw [List.length_map, List.length_range]; omega) _ _) (getD_rel_lt hys (by rw [List.length_map, List.length_range]; omega) _ _)

theorem validateInput_rel {a : ND (Option ℝ)} {a' w' : ND ℝ} (h : NDRel (Fit full) a a') {axis : ℤ} {k : ℕ} {T : Option (ND ℝ)} {ta : Option ℤ}
    {ats : Option (List ℝ)} (e : validateInput a' axis k T ta = .ok (w', ats)) :
    ∃ w, validateInputGaps a axis k T ta = .ok (w, ats) ∧ NDRel (Fit full) w w' := by
  simp only [validateInput, bind] at e
  simp only [validateInputGaps, bind, h.1]
  obtain ⟨l, e1, e⟩ := bind_ok' e
  simp only [e1, Except.bind]
  by_cases hl : l ≠ k
  · rw [if_pos hl] at e; cases e
  · rw [if_neg hl] at e ⊢
    cases T with
    | none => cases e; exact ⟨a, rfl, h⟩
    | some T =>
      simp only [Except.bind, Pure.pure, Except.pure] at e ⊢
      match hT : T.shape with
      | [] => rw [hT] at e; cases e
      | _ :: _ :: _ => rw [hT] at e; cases e
      | [n] =>
        rw [hT] at e
        simp only at e ⊢
        cases ta with
        | none => cases e
        | some ta =>
          simp only at e ⊢
          cases e2 : pyShape a'.shape ta with
          | error x => rw [e2] at e; cases e
          | ok m =>
            rw [e2] at e
            simp only at e ⊢
            by_cases hm : m ≠ n
            · rw [if_pos hm] at e; cases e
            · rw [if_neg hm] at e ⊢
              cases e3 : a'.swapaxesZ 0 ta with
              | error x => rw [e3] at e; cases e
              | ok w1 =>
                rw [e3] at e
                cases e
                obtain ⟨w, f, hw⟩ := rel_swapaxesZ h e3
                rw [f]
                exact ⟨w, rfl, hw⟩

theorem undo_rel {a : ND (Option ℝ)} {a' c' : ND ℝ} (h : NDRel (Fit full) a a') {ta : Option ℤ} (e : undoTimeSwap a' ta = .ok c') :
    ∃ c, undoTimeSwapGaps a ta = .ok c ∧ NDRel (Fit full) c c' := by
  cases ta with
  | none => cases e; exact ⟨a, rfl, h⟩
  | some ta => exact rel_swapaxesZ h e

/-! ### the transformation -/

theorem rel_ofVecs {t : Arr GVec} {t' : Arr Vec} (h : Rows (fun g v => ∀ k, Fit full (g k) (v k)) t t') : NDRel (Fit full) (ND.ofGVecs t) (ND.ofVecs t') := by
  cases h with
  | one h => exact ⟨rfl, fun _ _ => h _⟩
  | many h =>
    refine ⟨by simp [ND.ofGVecs, ND.ofVecs, h.length_eq], fun idx hv => ?_⟩
    match idx, hv with
    | [i, j], hv => exact getD_rel_lt h hv.1 _ _ _

theorem rel_ofQuats {r : Arr (Option Quat)} {r' : Arr Quat} (h : Rows (Fit full) r r') : NDRel (Fit full) (ND.ofGQuats r) (ND.ofQuats r') := by
  cases h with
  | one h => exact ⟨rfl, fun _ _ => fit_map _ h⟩
  | many h =>
    refine ⟨by simp [ND.ofGQuats, ND.ofQuats, h.length_eq], fun idx hv => ?_⟩
    match idx, hv with
    | [i, j], hv => exact fit_map _ (getD_rel_lt h hv.1 _ _)

theorem rows_false {t : Arr GVec} {t' : Arr Vec} (h : Rows Fits t t') : Rows (fun g v => ∀ k, Fit false (g k) (v k)) t t' := by
  have key : ∀ g v, Fits g v → ∀ k, Fit false (g k) (v k) := fun g v h k => ⟨h k, fun h => by cases h⟩
  cases h with
  | one h => exact .one (key _ _ h)
  | many h => exact .many (h.imp key)

theorem rowsQ_false {t : Arr (Option Quat)} {t' : Arr Quat} (h : Rows FitsQ t t') : Rows (Fit false) t t' := by
  have key : ∀ g v, FitsQ g v → Fit false g v := fun g v h => ⟨h, fun h => by cases h⟩
  cases h with
  | one h => exact .one (key _ _ h)
  | many h => exact .many (h.imp key)

theorem rows_known {α β : Type} {P : α → Prop} {R S : α → β → Prop} (hf : ∀ a b, R a b → P a → S a b) {x : Arr α} {y : Arr β} (h : Rows R x y)
    (hk : ∀ k, KnownAt k P x) : Rows S x y := by
  cases h with
  | one h => exact .one (hf _ _ h (hk 0))
  | @many l l' h =>
    refine .many ?_
    have h1 : ∀ a ∈ l, P a := fun a ha => by
      obtain ⟨k, hk'⟩ := List.getElem?_of_mem ha
      exact hk k a (.inl hk')
    clear hk
    induction h with
    | nil => exact .nil
    | cons h0 _ ih => exact .cons (hf _ _ h0 (h1 _ (by simp))) (ih fun a ha => h1 a (by simp [ha]))


theorem getTimestamps_gaps' {gs : List GFrame} {fs : List MFrame} (h : List.Forall₂ GFits gs fs) {A B : List MArray}
    (hAB : A.map (·.timestamps) = B.map (·.timestamps)) :
    (⟨gs.map GFrame.stamps, A⟩ : Matcher).getTimestamps = (⟨fs, B⟩ : Matcher).getTimestamps := by
  have e1 : (gs.map GFrame.stamps).filterMap (fun f => if f.discrete then none else f.timestamps) =
      fs.filterMap (fun f => if f.discrete then none else f.timestamps) := by
    induction h with
    | nil => rfl
    | cons h1 _ ih => simp only [List.map_cons, List.filterMap_cons, ih, GFrame.stamps, h1.ts, h1.disc]
  have e2 : (gs.map GFrame.stamps).filterMap (fun f => if f.discrete then f.timestamps else none) =
      fs.filterMap (fun f => if f.discrete then f.timestamps else none) := by
    clear e1
    induction h with
    | nil => rfl
    | cons h1 _ ih => simp only [List.map_cons, List.filterMap_cons, ih, GFrame.stamps, h1.ts, h1.disc]
  have e3 : A.filterMap (·.timestamps) = B.filterMap (·.timestamps) := by
    have : ∀ C : List MArray, C.filterMap (·.timestamps) = (C.map (·.timestamps)).filterMap id := fun C => by
      rw [List.filterMap_map]; rfl
    rw [this A, this B, hAB]
  simp only [Matcher.getTimestamps, Matcher.getRange, Matcher.continuous, e1, e2, e3]

/-- The timestamps of a result lie in the range of every continuous frame and array. -/
theorem getTimestamps_range {m : Matcher} {ts : Option (List ℝ)} (e : m.getTimestamps true = .ok ts) :
    ∀ l, ts = some l → ∀ τ ∈ l, ∀ c ∈ m.continuous, InRange c τ := by
  have hne : ∀ c ∈ m.continuous, c ≠ [] := by
    simp only [Matcher.getTimestamps, Matcher.getRange] at e
    cases h : firstStamps m.continuous with
    | error x => rw [h] at e; cases e
    | ok r => exact firstStamps_ne h
  classical
  rintro l rfl τ hτ c hc
  rcases getTimestamps_spec m true hne with ⟨x, xs, ts, g1, g2, g3, g4⟩ | ⟨g1, g2, g3⟩ | ⟨g1, g2, g3⟩
  · rw [e] at g2
    cases g2
    rw [g4 (fun t => ∀ y ∈ m.continuous, InRange y t) (fun t => Iff.rfl)] at hτ
    have := (List.mem_filter.mp hτ).2
    simp only [decide_eq_true_eq] at this
    exact this c hc
  · rw [g1] at hc; simp at hc
  · rw [g1] at hc; simp at hc

/-- A complete recording has no gap near any time. -/
theorem Spec.CompleteData.near {g : GapData} (h : CompleteData g) {d : FrameData} (hc : CompletesData g d) (hd : GoodData d) (τ : ℝ) : NoGapsNear τ g := by
  cases h with
  | one h1 h2 =>
    cases hc with
    | some ht hr =>
      cases ht
      cases hd
      exact .static h1 h2
  | many h1 h2 =>
    have hro : ∀ {ro : List (Option Quat)} (k : ℕ), none ∉ ro → ro[k]? ≠ some none := fun k h e => h (List.mem_of_getElem? e)
    cases hc with
    | some ht hr =>
      cases ht
      cases hr
      cases hd with
      | discrete => exact .discrete (fun k _ g hg => h1 g (List.mem_of_getElem? hg)) (fun k _ => hro k h2)
      | continuous => exact .continuous (fun k _ g hg => h1 g (List.mem_of_getElem? hg)) (fun k _ => hro k h2)

/-- The pose of a frame without gaps has no gaps. -/
theorem frame_complete {sq : SquadFn} {sqg : SquadGapsFn} (hg : SquadGapsLaw sq sqg) {g : GFrame} {f : MFrame} (h : GFits g f)
    (hgood : GoodData f.data) {ts : Option (List ℝ)} (had : ∀ l, ts = some l → ∀ τ ∈ l, Admissible f.data τ)
    (hcd : CompleteData ⟨some (g.translation, g.rotation), g.timestamps, g.discrete⟩) {t' : Arr Vec} {r' : Arr Quat}
    (e' : transformFromFrame sq f ts = .ok (t', r')) {t : Arr GVec} {r : Arr (Option Quat)}
    (e : transformFromFrameGaps sqg g ts = .ok (t, r)) (k : ℕ) : KnownAt k Complete t ∧ KnownAt k (· ≠ none) r := by
  have hcomp : CompletesData ⟨some (g.translation, g.rotation), g.timestamps, g.discrete⟩ f.data := by
    obtain ⟨gt, gr, gts, gdisc, ginv⟩ := g
    obtain ⟨ft, fr, fts, fdisc, finv⟩ := f
    obtain ⟨ht, hr, rfl, rfl, rfl⟩ := h
    exact .some ht hr
  have hn := fun τ => hcd.near hcomp hgood τ
  cases ts with
  | none =>
    obtain ⟨gt, gr, gts, gdisc, ginv⟩ := g
    obtain ⟨ft, fr, fts, fdisc, finv⟩ := f
    obtain ⟨ht, hr, rfl, rfl, rfl⟩ := h
    simp only [MFrame.data] at hgood
    cases hgood with
    | static _ =>
      simp only at hcd
      cases hcd with
      | one h1 h2 => cases e; exact ⟨h1, h2⟩
      | many h1 h2 => cases ht
    | discrete => simp [transformFromFrameGaps] at e
    | continuous => simp [transformFromFrameGaps] at e
  | some ts =>
    have key : ∀ k, k < ts.length → KnownAt k Complete t ∧ KnownAt k (· ≠ none) r := fun k hk =>
      transformFromFrameGaps_known hg h hgood (List.getElem?_eq_getElem hk) (had ts rfl _ (List.getElem_mem hk)) (hn _) e
    by_cases hk : k < ts.length
    · exact key k hk
    · obtain ⟨t0, r0, e0, ht, hr⟩ := transformFromFrameGaps_sound hg h hgood e'
      rw [e] at e0
      cases e0
      obtain ⟨tl, rl, ep, l1, l2⟩ := transformFromFrame_shape (sq := sq) (f := f) (ts := ts) (p := (t', r')) (by
          intro hts
          obtain ⟨ft, fr, fts, fdisc, finv⟩ := f
          simp only [MFrame.data] at hgood hts
          subst hts
          cases hgood
          exact ⟨_, _, rfl, rfl⟩) (by
          intro fts tr ro hdisc hts h3 h4
          obtain ⟨ft, fr, fts, fdisc, finv⟩ := f
          simp only [MFrame.data] at hgood hts hdisc h3 h4
          subst hts; subst hdisc; subst h3; subst h4
          cases hgood with
          | continuous c1 c2 c3 _ _ => rintro rfl; simp at c2; omega) e'
      cases ep
      cases ht with
      | @many l _ ht =>
      cases hr with
      | @many lr _ hr =>
        have m1 : l.length = ts.length := ht.length_eq.trans l1
        have m2 : lr.length = ts.length := hr.length_eq.trans l2
        constructor
        · rintro a (ha | rfl)
          · obtain ⟨b, _⟩ := List.getElem?_eq_some_iff.mp ha; omega
          · exact (key 0 (by simp at m1; omega)).1 a (.inr rfl)
        · rintro a (ha | rfl)
          · obtain ⟨b, _⟩ := List.getElem?_eq_some_iff.mp ha; omega
          · exact (key 0 (by simp at m2; omega)).2 a (.inr rfl)

theorem loop_complete {sq : SquadFn} {sqg : SquadGapsFn} (hg : SquadGapsLaw sq sqg) {ts : Option (List ℝ)} {gs : List GFrame} {fs : List MFrame}
    (h : List.Forall₂ GFits gs fs) (hgood : ∀ f ∈ fs, GoodData f.data) (had : ∀ l, ts = some l → ∀ τ ∈ l, ∀ f ∈ fs, Admissible f.data τ)
    (hcd : ∀ g ∈ gs, CompleteData ⟨some (g.translation, g.rotation), g.timestamps, g.discrete⟩)
    {acc out : Arr GVec × Arr (Option Quat)} {acc' out' : Arr Vec × Arr Quat} (e' : transLoop sq ts fs acc' = .ok out')
    (h1 : ∀ k, KnownAt k Complete acc.1) (h2 : ∀ k, KnownAt k (· ≠ none) acc.2)
    (e : transLoopGaps sqg ts gs acc = .ok out) (k : ℕ) : KnownAt k Complete out.1 ∧ KnownAt k (· ≠ none) out.2 := by
  refine transLoopGaps_known (fun g hgm t r he => ?_) (h1 k) (h2 k) e
  have : ∃ f acc1 acc2, f ∈ fs ∧ GFits g f ∧ transStep sq ts f acc1 = .ok acc2 := by
    clear e hcd hgood had h1 h2
    induction h generalizing acc' with
    | nil => simp at hgm
    | @cons g0 f0 gs fs hgf _ ih =>
      simp only [transLoop] at e'
      cases e1 : transStep sq ts f0 acc' with
      | error x => rw [e1] at e'; cases e'
      | ok acc1' =>
        rw [e1] at e'
        rcases List.mem_cons.mp hgm with rfl | hm
        · exact ⟨f0, acc', acc1', by simp, hgf, e1⟩
        · obtain ⟨f, x, y, hf, h3, h4⟩ := ih e' hm
          exact ⟨f, x, y, by simp [hf], h3, h4⟩
  obtain ⟨f, x, y, hf, hfit, hs⟩ := this
  simp only [transStep, bind] at hs
  obtain ⟨⟨t', r'⟩, e1, _⟩ := bind_ok' hs
  exact frame_complete hg hfit (hgood f hf) (fun l hl τ hτ => had l hl τ hτ f hf) (hcd g hgm) e1 he k

end RBM
