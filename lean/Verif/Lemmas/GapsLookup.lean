import Verif.Spec.GapsLookup
import Verif.Lemmas.Lookup
import Verif.Lemmas.Single
import Verif.Lemmas.Equivalent
import Verif.Lemmas.AxisSame

/-!
Soundness of lookups through recordings with gaps: every known entry is the entry for every completion (C98).
-/

namespace RBM

open Spec

/-! ### rows -/

theorem forall₂_map_rel {α β γ δ : Type} {R : α → β → Prop} {S : γ → δ → Prop} {f : α → γ} {g : β → δ}
    (h : ∀ a b, R a b → S (f a) (g b)) {l : List α} {l' : List β} (hl : List.Forall₂ R l l') : List.Forall₂ S (l.map f) (l'.map g) := by
  induction hl with
  | nil => exact .nil
  | cons h1 _ ih => exact .cons (h _ _ h1) ih

theorem forall₂_zipWith_rel {α β γ α' β' γ' : Type} {R : α → α' → Prop} {S : β → β' → Prop} {T : γ → γ' → Prop} {f : α → β → γ}
    {g : α' → β' → γ'} (h : ∀ a a' b b', R a a' → S b b' → T (f a b) (g a' b')) {l : List α} {l' : List α'} {m : List β} {m' : List β'}
    (hl : List.Forall₂ R l l') (hm : List.Forall₂ S m m') : List.Forall₂ T (List.zipWith f l m) (List.zipWith g l' m') := by
  induction hl generalizing m m' with
  | nil => exact .nil
  | cons h1 _ ih =>
    cases hm with
    | nil => exact .nil
    | cons h2 h3 => exact .cons (h _ _ _ _ h1 h2) (ih h3)

/-- Broadcasting respects relations between rows. -/
theorem bzip_rel {α β γ α' β' γ' : Type} {R : α → α' → Prop} {S : β → β' → Prop} {T : γ → γ' → Prop} {f : α → β → γ}
    {g : α' → β' → γ'} (h : ∀ a a' b b', R a a' → S b b' → T (f a b) (g a' b')) {x : Arr α} {x' : Arr α'} {y : Arr β} {y' : Arr β'}
    (hx : Rows R x x') (hy : Rows S y y') {z' : Arr γ'} (e : Arr.bzip g x' y' = .ok z') : ∃ z, Arr.bzip f x y = .ok z ∧ Rows T z z' := by
  cases hx with
  | one ha =>
    cases hy with
    | one hb => cases e; exact ⟨_, rfl, .one (h _ _ _ _ ha hb)⟩
    | many hb => cases e; exact ⟨_, rfl, .many (forall₂_map_rel (fun b b' hb => h _ _ _ _ ha hb) hb)⟩
  | @many l l' ha =>
    cases hy with
    | one hb => cases e; exact ⟨_, rfl, .many (forall₂_map_rel (fun a a' ha => h _ _ _ _ ha hb) ha)⟩
    | @many m m' hb =>
      have l1 := ha.length_eq
      have l2 := hb.length_eq
      by_cases hl : l'.length = m'.length
      · simp only [Arr.bzip, hl, if_true] at e
        cases e
        exact ⟨_, by simp only [Arr.bzip, l1, l2, hl, if_true], .many (forall₂_zipWith_rel h ha hb)⟩
      · have hl0 : ¬ l.length = m.length := by omega
        simp only [Arr.bzip, hl, hl0, if_false] at e ⊢
        cases ha with
        | nil =>
          cases hb with
          | nil => exact absurd rfl hl
          | cons h1 h2 =>
            cases h2 with
            | nil => cases e; exact ⟨_, rfl, .many .nil⟩
            | cons _ _ => cases e
        | cons h1 h2 =>
          cases h2 with
          | nil => cases e; exact ⟨_, rfl, .many (forall₂_map_rel (fun b b' hb => h _ _ _ _ h1 hb) hb)⟩
          | cons h3 h4 =>
            cases hb with
            | nil => cases e
            | cons g1 g2 =>
              cases g2 with
              | nil => cases e; exact ⟨_, rfl, .many (forall₂_map_rel (fun a a' ha => h _ _ _ _ ha g1) (.cons h1 (.cons h3 h4)))⟩
              | cons _ _ => cases e

/-! ### arithmetic -/

theorem known_some {g : GVec} {w : Vec} (h : g.known = some w) {v : Vec} (hv : Fits g v) : w = v := by
  simp only [GVec.known] at h
  cases h0 : g 0 with
  | none => rw [h0] at h; cases h
  | some x => cases h1 : g 1 with
    | none => rw [h0, h1] at h; cases h
    | some y => cases h2 : g 2 with
      | none => rw [h0, h1, h2] at h; cases h
      | some z =>
        rw [h0, h1, h2] at h
        cases h
        funext k
        fin_cases k
        · exact (hv 0 x h0).symm
        · exact (hv 1 y h1).symm
        · exact (hv 2 z h2).symm

theorem fits_rot (f : Quat → Vec → Vec) {q : Option Quat} {q' : Quat} {v : GVec} {v' : Vec} (hq : FitsQ q q') (hv : Fits v v') :
    Fits (rotGaps f q v) (f q' v') := by
  intro k x hx
  simp only [rotGaps] at hx
  cases q with
  | none => cases hx
  | some q0 =>
    cases hk : v.known with
    | none => rw [hk] at hx; cases hx
    | some v0 =>
      rw [hk] at hx
      cases hq _ rfl
      cases known_some hk hv
      simpa using hx

theorem fits_nan2 {f : ℝ → ℝ → ℝ} {x y : Option ℝ} {x' y' z : ℝ} (hx : ∀ a, x = some a → x' = a) (hy : ∀ a, y = some a → y' = a)
    (h : nan2 f x y = some z) : f x' y' = z := by
  cases x with
  | none => cases h
  | some a => cases y with
    | none => cases h
    | some b => cases hx a rfl; cases hy b rfl; simpa [nan2] using h

theorem fits_sub {v w : GVec} {v' w' : Vec} (h1 : Fits v v') (h2 : Fits w w') : Fits (subGaps v w) (v' - w') :=
  fun k _ hx => fits_nan2 (f := fun x y => x - y) (h1 k) (h2 k) hx

theorem fits_add {v w : GVec} {v' w' : Vec} (h1 : Fits v v') (h2 : Fits w w') : Fits (addGaps v w) (v' + w') :=
  fun k _ hx => fits_nan2 (f := fun x y => x + y) (h1 k) (h2 k) hx

theorem fits_mul {p q : Option Quat} {p' q' : Quat} (h1 : FitsQ p p') (h2 : FitsQ q q') : FitsQ (mulGaps p q) (p' * q') := by
  intro x hx
  cases p with
  | none => cases hx
  | some p => cases q with
    | none => cases hx
    | some q => cases h1 _ rfl; cases h2 _ rfl; simpa [mulGaps] using hx

theorem fits_inv {p : Option Quat} {p' : Quat} (h : FitsQ p p') : FitsQ (p.map fun q => q⁻¹) p'⁻¹ := by
  intro x hx
  cases p with
  | none => cases hx
  | some p => cases h _ rfl; simpa using hx

theorem some_zero_mem {qs : List (Option Quat)} {qs' : List Quat} (h : List.Forall₂ FitsQ qs qs') (hm : some 0 ∈ qs) : (0 : Quat) ∈ qs' := by
  induction h with
  | nil => simp at hm
  | cons h1 _ ih =>
    rcases List.mem_cons.mp hm with e | hm
    · rw [h1 0 e.symm]; simp
    · exact List.mem_cons_of_mem _ (ih hm)

theorem rotateVectorsGaps_sound {q : Arr (Option Quat)} {q' : Arr Quat} {v : Arr GVec} {v' : Arr Vec} (hq : Rows FitsQ q q') (hv : Rows Fits v v')
    {z' : Arr Vec} (e : rotateVectors q' v' = .ok z') : ∃ z, rotateVectorsGaps q v = .ok z ∧ Rows Fits z z' := by
  cases hq with
  | @one q q' hq =>
    simp only [rotateVectors] at e
    by_cases h0 : q' = 0
    · rw [if_pos h0] at e; cases e
    · rw [if_neg h0] at e
      have h0' : q ≠ some 0 := fun h => h0 (hq 0 h)
      cases e
      refine ⟨_, by simp only [rotateVectorsGaps]; rw [if_neg h0'], ?_⟩
      cases hv with
      | one hv => exact .one (fits_rot _ hq hv)
      | many hv => exact .many (forall₂_map_rel (fun a b hab => fits_rot _ hq hab) hv)
  | @many qs qs' hq =>
    cases hv with
    | one hv => cases e
    | @many vs vs' hv =>
      simp only [rotateVectors] at e
      cases hb : Arr.bzip rotateCrossForm (.many qs') (.many vs') with
      | error x => rw [hb] at e; cases e
      | ok w =>
        rw [hb] at e
        simp only at e
        by_cases h0 : (0 : Quat) ∈ qs'
        · rw [if_pos h0] at e; cases e
        · rw [if_neg h0] at e
          cases e
          obtain ⟨z, hz, hr⟩ := bzip_rel (T := Fits) (f := rotGaps rotateCrossForm) (g := rotateCrossForm)
            (fun a a' b b' h1 h2 => fits_rot rotateCrossForm h1 h2) (.many hq) (.many hv) hb
          have h0' : ¬ some 0 ∈ qs := fun h => h0 (some_zero_mem hq h)
          exact ⟨z, by simp only [rotateVectorsGaps, hz]; rw [if_neg h0'], hr⟩

theorem qinvArrGaps_sound {q : Arr (Option Quat)} {q' : Arr Quat} (hq : Rows FitsQ q q') {z' : Arr Quat} (e : qinvArr q' = .ok z') :
    ∃ z, qinvArrGaps q = .ok z ∧ Rows FitsQ z z' := by
  cases hq with
  | @one q q' hq =>
    simp only [qinvArr] at e
    by_cases h0 : q' = 0
    · rw [if_pos h0] at e; cases e
    · rw [if_neg h0] at e
      have h0' : q ≠ some 0 := fun h => h0 (hq 0 h)
      cases e
      exact ⟨_, by simp only [qinvArrGaps]; rw [if_neg h0'], .one (fits_inv hq)⟩
  | @many qs qs' hq =>
    simp only [qinvArr] at e
    by_cases h0 : (0 : Quat) ∈ qs'
    · rw [if_pos h0] at e; cases e
    · rw [if_neg h0] at e
      cases e
      have h0' : ¬ some 0 ∈ qs := fun h => h0 (some_zero_mem hq h)
      exact ⟨_, by simp only [qinvArrGaps]; rw [if_neg h0'], .many (forall₂_map_rel (f := fun q : Option Quat => q.map fun q => q⁻¹) (g := fun q : Quat => q⁻¹)
        (fun a b h => fits_inv h) hq)⟩

/-! ### one frame -/

theorem forall₂_replicate {α β : Type} {R : α → β → Prop} {a : α} {b : β} (h : R a b) (n : ℕ) :
    List.Forall₂ R (List.replicate n a) (List.replicate n b) := by
  induction n with
  | zero => exact .nil
  | succ n ih => exact .cons h ih

theorem tileRows_rel {α β : Type} {R : α → β → Prop} {x : Arr α} {y : Arr β} (h : Rows R x y) (n : ℕ) :
    List.Forall₂ R (tileRows n x) (tileRows n y) := by
  cases h with
  | one h => exact forall₂_replicate h n
  | many h =>
    simp only [tileRows]
    induction n with
    | zero => exact .nil
    | succ n ih =>
      simp only [List.replicate_succ, List.flatten_cons]
      exact List.rel_append h ih

theorem discreteRows_rel {α β : Type} {R : α → β → Prop} {l : List α} {l' : List β} (h : List.Forall₂ R l l') (ev ts : List ℝ) {z' : List β}
    (e : discreteRows l' ev ts = .ok z') : ∃ z, discreteRows l ev ts = .ok z ∧ List.Forall₂ R z z' := by
  have key : ∀ {m : List α} {m' : List β} {ev : List ℝ}, List.Forall₂ R m m' → ∀ {o : List α} {o' : List β}, List.Forall₂ R o o' →
      List.Forall₂ R ((List.zip m ev).foldl (fun out (ev : α × ℝ) => List.zipWith (fun o τ => by classical exact if τ ≥ ev.2 then ev.1 else o) out ts) o)
        ((List.zip m' ev).foldl (fun out (ev : β × ℝ) => List.zipWith (fun o τ => by classical exact if τ ≥ ev.2 then ev.1 else o) out ts) o') := by
    intro m m' ev hm
    induction hm generalizing ev with
    | nil => intro o o' ho; simpa using ho
    | @cons a b l l' hab _ ih =>
      intro o o' ho
      cases ev with
      | nil => simpa using ho
      | cons x ev =>
        simp only [List.zip_cons_cons, List.foldl_cons]
        refine ih ?_
        have hz : ∀ {o : List α} {o' : List β} {ts : List ℝ}, List.Forall₂ R o o' →
            List.Forall₂ R (List.zipWith (fun o τ => by classical exact if τ ≥ x then a else o) o ts)
              (List.zipWith (fun o τ => by classical exact if τ ≥ x then b else o) o' ts) := by
          intro o o' ts ho
          induction ho generalizing ts with
          | nil => exact .nil
          | cons h1 _ ih =>
            cases ts with
            | nil => exact .nil
            | cons t ts =>
              refine .cons ?_ ih
              by_cases ht : t ≥ x
              · simp only [if_pos ht]; exact hab
              · simp only [if_neg ht]; exact h1
        exact hz ho
  cases h with
  | nil => cases e
  | cons h1 h2 =>
    simp only [discreteRows] at e ⊢
    cases e
    exact ⟨_, rfl, key (.cons h1 h2) (forall₂_replicate h1 _)⟩

/-- A frame of the matcher with gaps and its completion. -/
structure GFits (g : GFrame) (f : MFrame) : Prop where
  t : Rows Fits g.translation f.translation
  r : Rows FitsQ g.rotation f.rotation
  ts : g.timestamps = f.timestamps
  disc : g.discrete = f.discrete
  inv : g.inverse = f.inverse

theorem getD_rel {α β : Type} {R : α → β → Prop} {l : List α} {l' : List β} (h : List.Forall₂ R l l') {a : α} {b : β} (hab : R a b) (k : ℕ) :
    R (l.getD k a) (l'.getD k b) := by
  induction h generalizing k with
  | nil => simpa using hab
  | cons h1 _ ih =>
    cases k with
    | zero => simpa using h1
    | succ k => simpa using ih k

theorem fits_interp {ys : List GVec} {ys' : List Vec} (h : List.Forall₂ Fits ys ys') (xs : List ℝ) (t : ℝ) (loc : ℕ × ℕ) :
    Fits (interpValGaps xs ys t loc) (interpVal xs ys' t loc) := by
  intro k x hx
  have h1 := getD_rel h (a := fun _ => none) (b := 0) (fun _ _ e => by cases e) loc.1
  have h2 := getD_rel h (a := fun _ => none) (b := 0) (fun _ _ e => by cases e) loc.2
  exact fits_nan2 (f := fun lo hi => (t - xs.getD loc.1 0) * ((1 / (xs.getD loc.2 0 - xs.getD loc.1 0)) * (hi - lo)) + lo) (h1 k) (h2 k) hx

theorem interp1dGaps_sound {xs : List ℝ} {ys : List GVec} {ys' : List Vec} (h : List.Forall₂ Fits ys ys') {ts : List ℝ} {z' : List Vec}
    (e : interp1d xs ys' ts = .ok z') : ∃ z, interp1dGaps xs ys ts = .ok z ∧ List.Forall₂ Fits z z' := by
  have hl := h.length_eq
  simp only [interp1d] at e
  by_cases h1 : xs.length ≠ ys'.length
  · rw [if_pos h1] at e; cases e
  · rw [if_neg h1] at e
    by_cases h2 : anyOutside xs ts
    · rw [if_pos h2] at e; cases e
    · rw [if_neg h2] at e
      simp only [interp1dGaps, hl]
      rw [if_neg h1, if_neg h2]
      clear h2
      induction ts generalizing z' with
      | nil => cases e; exact ⟨[], rfl, .nil⟩
      | cons t ts ih =>
        simp only [List.map_cons, collect, interpAt] at e ⊢
        rw [if_neg h1] at e
        cases hi : interpLoc xs t with
        | error x => rw [hi] at e; cases e
        | ok loc =>
          rw [hi] at e
          simp only at e ⊢
          cases hc : collect (ts.map (interpAt xs ys')) with
          | error x => rw [hc] at e; cases e
          | ok w =>
            rw [hc] at e
            cases e
            obtain ⟨z, hz, hr⟩ := ih hc
            exact ⟨_, by rw [hz], .cons (fits_interp h _ _ _) hr⟩

theorem interp1d_inRange {xs : List ℝ} {ys : List Vec} {ts : List ℝ} {z : List Vec} (e : interp1d xs ys ts = .ok z) : ∀ τ ∈ ts, InRange xs τ := by
  simp only [interp1d] at e
  by_cases h1 : xs.length ≠ ys.length
  · rw [if_pos h1] at e; cases e
  · rw [if_neg h1] at e
    by_cases h2 : anyOutside xs ts
    · rw [if_pos h2] at e; cases e
    · intro τ hτ
      simp only [anyOutside, not_exists, not_and, not_or, not_lt] at h2
      obtain ⟨a1, a2⟩ := h2 τ hτ
      refine ⟨fun x hx => ?_, fun x hx => ?_⟩
      · rw [List.head?_eq_getElem?] at hx
        rwa [List.getD_eq_getElem?_getD, hx] at a1
      · rw [List.getLast?_eq_getElem?] at hx
        rwa [List.getD_eq_getElem?_getD, hx] at a2

theorem squadGaps_sound {sq : SquadFn} {sqg : SquadGapsFn} (hg : SquadGapsLaw sq sqg) {xs : List ℝ} {ro : List (Option Quat)} {ro' : List Quat}
    (h : List.Forall₂ FitsQ ro ro') (hl : ro'.length = xs.length) (h2 : 2 ≤ xs.length) (hs : StrictlyIncreasing xs) (hu : ∀ q ∈ ro', IsUnitQ q)
    {ts : List ℝ} (hin : ∀ τ ∈ ts, InRange xs τ) {z' : List Quat} (e : squad sq ro' xs ts = .ok z') :
    ∃ z, squadGaps sqg ro xs ts = .ok z ∧ List.Forall₂ FitsQ z z' := by
  have hl' := h.length_eq
  have n1 : ro ≠ [] := by rintro rfl; simp at hl'; omega
  have n2 : ro' ≠ [] := by rintro rfl; simp at hl; omega
  simp only [squad, n2, false_or] at e
  simp only [squadGaps, n1, false_or]
  by_cases ht : ts = []
  · rw [if_pos ht] at e ⊢; cases e; exact ⟨[], rfl, .nil⟩
  · rw [if_neg ht, if_neg (by omega)] at e ⊢
    cases e
    refine ⟨_, rfl, ?_⟩
    have : ∀ l : List ℝ, (∀ τ ∈ l, InRange xs τ) → List.Forall₂ FitsQ (l.map (sqg ro xs)) (l.map (sq ro' xs)) := by
      intro l
      induction l with
      | nil => intro _; exact .nil
      | cons τ l ih => intro hin; exact .cons (hg.sound _ _ _ _ h (by omega) h2 hs hu (hin τ (by simp))) (ih fun t ht => hin t (by simp [ht]))
    exact this ts hin

theorem transformFromFrameGaps_sound {sq : SquadFn} {sqg : SquadGapsFn} (hg : SquadGapsLaw sq sqg) {g : GFrame} {f : MFrame} (h : GFits g f)
    (hgood : GoodData f.data) {ts : Option (List ℝ)} {t' : Arr Vec} {r' : Arr Quat}
    (e : transformFromFrame sq f ts = .ok (t', r')) :
    ∃ t r, transformFromFrameGaps sqg g ts = .ok (t, r) ∧ Rows Fits t t' ∧ Rows FitsQ r r' := by
  obtain ⟨gt, gr, gts, gdisc, ginv⟩ := g
  obtain ⟨ft, fr, fts, fdisc, finv⟩ := f
  obtain ⟨ht, hr, rfl, rfl, rfl⟩ := h
  simp only at ht hr
  simp only [MFrame.data] at hgood
  cases gts with
  | none =>
    cases ts with
    | none => cases e; exact ⟨_, _, rfl, ht, hr⟩
    | some ts => cases e; exact ⟨_, _, rfl, .many (tileRows_rel ht _), .many (tileRows_rel hr _)⟩
  | some ev =>
    cases ts with
    | none => cases e
    | some ts =>
      cases ht with
      | one ht => simp [transformFromFrame] at e
      | @many tg tr ht =>
        cases hr with
        | one hr => simp [transformFromFrame] at e
        | @many rg rr hr =>
          cases gdisc with
          | true =>
            simp only [transformFromFrame, transformFromFrameGaps, if_true] at e ⊢
            cases e1 : discreteRows tr ev ts with
            | error x => rw [e1] at e; cases e
            | ok z1 => cases e2 : discreteRows rr ev ts with
              | error x => rw [e1, e2] at e; cases e
              | ok z2 =>
                rw [e1, e2] at e
                cases e
                obtain ⟨w1, a1, b1⟩ := discreteRows_rel ht ev ts e1
                obtain ⟨w2, a2, b2⟩ := discreteRows_rel hr ev ts e2
                exact ⟨_, _, by simp only [a1, a2], .many b1, .many b2⟩
          | false =>
            cases hgood with
            | continuous c1 c2 c3 c4 c5 =>
            simp only [transformFromFrame, transformFromFrameGaps, Bool.false_eq_true, if_false] at e ⊢
            cases e1 : interp1d ev tr ts with
            | error x => rw [e1] at e; cases e
            | ok z1 => cases e2 : squad sq rr ev ts with
              | error x => rw [e1, e2] at e; cases e
              | ok z2 =>
                rw [e1, e2] at e
                cases e
                obtain ⟨w1, a1, b1⟩ := interp1dGaps_sound ht e1
                obtain ⟨w2, a2, b2⟩ := squadGaps_sound hg hr c2 c3 c4 c5 (interp1d_inRange e1) e2
                exact ⟨_, _, by simp only [a1, a2], .many b1, .many b2⟩

/-! ### the loop -/

theorem transStepGaps_sound {sq : SquadFn} {sqg : SquadGapsFn} (hg : SquadGapsLaw sq sqg) {g : GFrame} {f : MFrame} (h : GFits g f)
    (hgood : GoodData f.data) {ts : Option (List ℝ)} {acc : Arr GVec × Arr (Option Quat)}
    {acc' out' : Arr Vec × Arr Quat} (h1 : Rows Fits acc.1 acc'.1) (h2 : Rows FitsQ acc.2 acc'.2) (e : transStep sq ts f acc' = .ok out') :
    ∃ out, transStepGaps sqg ts g acc = .ok out ∧ Rows Fits out.1 out'.1 ∧ Rows FitsQ out.2 out'.2 := by
  simp only [transStep, bind] at e
  obtain ⟨⟨t', r'⟩, e1, e⟩ := bind_ok' e
  obtain ⟨t, r, a1, ht, hr⟩ := transformFromFrameGaps_sound hg h hgood e1
  simp only [transStepGaps, bind, a1, Except.bind, h.inv]
  simp only at e
  by_cases hi : f.inverse = true
  · rw [if_pos hi] at e ⊢
    obtain ⟨ri', e2, e⟩ := bind_ok' e
    obtain ⟨d', e3, e⟩ := bind_ok' e
    obtain ⟨t2', e4, e⟩ := bind_ok' e
    obtain ⟨r2', e5, e⟩ := bind_ok' e
    cases e
    obtain ⟨ri, a2, b2⟩ := qinvArrGaps_sound hr e2
    obtain ⟨d, a3, b3⟩ := bzip_rel (T := Fits) (f := subGaps) (g := fun a b => a - b) (fun _ _ _ _ x y => fits_sub x y) h1 ht e3
    obtain ⟨t2, a4, b4⟩ := rotateVectorsGaps_sound b2 b3 e4
    obtain ⟨r2, a5, b5⟩ := bzip_rel (T := FitsQ) (f := mulGaps) (g := fun a b => a * b) (fun _ _ _ _ x y => fits_mul x y) b2 h2 e5
    exact ⟨(t2, r2), by simp only [a2, a3, a4, a5]; rfl, b4, b5⟩
  · rw [if_neg hi] at e ⊢
    obtain ⟨d', e3, e⟩ := bind_ok' e
    obtain ⟨t2', e4, e⟩ := bind_ok' e
    obtain ⟨r2', e5, e⟩ := bind_ok' e
    cases e
    obtain ⟨d, a3, b3⟩ := rotateVectorsGaps_sound hr h1 e3
    obtain ⟨t2, a4, b4⟩ := bzip_rel (T := Fits) (f := addGaps) (g := fun a b => a + b) (fun _ _ _ _ x y => fits_add x y) b3 ht e4
    obtain ⟨r2, a5, b5⟩ := bzip_rel (T := FitsQ) (f := mulGaps) (g := fun a b => a * b) (fun _ _ _ _ x y => fits_mul x y) hr h2 e5
    exact ⟨(t2, r2), by simp only [a3, a4, a5]; rfl, b4, b5⟩

theorem transLoopGaps_sound {sq : SquadFn} {sqg : SquadGapsFn} (hg : SquadGapsLaw sq sqg) {ts : Option (List ℝ)} {gs : List GFrame} {fs : List MFrame}
    (h : List.Forall₂ GFits gs fs) (hgood : ∀ f ∈ fs, GoodData f.data)
    {acc : Arr GVec × Arr (Option Quat)} {acc' out' : Arr Vec × Arr Quat} (h1 : Rows Fits acc.1 acc'.1) (h2 : Rows FitsQ acc.2 acc'.2)
    (e : transLoop sq ts fs acc' = .ok out') :
    ∃ out, transLoopGaps sqg ts gs acc = .ok out ∧ Rows Fits out.1 out'.1 ∧ Rows FitsQ out.2 out'.2 := by
  induction h generalizing acc acc' with
  | nil => cases e; exact ⟨acc, rfl, h1, h2⟩
  | @cons g f gs fs hgf _ ih =>
    simp only [transLoop] at e
    cases e1 : transStep sq ts f acc' with
    | error x => rw [e1] at e; cases e
    | ok acc1' =>
      rw [e1] at e
      obtain ⟨acc1, a1, b1, b2⟩ := transStepGaps_sound hg hgf (hgood f (by simp)) h1 h2 e1
      obtain ⟨out, a, b⟩ := ih (fun f hf => hgood f (by simp [hf])) b1 b2 e
      exact ⟨out, by simp only [transLoopGaps, a1]; exact a, b⟩

/-! ### the lookup -/

theorem firstLenGaps_eq {t : Arr GVec} {t' : Arr Vec} (h : Rows Fits t t') : firstLenGaps t = firstLen t' := by
  cases h with
  | one h => rfl
  | many h => exact h.length_eq

theorem addFramesGaps_ok {gd : ℕ → Option GapData} {s' : State}
    (hd : ∀ i, (gd i = none ∧ s'.data i = none) ∨ ∃ g d, gd i = some g ∧ s'.data i = some d ∧ CompletesData g d) {inv : Bool} {l : List ℕ}
    (hok : ∀ i ∈ l, Checked s' i) (fs : List GFrame) :
    ∃ gs, addFramesGaps gd inv l fs = .ok (fs ++ gs) ∧
      List.Forall₂ (fun i (g : GFrame) => gd i = some ⟨some (g.translation, g.rotation), g.timestamps, g.discrete⟩ ∧ g.inverse = inv) l gs := by
  induction l generalizing fs with
  | nil => exact ⟨[], by simp [addFramesGaps], .nil⟩
  | cons i l ih =>
    obtain ⟨d, p, h1, h2, h3⟩ := hok i (by simp)
    rcases hd i with ⟨_, h⟩ | ⟨g, d', hg, hd', hc⟩
    · rw [h] at h1; cases h1
    · rw [h1] at hd'
      cases hd'
      cases hc with
      | none => cases h2
      | @some tg rg t r ts disc ht hr =>
        cases h2
        simp only at h3
        obtain ⟨gs, e, hgs⟩ := ih (fun i hi => hok i (by simp [hi])) (fs ++ [⟨tg, rg, ts, disc, inv⟩])
        refine ⟨⟨tg, rg, ts, disc, inv⟩ :: gs, ?_, .cons ⟨hg, rfl⟩ hgs⟩
        simp only [addFramesGaps, hg, firstLenGaps_eq ht, h3, e, List.append_assoc, List.singleton_append]

theorem gfits_of {gd : ℕ → Option GapData} {s' : State}
    (hd : ∀ i, (gd i = none ∧ s'.data i = none) ∨ ∃ g d, gd i = some g ∧ s'.data i = some d ∧ CompletesData g d) {inv : Bool} {l : List ℕ}
    {gs : List GFrame} {fs : List MFrame}
    (h1 : List.Forall₂ (fun i (g : GFrame) => gd i = some ⟨some (g.translation, g.rotation), g.timestamps, g.discrete⟩ ∧ g.inverse = inv) l gs)
    (h2 : List.Forall₂ (FrameOf s' inv) l fs) : List.Forall₂ GFits gs fs := by
  induction h1 generalizing fs with
  | nil => cases h2; exact .nil
  | @cons i g l gs hg _ ih =>
    cases h2 with
    | @cons _ f _ fs hf hfs =>
      refine .cons ?_ (ih hfs)
      obtain ⟨gt, gr, gts, gdisc, ginv⟩ := g
      obtain ⟨ft, fr, fts, fdisc, finv⟩ := f
      obtain ⟨hg, rfl⟩ := hg
      obtain ⟨hf, hi⟩ := hf
      simp only at hi
      subst hi
      rcases hd i with ⟨h, _⟩ | ⟨g, d, hg', hd', hc⟩
      · rw [h] at hg; cases hg
      · rw [hg] at hg'; rw [hf] at hd'
        cases hg'; cases hd'
        simp only [MFrame.data] at hc
        cases hc with
        | some ht hr => exact ⟨ht, hr, rfl, rfl, rfl⟩

theorem getTimestamps_gaps {gs : List GFrame} {fs : List MFrame} (h : List.Forall₂ GFits gs fs) :
    (⟨gs.map GFrame.stamps, []⟩ : Matcher).getTimestamps = (⟨fs, []⟩ : Matcher).getTimestamps := by
  have e1 : (gs.map GFrame.stamps).filterMap (fun f => if f.discrete then none else f.timestamps) =
      fs.filterMap (fun f => if f.discrete then none else f.timestamps) := by
    induction h with
    | nil => rfl
    | cons h1 _ ih => simp only [List.map_cons, List.filterMap_cons, ih, GFrame.stamps, h1.ts, h1.disc]
  have e2 : (gs.map GFrame.stamps).filterMap (fun f => if f.discrete then f.timestamps else none) =
      fs.filterMap (fun f => if f.discrete then f.timestamps else none) := by
    clear e1
    induction h with
    | nil => rfl
    | cons h1 _ ih => simp only [List.map_cons, List.filterMap_cons, ih, GFrame.stamps, h1.ts, h1.disc]
  simp only [Matcher.getTimestamps, Matcher.getRange, Matcher.continuous, e1, e2]

end RBM
