import Verif.Lemmas.GapsAllMatch
import Verif.Lemmas.Gaps
import Verif.Lemmas.AxisTransform

/-!
C101: transforming arrays with missing entries through recordings with missing entries.
-/

namespace RBM.Props

open RBM.Spec

section

variable {full : Bool} {sq : SquadFn} {sqg : SquadGapsFn} {s s' : State} {gd : ℕ → Option GapData} {h' : List Event} {a b : ℕ}

theorem addArray_shape {m n : Matcher} {x y : MArray} {m' : Matcher} (hs : x.data.shape = y.data.shape) (ht : x.timestamps = y.timestamps)
    (e : m.addArray x = .ok m') : m' = { m with arrays := m.arrays ++ [x] } ∧ n.addArray y = .ok { n with arrays := n.arrays ++ [y] } := by
  simp only [Matcher.addArray, ← hs, ← ht] at e ⊢
  cases hx : x.timestamps with
  | none => rw [hx] at e; cases e; exact ⟨rfl, rfl⟩
  | some ts =>
    rw [hx] at e
    cases hsh : x.data.shape with
    | nil => rw [hsh] at e; cases e
    | cons k rest =>
      rw [hsh] at e
      simp only at e ⊢
      cases hck : checkTimestamps (some ts) k with
      | error z => rw [hck] at e; cases e
      | ok z => rw [hck] at e; cases e; exact ⟨rfl, rfl⟩

/-- Matching an array with gaps and frames with gaps, next to the same with the gaps filled. -/
theorem matchAll_sound (hg : SquadGapsLaw sq sqg) (hr : Reachable s' h') (ha : a < s.size) (hb : b < s.size)
    (hc : CompletesTree s gd s') {l : List ℕ} (hl : Route s' a b l) (hp : PathAll s' a b (FrameOk true s'))
    (hfull : full = true → ∀ i ∈ l, ∀ g, gd i = some g → CompleteData g) {w : ND (Option ℝ)} {w' : ND ℝ} {wts : Option (List ℝ)}
    (hw : NDRel (Fit full) w w')
    (hlane : ∀ ats ts, wts = some ats → (∀ τ ∈ ts, InRange ats τ) → w'.shape.getLast? = some 4 → LaneLaw full sq sqg w' ats ts)
    {m' : Matcher} {t' : Arr Vec} {r' : Arr Quat} {ts : Option (List ℝ)} {x' : ND ℝ}
    (e1 : s'.getMatcher a (.byObj b) [⟨w', wts⟩] = .ok m') (e2 : m'.getTransformation sq = .ok (t', r', ts)) (e3 : m'.getArray1 sq ts = .ok x') :
    ∃ t r x, s.matchAllGaps sqg gd a (.byObj b) w wts = .ok (t, r, x, ts) ∧ Rows (fun g v => ∀ k, Fit full (g k) (v k)) t t' ∧
      Rows (Fit full) r r' ∧ NDRel (Fit full) x x' := by
  obtain ⟨data, rfl⟩ := hc.tree
  obtain ⟨c, la, lb, hcm, hla, hlb, hok, rfl⟩ := pathAll_route hr.wf hp hl
  have hg' : ∀ i ∈ la ++ lb, ∃ d, ({ s with data := data } : State).data i = some d ∧ GoodData d := by simpa [FrameOk] using hok
  have hck : ∀ i ∈ la ++ lb, Checked { s with data := data } i := fun i hi => by
    obtain ⟨d, h1, h2⟩ := hg' i hi; exact GoodData.checked h1 h2
  obtain ⟨fa, fb, e, h1, h2⟩ := getMatcher_ok (s := { s with data := data }) hr.wf ha hb hcm hla hlb hck [⟨w', wts⟩]
  obtain ⟨ga, ea, h3⟩ := addFramesGaps_ok hc.data (inv := false) (l := la) (fun i hi => hck i (by simp [hi])) []
  obtain ⟨gb, eb, h4⟩ := addFramesGaps_ok hc.data (inv := true) (l := lb.reverse) (fun i hi => hck i (by simp at hi; simp [hi])) ga
  rw [List.nil_append] at ea
  have hfit : List.Forall₂ GFits (ga ++ gb) (fa ++ fb) := List.rel_append (gfits_of hc.data h3 h1) (gfits_of hc.data h4 h2)
  have hgf : ∀ f ∈ fa ++ fb, GoodData f.data := by
    have key : ∀ {inv l fs}, List.Forall₂ (FrameOf { s with data := data } inv) l fs →
        (∀ i ∈ l, ∃ d, ({ s with data := data } : State).data i = some d ∧ GoodData d) → ∀ f ∈ fs, GoodData f.data := by
      intro inv l fs hf
      induction hf with
      | nil => simp
      | cons hx _ ih =>
        intro hl f hf
        rcases List.mem_cons.mp hf with rfl | hf
        · obtain ⟨d, g1, g2⟩ := hl _ (List.mem_cons_self ..)
          rw [hx.1] at g1; cases g1; exact g2
        · exact ih (fun i hi => hl i (List.mem_cons_of_mem _ hi)) f hf
    intro f hf
    rcases List.mem_append.mp hf with hf | hf
    · exact key h1 (fun i hi => hg' i (by simp [hi])) f hf
    · exact key h2 (fun i hi => hg' i (by simp at hi; simp [hi])) f hf
  have hcomp : full = true → ∀ g ∈ ga ++ gb, CompleteData ⟨some (g.translation, g.rotation), g.timestamps, g.discrete⟩ := by
    intro hf
    have key : ∀ {inv l gs}, List.Forall₂ (fun i (g : GFrame) => gd i = some ⟨some (g.translation, g.rotation), g.timestamps, g.discrete⟩ ∧ g.inverse = inv) l gs →
        (∀ i ∈ l, ∀ g, gd i = some g → CompleteData g) → ∀ g ∈ gs, CompleteData ⟨some (g.translation, g.rotation), g.timestamps, g.discrete⟩ := by
      intro inv l gs hx
      induction hx with
      | nil => simp
      | cons hx _ ih =>
        intro hl g hg
        rcases List.mem_cons.mp hg with rfl | hg
        · exact hl _ (List.mem_cons_self ..) _ hx.1
        · exact ih (fun i hi => hl i (List.mem_cons_of_mem _ hi)) g hg
    intro g hg
    rcases List.mem_append.mp hg with hg | hg
    · exact key h3 (fun i hi => hfull hf i (by simp [hi])) g hg
    · exact key h4 (fun i hi => hfull hf i (by simp at hi; simp [hi])) g hg
  rw [e1] at e
  simp only [addArrays] at e
  cases e4 : (⟨fa ++ fb, []⟩ : Matcher).addArray ⟨w', wts⟩ with
  | error z => rw [e4] at e; cases e
  | ok m1 =>
    rw [e4] at e
    cases e
    obtain ⟨hm, e5⟩ := addArray_shape (m := ⟨fa ++ fb, []⟩) (n := ⟨(ga ++ gb).map GFrame.stamps, []⟩) (x := ⟨w', wts⟩) (y := ⟨w.fill, wts⟩) (by exact hw.1.symm) rfl e4
    simp only [List.nil_append] at hm e5
    subst hm
    simp only [Matcher.getTransformation, bind] at e2
    obtain ⟨ts0, e6, e2⟩ := bind_ok' e2
    obtain ⟨⟨t0, r0⟩, e7, e2⟩ := bind_ok' e2
    simp only [Pure.pure, Except.pure] at e2
    cases e2
    have e6' : (⟨(ga ++ gb).map GFrame.stamps, [⟨w.fill, wts⟩]⟩ : Matcher).getTimestamps = .ok ts :=
      (getTimestamps_gaps' hfit (by simp)).trans e6
    have hin := getTimestamps_range e6
    obtain ⟨out, ho, h5, h6⟩ := transLoopGaps_sound hg hfit hgf (acc := (initTranslationGaps ts, .one (some 1))) (init_rows ts)
      (.one fun x hx => by cases hx; rfl) e7
    have h5' : Rows (fun g v => ∀ k, Fit full (g k) (v k)) out.1 t' ∧ Rows (Fit full) out.2 r' := by
      cases full with
      | false => exact ⟨rows_false h5, rowsQ_false h6⟩
      | true =>
        have had : ∀ l, ts = some l → ∀ τ ∈ l, ∀ f ∈ fa ++ fb, Admissible f.data τ := fun l hl τ hτ f hf =>
          admissible_of_continuous (m := ⟨fa ++ fb, [⟨w', wts⟩]⟩) (hin l hl τ hτ) f hf
        have hk := loop_complete hg hfit hgf had (hcomp rfl) e7 (acc := (initTranslationGaps ts, .one (some 1)))
          (fun k => by
            cases ts with
            | none => intro j; simp
            | some l =>
              rintro g (hg | hg)
              · have := List.mem_of_getElem? hg
                simp only [List.mem_singleton] at this
                subst this; intro j; simp
              · cases hg; intro j; simp)
          (fun k => by simp [KnownAt]) ho
        refine ⟨rows_known (fun g v h1 h2 j => ⟨h1 j, fun _ => h2 j⟩) h5 fun k => (hk k).1, rows_known (fun g v h1 h2 => ⟨h1, fun _ => h2⟩) h6 fun k => (hk k).2⟩
    have harr : ∃ x, resampleArrayAll sqg w wts ts = .ok x ∧ NDRel (Fit full) x x' := by
      simp only [Matcher.getArray1, Matcher.getArrays, bind] at e3
      obtain ⟨⟨arrs, z8⟩, e8, e3⟩ := bind_ok' e3
      have e9 : Except.bind (collect (List.map (fun a => resampleArray sq a ts) [⟨w', wts⟩])) (fun arrs => (Pure.pure (arrs, ts) : Res _)) = .ok (arrs, z8) := by
        cases ts with
        | none => simp only [e6] at e8; exact e8
        | some l => exact e8
      obtain ⟨arrs', e10, e8⟩ := bind_ok' e9
      cases e8
      simp only [List.map_cons, List.map_nil, collect] at e10
      cases e11 : resampleArray sq ⟨w', wts⟩ ts with
      | error z => rw [e11] at e10; cases e10
      | ok y =>
        rw [e11] at e10
        cases e10
        cases e3
        refine rel_resample hw (fun ats ts2 ha2 ht2 h4 => hlane ats ts2 ha2 (fun τ hτ => hin ts2 ht2 τ hτ ats ?_) h4) e11
        simp [Matcher.continuous, ha2]
    obtain ⟨x, hx, hxr⟩ := harr
    refine ⟨out.1, out.2, x, ?_, h5'.1, h5'.2, hxr⟩
    have hwk : s.walk a (.byObj b) = .ok (la, lb.reverse) := by
      have := walk_eq (s := { s with data := data }) hr.wf ha hb hcm hla hlb
      simp only [State.walk, State.resolve]
      exact this
    have hts2 : (match ts with
      | none => (⟨(ga ++ gb).map GFrame.stamps, [⟨w.fill, wts⟩]⟩ : Matcher).getTimestamps
      | some ts => (Pure.pure (some ts) : Res (Option (List ℝ)))) = .ok ts := by
      cases ts with
      | none => exact e6'
      | some l => rfl
    simp only [State.matchAllGaps, hwk, bind, Except.bind, ea, eb, e5, e6', ho, hx]
    cases ts with
    | none => simp only [hx]; rfl
    | some l => simp only [hx, Pure.pure, Except.pure]

theorem rel_of_fits {v : ND (Option ℝ)} {v' : ND ℝ} (h : FitsArr v v') : NDRel (Fit false) v v' :=
  ⟨h.1, fun idx hv => ⟨fun x hx => h.2 idx hv x hx, fun h => by cases h⟩⟩

theorem rel_of_full {v : ND (Option ℝ)} {v' : ND ℝ} (h : FitsArr v v') (hn : NoGaps v) : NDRel (Fit true) v v' :=
  ⟨h.1, fun idx hv => ⟨fun x hx => h.2 idx hv x hx, fun _ => hn idx hv⟩⟩

theorem fits_of_rel {v : ND (Option ℝ)} {v' : ND ℝ} (h : NDRel (Fit full) v v') : FitsArr v v' := ⟨h.1, fun idx hv x hx => (h.2 idx hv).1 x hx⟩

theorem full_of_rel {v : ND (Option ℝ)} {v' : ND ℝ} (h : NDRel (Fit true) v v') : NoGaps v := fun idx hv => (h.2 idx hv).2 rfl

theorem fitsQ_of_fit {gs : List (Option Quat)} {qs : List Quat} (h : List.Forall₂ (Fit full) gs qs) : List.Forall₂ FitsQ gs qs :=
  h.imp fun _ _ h => h.1

theorem some_of_fit {gs : List (Option Quat)} {qs : List Quat} (h : List.Forall₂ (Fit true) gs qs) (k : ℕ) : gs[k]? ≠ some none := by
  induction h generalizing k with
  | nil => simp
  | cons h _ ih =>
    cases k with
    | zero => simpa using h.2 rfl
    | succ k => simpa using ih k

theorem swapL_snoc {q k : ℕ} {i : ℕ} {idx : List ℕ} (hq : q ≤ idx.length) : swapL 0 q (i :: idx ++ [k]) = swapL 0 q (i :: idx) ++ [k] := by
  have h : q < (i :: idx).length := by simp; omega
  simp only [swapL]
  have h1 : (i :: idx ++ [k]).getD q 0 = (i :: idx).getD q 0 := by
    rw [List.getD_eq_getElem?_getD, List.getD_eq_getElem?_getD, List.getElem?_append_left h]
  rw [h1]
  simp only [List.cons_append, List.set_cons_zero, List.getD_cons_zero]
  cases q with
  | zero => simp
  | succ q =>
    simp only [List.set_cons_succ, List.cons_append]
    rw [List.set_append_left _ _ (by simpa using hq)]

theorem lane_of (hg : SquadGapsLaw sq sqg) {v' w' : ND ℝ} {o : TArgs} (hR : Resamples v' o) {n : ℕ} {wts : Option (List ℝ)}
    (e : validateInput v' o.axis n o.timestamps o.timeAxis = .ok (w', wts)) :
    ∀ ats ts, wts = some ats → (∀ τ ∈ ts, InRange ats τ) → w'.shape.getLast? = some 4 → LaneLaw full sq sqg w' ats ts := by
  rintro ats ts rfl hin h4
  cases hR with
  | static h =>
    have := (validateInput_facts e).2
    simp [h] at this
  | @numbers ta q h1 h2 h3 =>
    have e' := e
    simp only [validateInput, h1, bind] at e
    obtain ⟨l, _, e⟩ := bind_ok' e
    by_cases hl : l ≠ n
    · rw [if_pos hl] at e; cases e
    rw [if_neg hl] at e
    cases hT : o.timestamps with
    | none => rw [hT] at e; cases e
    | some T =>
      rw [hT] at e
      simp only [Except.bind, Pure.pure, Except.pure] at e
      match hS : T.shape with
      | [] => rw [hS] at e; cases e
      | _ :: _ :: _ => rw [hS] at e; cases e
      | [m] =>
        rw [hS] at e
        simp only at e
        cases e2 : pyShape v'.shape ta with
        | error x => rw [e2] at e; cases e
        | ok m' =>
          rw [e2] at e
          simp only at e
          by_cases hm : m' ≠ m
          · rw [if_pos hm] at e; cases e
          · rw [if_neg hm] at e
            have h0 : 0 < v'.ndim := by have := h2.1; omega
            simp only [ND.swapaxesZ, normAxis_zero h0, axisIs_norm h2] at e
            cases e
            exact absurd h4 h3
  | @quaternions ta q l h1 h2 h3 h5 h6 h7 h8 =>
    have h0 : 0 < v'.ndim := by have := h3.1; omega
    simp only [validateInput, h1, h2, bind] at e
    obtain ⟨l', _, e⟩ := bind_ok' e
    by_cases hl : l' ≠ n
    · rw [if_pos hl] at e; cases e
    rw [if_neg hl] at e
    simp only [Except.bind, Pure.pure, Except.pure, ofList, pyShape_ok (axisIs_norm h3)] at e
    by_cases hm : v'.shape.getD q 0 ≠ l.length
    · rw [if_pos hm] at e; cases e
    rw [if_neg hm] at e
    push Not at hm
    simp only [ND.swapaxesZ, normAxis_zero h0, axisIs_norm h3] at e
    have hr := ofList_range l
    simp only [ofList] at hr
    rw [hr] at e
    cases e
    intro q' eq m rest hs idx hv τ hτ gs hgs
    have h4' : (swapL 0 q v'.shape).getLast? = some 4 := h4
    simp only [asQuatArray, ND.swapaxes, h4'] at eq
    cases eq
    simp only at hs hgs ⊢
    have hsh : swapL 0 q v'.shape = m :: rest ++ [4] := by rw [← hs]; exact split_last' h4'
    have hlen : v'.shape.length = rest.length + 2 := by
      have := congrArg List.length hsh; simpa using this
    have hmlen : m = ats.length := by
      have := congrArg (fun l => l.getD 0 0) hsh
      simp only [swapL_getD (show 0 < v'.shape.length from h0) (show q < v'.shape.length from h3.1)] at this
      rw [← hm]
      simp only [List.cons_append, List.getD_cons_zero] at this
      rw [← this]
      split_ifs with hq
      · rw [← hq]
      · rfl
    have hql : q ≤ rest.length := by have : q + 1 < v'.shape.length := h5; omega
    have hunit : ∀ x ∈ (List.range m).map fun i => (⟨v'.get (swapL 0 q (i :: idx ++ [0])), v'.get (swapL 0 q (i :: idx ++ [1])),
        v'.get (swapL 0 q (i :: idx ++ [2])), v'.get (swapL 0 q (i :: idx ++ [3]))⟩ : Quat), IsUnitQ x := by
      intro x hx
      obtain ⟨i, hi, rfl⟩ := List.mem_map.mp hx
      rw [List.mem_range] at hi
      have hvl := hv.length
      have hval : Valid v'.shape (swapL 0 q (i :: idx ++ [0])) := by
        have h9 : Valid (swapL 0 q v'.shape) (i :: idx ++ [0]) := by
          rw [hsh]
          exact valid_iff_forall₂.mpr (List.rel_append (valid_iff_forall₂.mp (show Valid (m :: rest) (i :: idx) from ⟨hi, hv⟩)) (.cons (by omega) .nil))
        have h10 := valid_iff_forall₂.mp h9
        exact valid_swapL' (show 0 < v'.shape.length from h0) (show q < v'.shape.length from h3.1) h9
      have := h8 _ hval
      have hset : ∀ k : ℕ, (swapL 0 q (i :: idx ++ [0])).set (v'.ndim - 1) k = swapL 0 q (i :: idx ++ [k]) := by
        intro k
        rw [swapL_snoc (by omega), swapL_snoc (by omega)]
        have hn : v'.ndim - 1 = (swapL 0 q (i :: idx)).length := by simp [ND.ndim, hlen, hvl]
        rw [hn, List.set_append_right _ _ (le_refl _)]
        simp
      simpa only [quat4, hset] using this
    have hglen : gs.length = ats.length := hgs.length_eq.trans ((List.length_map _).trans (List.length_range.trans hmlen))
    refine ⟨fun x hx => ?_, fun hf => ?_⟩
    · exact hg.sound gs _ ats τ (fitsQ_of_fit hgs) hglen h6 h7 hunit (hin τ hτ) x hx
    · subst hf
      exact hg.near gs ats τ hglen h6 h7 (hin τ hτ) fun k _ => some_of_fit hgs k

theorem fitsRet_of {x : ND (Option ℝ)} {x' : ND ℝ} (h : NDRel (Fit full) x x') (b : Bool) (ts : Option (List ℝ)) :
    FitsRet (pyReturnGaps b x ts) (pyReturn b x' ts) ∧ (full = true → NoGaps (PyRetGaps.array (pyReturnGaps b x ts))) := by
  have hn : full = true → NoGaps x := by rintro rfl; exact full_of_rel h
  cases b with
  | false => exact ⟨.single (fits_of_rel h), hn⟩
  | true => exact ⟨.withTs (fits_of_rel h), hn⟩

theorem vectors_rel (hg : SquadGapsLaw sq sqg) (hr : Reachable s' h') (ha : a < s.size) (hb : b < s.size)
    (hc : CompletesTree s gd s') {l : List ℕ} (hl : Route s' a b l) (hp : PathAll s' a b (FrameOk true s'))
    (hfull : full = true → ∀ i ∈ l, ∀ g, gd i = some g → CompleteData g) {v : ND (Option ℝ)} {v' : ND ℝ}
    (hv : NDRel (Fit full) v v') {o : TArgs} (hR : Resamples v' o) {ret' : PyRet} (e : s'.transformVectors sq a v' (.byObj b) o = .ok ret') :
    ∃ ret, s.transformVectorsAllGaps sqg gd a v (.byObj b) o = .ok ret ∧ FitsRet ret ret' ∧ (full = true → NoGaps (PyRetGaps.array ret)) := by
  simp only [State.transformVectors, State.transformVectorsCore, bind] at e
  obtain ⟨⟨x1, ts1⟩, e0, e⟩ := bind_ok' e
  obtain ⟨⟨w', wts⟩, e1, e0⟩ := bind_ok' e0
  obtain ⟨m', e2, e0⟩ := bind_ok' e0
  obtain ⟨⟨t', r', ts⟩, e3, e0⟩ := bind_ok' e0
  obtain ⟨x', e4, e0⟩ := bind_ok' e0
  obtain ⟨y', e5, e0⟩ := bind_ok' e0
  obtain ⟨z', e6, e⟩ := bind_ok' e
  cases e0
  cases e
  obtain ⟨w, f1, hw⟩ := validateInput_rel hv e1
  obtain ⟨t, r, x, f2, ht, hrr, hx⟩ := matchAll_sound hg hr ha hb hc hl hp hfull hw (lane_of hg hR e1) e2 e3 e4
  obtain ⟨y, f3, hy⟩ := rel_rotateF (rel_expandSingleton (rel_ofQuats hrr) x'.ndim) hx e5
  obtain ⟨z, f4, hz⟩ := undo_rel hy e6
  refine ⟨_, ?_, fitsRet_of hz o.returnTimestamps ts⟩
  simp only [State.transformVectorsAllGaps, f1, f2, hx.ndim, f3, f4, bind, Except.bind]
  rfl

theorem points_rel (hg : SquadGapsLaw sq sqg) (hr : Reachable s' h') (ha : a < s.size) (hb : b < s.size)
    (hc : CompletesTree s gd s') {l : List ℕ} (hl : Route s' a b l) (hp : PathAll s' a b (FrameOk true s'))
    (hfull : full = true → ∀ i ∈ l, ∀ g, gd i = some g → CompleteData g) {v : ND (Option ℝ)} {v' : ND ℝ}
    (hv : NDRel (Fit full) v v') {o : TArgs} (hR : Resamples v' o) {ret' : PyRet} (e : s'.transformPoints sq a v' (.byObj b) o = .ok ret') :
    ∃ ret, s.transformPointsAllGaps sqg gd a v (.byObj b) o = .ok ret ∧ FitsRet ret ret' ∧ (full = true → NoGaps (PyRetGaps.array ret)) := by
  simp only [State.transformPoints, State.transformPointsCore, bind] at e
  obtain ⟨⟨x1, ts1⟩, e0, e⟩ := bind_ok' e
  obtain ⟨⟨w', wts⟩, e1, e0⟩ := bind_ok' e0
  obtain ⟨m', e2, e0⟩ := bind_ok' e0
  obtain ⟨⟨t', r', ts⟩, e3, e0⟩ := bind_ok' e0
  obtain ⟨x', e4, e0⟩ := bind_ok' e0
  obtain ⟨y', e5, e0⟩ := bind_ok' e0
  obtain ⟨u', e7, e0⟩ := bind_ok' e0
  obtain ⟨z', e6, e⟩ := bind_ok' e
  cases e0
  cases e
  obtain ⟨w, f1, hw⟩ := validateInput_rel hv e1
  obtain ⟨t, r, x, f2, ht, hrr, hx⟩ := matchAll_sound hg hr ha hb hc hl hp hfull hw (lane_of hg hR e1) e2 e3 e4
  obtain ⟨y, f3, hy⟩ := rel_rotateF (rel_expandSingleton (rel_ofQuats hrr) x'.ndim) hx e5
  obtain ⟨u, f5, hu⟩ := rel_bop (R := Fit full) (S := Fit full) (T := Fit full) (f := nan2 fun x y => x + y) (g := fun x y => x + y)
    (fun a a' b b' h1 h2 => fit_nan2 _ h1 h2) hy (rel_expandSingleton (rel_ofVecs ht) x'.ndim) e7
  obtain ⟨z, f4, hz⟩ := undo_rel hu e6
  refine ⟨_, ?_, fitsRet_of hz o.returnTimestamps ts⟩
  simp only [State.transformPointsAllGaps, f1, f2, hx.ndim, f3, f4, f5, bind, Except.bind]
  rfl

theorem quaternions_rel (hg : SquadGapsLaw sq sqg) (hr : Reachable s' h') (ha : a < s.size) (hb : b < s.size)
    (hc : CompletesTree s gd s') {l : List ℕ} (hl : Route s' a b l) (hp : PathAll s' a b (FrameOk true s'))
    (hfull : full = true → ∀ i ∈ l, ∀ g, gd i = some g → CompleteData g) {v : ND (Option ℝ)} {v' : ND ℝ}
    (hv : NDRel (Fit full) v v') {o : TArgs} (hR : Resamples v' o) {ret' : PyRet} (e : s'.transformQuaternions sq a v' (.byObj b) o = .ok ret') :
    ∃ ret, s.transformQuaternionsAllGaps sqg gd a v (.byObj b) o = .ok ret ∧ FitsRet ret ret' ∧ (full = true → NoGaps (PyRetGaps.array ret)) := by
  simp only [State.transformQuaternions, State.transformQuaternionsCore, bind] at e
  obtain ⟨⟨x1, ts1⟩, e0, e⟩ := bind_ok' e
  obtain ⟨⟨w', wts⟩, e1, e0⟩ := bind_ok' e0
  obtain ⟨m', e2, e0⟩ := bind_ok' e0
  obtain ⟨⟨t', r', ts⟩, e3, e0⟩ := bind_ok' e0
  obtain ⟨x', e4, e0⟩ := bind_ok' e0
  obtain ⟨y', e5, e0⟩ := bind_ok' e0
  obtain ⟨rq', e7, e0⟩ := bind_ok' e0
  obtain ⟨aq', e8, e0⟩ := bind_ok' e0
  obtain ⟨pr', e9, e0⟩ := bind_ok' e0
  obtain ⟨u', e10, e0⟩ := bind_ok' e0
  obtain ⟨z', e6, e⟩ := bind_ok' e
  cases e0
  cases e
  obtain ⟨w, f1, hw⟩ := validateInput_rel hv e1
  obtain ⟨t, r, x, f2, ht, hrr, hx⟩ := matchAll_sound hg hr ha hb hc hl hp hfull hw (lane_of hg hR e1) e2 e3 e4
  obtain ⟨y, f3, hy⟩ := rel_swapaxesZ hx e5
  obtain ⟨rq, f7, hrq⟩ := rel_asQuat (rel_expandSingleton (rel_ofQuats hrr) x'.ndim) e7
  obtain ⟨aq, f8, haq⟩ := rel_asQuat hy e8
  obtain ⟨pr, f9, hpr⟩ := rel_bop (R := Fit full) (S := Fit full) (T := Fit full) (f := mulGaps) (g := fun x y => x * y)
    (fun a a' b b' h1 h2 => fit_mul h1 h2) hrq haq e9
  obtain ⟨u, f10, hu⟩ := rel_swapaxesZ (rel_asFloat hpr) e10
  obtain ⟨z, f4, hz⟩ := undo_rel hu e6
  refine ⟨_, ?_, fitsRet_of hz o.returnTimestamps ts⟩
  simp only [State.transformQuaternionsAllGaps, f1, f2, hx.ndim, f3, f4, f7, f8, f9, f10, bind, Except.bind]
  rfl

/-- C101: every number that `transform_vectors` returns for an array and recordings with missing entries is the one it returns for every
array and tree that supply those entries. -/
theorem C101_vectors (hg : SquadGapsLaw sq sqg) (hr : Reachable s' h') (ha : a < s.size) (hb : b < s.size)
    (hc : CompletesTree s gd s') (hp : PathAll s' a b (FrameOk true s')) {v : ND (Option ℝ)} {v' : ND ℝ} (hv : FitsArr v v') {o : TArgs}
    (hR : Resamples v' o) {ret' : PyRet} (e : s'.transformVectors sq a v' (.byObj b) o = .ok ret') :
    ∃ ret, s.transformVectorsAllGaps sqg gd a v (.byObj b) o = .ok ret ∧ FitsRet ret ret' := by
  obtain ⟨l, hl⟩ := route_exists hp
  obtain ⟨ret, h1, h2, _⟩ := vectors_rel (full := false) hg hr ha hb hc hl hp (fun h => by cases h) (rel_of_fits hv) hR e
  exact ⟨ret, h1, h2⟩

/-- C101: nothing is missing in the result of `transform_vectors` if nothing is missing in the array and in the recordings on the route. -/
theorem C101_vectors_complete (hg : SquadGapsLaw sq sqg) (hr : Reachable s' h') (ha : a < s.size) (hb : b < s.size)
    (hc : CompletesTree s gd s') {l : List ℕ} (hl : Route s' a b l) (hp : PathAll s' a b (FrameOk true s'))
    (hd : ∀ i ∈ l, ∀ g, gd i = some g → CompleteData g) {v : ND (Option ℝ)} {v' : ND ℝ} (hv : FitsArr v v') (hn : NoGaps v) {o : TArgs}
    (hR : Resamples v' o) {ret' : PyRet} (e : s'.transformVectors sq a v' (.byObj b) o = .ok ret') :
    ∃ ret, s.transformVectorsAllGaps sqg gd a v (.byObj b) o = .ok ret ∧ FitsRet ret ret' ∧ NoGaps (PyRetGaps.array ret) := by
  obtain ⟨ret, h1, h2, h3⟩ := vectors_rel (full := true) hg hr ha hb hc hl hp (fun _ => hd) (rel_of_full hv hn) hR e
  exact ⟨ret, h1, h2, h3 rfl⟩

/-- C101: every number that `transform_points` returns for an array and recordings with missing entries is the one it returns for every
array and tree that supply those entries. -/
theorem C101_points (hg : SquadGapsLaw sq sqg) (hr : Reachable s' h') (ha : a < s.size) (hb : b < s.size)
    (hc : CompletesTree s gd s') (hp : PathAll s' a b (FrameOk true s')) {v : ND (Option ℝ)} {v' : ND ℝ} (hv : FitsArr v v') {o : TArgs}
    (hR : Resamples v' o) {ret' : PyRet} (e : s'.transformPoints sq a v' (.byObj b) o = .ok ret') :
    ∃ ret, s.transformPointsAllGaps sqg gd a v (.byObj b) o = .ok ret ∧ FitsRet ret ret' := by
  obtain ⟨l, hl⟩ := route_exists hp
  obtain ⟨ret, h1, h2, _⟩ := points_rel (full := false) hg hr ha hb hc hl hp (fun h => by cases h) (rel_of_fits hv) hR e
  exact ⟨ret, h1, h2⟩

/-- C101: nothing is missing in the result of `transform_points` if nothing is missing in the array and in the recordings on the route. -/
theorem C101_points_complete (hg : SquadGapsLaw sq sqg) (hr : Reachable s' h') (ha : a < s.size) (hb : b < s.size)
    (hc : CompletesTree s gd s') {l : List ℕ} (hl : Route s' a b l) (hp : PathAll s' a b (FrameOk true s'))
    (hd : ∀ i ∈ l, ∀ g, gd i = some g → CompleteData g) {v : ND (Option ℝ)} {v' : ND ℝ} (hv : FitsArr v v') (hn : NoGaps v) {o : TArgs}
    (hR : Resamples v' o) {ret' : PyRet} (e : s'.transformPoints sq a v' (.byObj b) o = .ok ret') :
    ∃ ret, s.transformPointsAllGaps sqg gd a v (.byObj b) o = .ok ret ∧ FitsRet ret ret' ∧ NoGaps (PyRetGaps.array ret) := by
  obtain ⟨ret, h1, h2, h3⟩ := points_rel (full := true) hg hr ha hb hc hl hp (fun _ => hd) (rel_of_full hv hn) hR e
  exact ⟨ret, h1, h2, h3 rfl⟩

/-- C101: every number that `transform_quaternions` returns for an array and recordings with missing entries is the one it returns for every
array and tree that supply those entries. -/
theorem C101_quaternions (hg : SquadGapsLaw sq sqg) (hr : Reachable s' h') (ha : a < s.size) (hb : b < s.size)
    (hc : CompletesTree s gd s') (hp : PathAll s' a b (FrameOk true s')) {v : ND (Option ℝ)} {v' : ND ℝ} (hv : FitsArr v v') {o : TArgs}
    (hR : Resamples v' o) {ret' : PyRet} (e : s'.transformQuaternions sq a v' (.byObj b) o = .ok ret') :
    ∃ ret, s.transformQuaternionsAllGaps sqg gd a v (.byObj b) o = .ok ret ∧ FitsRet ret ret' := by
  obtain ⟨l, hl⟩ := route_exists hp
  obtain ⟨ret, h1, h2, _⟩ := quaternions_rel (full := false) hg hr ha hb hc hl hp (fun h => by cases h) (rel_of_fits hv) hR e
  exact ⟨ret, h1, h2⟩

/-- C101: nothing is missing in the result of `transform_quaternions` if nothing is missing in the array and in the recordings on the route. -/
theorem C101_quaternions_complete (hg : SquadGapsLaw sq sqg) (hr : Reachable s' h') (ha : a < s.size) (hb : b < s.size)
    (hc : CompletesTree s gd s') {l : List ℕ} (hl : Route s' a b l) (hp : PathAll s' a b (FrameOk true s'))
    (hd : ∀ i ∈ l, ∀ g, gd i = some g → CompleteData g) {v : ND (Option ℝ)} {v' : ND ℝ} (hv : FitsArr v v') (hn : NoGaps v) {o : TArgs}
    (hR : Resamples v' o) {ret' : PyRet} (e : s'.transformQuaternions sq a v' (.byObj b) o = .ok ret') :
    ∃ ret, s.transformQuaternionsAllGaps sqg gd a v (.byObj b) o = .ok ret ∧ FitsRet ret ret' ∧ NoGaps (PyRetGaps.array ret) := by
  obtain ⟨ret, h1, h2, h3⟩ := quaternions_rel (full := true) hg hr ha hb hc hl hp (fun _ => hd) (rel_of_full hv hn) hR e
  exact ⟨ret, h1, h2, h3 rfl⟩

theorem matchAll_noPose {h : List Event} (hr : Reachable s h) (ha : a < s.size) (hb : b < s.size) {l : List ℕ} (hl : Route s a b l) {i : ℕ}
    (hi : i ∈ l) (hn : ∀ g, gd i = some g → g.pose = none) (w : ND (Option ℝ)) (wts : Option (List ℝ)) :
    ∃ e, s.matchAllGaps sqg gd a (.byObj b) w wts = .error e := by
  obtain ⟨up, down, hw, rfl⟩ := walk_route hr ha hb hl
  simp only [State.matchAllGaps, bind, hw, Except.bind]
  cases e1 : addFramesGaps gd false up [] with
  | error x => exact ⟨x, rfl⟩
  | ok fs =>
    simp only
    cases e2 : addFramesGaps gd true down fs with
    | error x => exact ⟨x, rfl⟩
    | ok fs' =>
      exfalso
      rcases List.mem_append.mp hi with hi | hi
      · obtain ⟨g, p, h1, h2⟩ := addFramesGaps_noPose e1 i hi
        rw [hn g h1] at h2; cases h2
      · obtain ⟨g, p, h1, h2⟩ := addFramesGaps_noPose e2 i hi
        rw [hn g h1] at h2; cases h2

/-- C101: if a frame on the route has no pose, the three calls raise. -/
theorem C101_no_pose {h : List Event} (hr : Reachable s h) (ha : a < s.size) (hb : b < s.size) {l : List ℕ} (hl : Route s a b l) {i : ℕ}
    (hi : i ∈ l) (hn : ∀ g, gd i = some g → g.pose = none) (v : ND (Option ℝ)) (o : TArgs) :
    (∃ e, s.transformVectorsAllGaps sqg gd a v (.byObj b) o = .error e) ∧ (∃ e, s.transformPointsAllGaps sqg gd a v (.byObj b) o = .error e) ∧
      ∃ e, s.transformQuaternionsAllGaps sqg gd a v (.byObj b) o = .error e := by
  have key := matchAll_noPose (sqg := sqg) hr ha hb hl hi hn
  refine ⟨?_, ?_, ?_⟩
  · simp only [State.transformVectorsAllGaps, bind]
    cases validateInputGaps v o.axis 3 o.timestamps o.timeAxis with
    | error e => exact ⟨e, rfl⟩
    | ok q => obtain ⟨e, he⟩ := key q.1 q.2; exact ⟨e, by simp only [Except.bind, he]⟩
  · simp only [State.transformPointsAllGaps, bind]
    cases validateInputGaps v o.axis 3 o.timestamps o.timeAxis with
    | error e => exact ⟨e, rfl⟩
    | ok q => obtain ⟨e, he⟩ := key q.1 q.2; exact ⟨e, by simp only [Except.bind, he]⟩
  · simp only [State.transformQuaternionsAllGaps, bind]
    cases validateInputGaps v o.axis 4 o.timestamps o.timeAxis with
    | error e => exact ⟨e, rfl⟩
    | ok q => obtain ⟨e, he⟩ := key q.1 q.2; exact ⟨e, by simp only [Except.bind, he]⟩

end

end RBM.Props
