import Verif.Props.Lookup
import Verif.Lemmas.GapsLookupNear

/-!
C98: lookups through frames whose recordings have missing entries.
-/

namespace RBM.Props

open RBM.Spec

section

variable {sq : SquadFn} {sqg : SquadGapsFn} {s s' : State} {gd : ℕ → Option GapData} {h' : List Event} {a b : ℕ}

/-- The lookups in the tree with gaps and in a completion, side by side. -/
theorem lookup_gaps (hsq : SquadLaw sq) (hr : Reachable s' h') (ha : a < s.size) (hb : b < s.size)
    (hc : CompletesTree s gd s') {l : List ℕ} (hl : Route s' a b l) (hp : PathAll s' a b (FrameOk true s')) :
    ∃ gs fs ts out', List.Forall₂ GFits gs fs ∧ List.Forall₂ (fun i (g : GFrame) => gd i = some ⟨some (g.translation, g.rotation), g.timestamps, g.discrete⟩) l gs ∧
      (∀ f ∈ fs, GoodData f.data) ∧ (∀ l, ts = some l → ∀ τ ∈ l, ∀ f ∈ fs, Admissible f.data τ) ∧
      transLoop sq ts fs (initTranslation ts, .one 1) = .ok out' ∧ s'.lookupTransform sq a (.byObj b) = .ok (out'.1, out'.2, ts) ∧
      s.lookupTransformGaps sqg gd a (.byObj b) = (match transLoopGaps sqg ts gs (initTranslationGaps ts, .one (some 1)) with
        | .error e => .error e
        | .ok p => .ok (p.1, p.2, ts)) := by
  obtain ⟨data, rfl⟩ := hc.tree
  obtain ⟨c, la, lb, hcm, hla, hlb, hok, rfl⟩ := pathAll_route hr.wf hp hl
  have hg' : ∀ i ∈ la ++ lb, ∃ d, ({ s with data := data } : State).data i = some d ∧ GoodData d := by simpa [FrameOk] using hok
  have hck : ∀ i ∈ la ++ lb, Checked { s with data := data } i := fun i hi => by
    obtain ⟨d, h1, h2⟩ := hg' i hi; exact GoodData.checked h1 h2
  obtain ⟨fa, fb, e, h1, h2⟩ := getMatcher_ok (s := { s with data := data }) hr.wf ha hb hcm hla hlb hck []
  obtain ⟨ga, ea, h3⟩ := addFramesGaps_ok hc.data (inv := false) (l := la) (fun i hi => hck i (by simp [hi])) []
  obtain ⟨gb, eb, h4⟩ := addFramesGaps_ok hc.data (inv := true) (l := lb.reverse) (fun i hi => hck i (by simp at hi; simp [hi])) ga
  rw [List.nil_append] at ea
  have hfit : List.Forall₂ GFits (ga ++ gb) (fa ++ fb) := List.rel_append (gfits_of hc.data h3 h1) (gfits_of hc.data h4 h2)
  have hgf : ∀ f ∈ fa ++ fb, GoodData f.data := by
    have key : ∀ {inv l fs}, List.Forall₂ (FrameOf { s with data := data } inv) l fs →
        (∀ i ∈ l, ∃ d, ({ s with data := data } : State).data i = some d ∧ GoodData d) → ∀ f ∈ fs, GoodData f.data := by
      intro inv l fs hf
      induction hf with
      | nil => simp
      | cons hx _ ih =>
        intro hl f hf
        rcases List.mem_cons.mp hf with rfl | hf
        · obtain ⟨d, g1, g2⟩ := hl _ (List.mem_cons_self ..)
          rw [hx.1] at g1; cases g1; exact g2
        · exact ih (fun i hi => hl i (List.mem_cons_of_mem _ hi)) f hf
    intro f hf
    rcases List.mem_append.mp hf with hf | hf
    · exact key h1 (fun i hi => hg' i (by simp [hi])) f hf
    · exact key h2 (fun i hi => hg' i (by simp at hi; simp [hi])) f hf
  set m : Matcher := ⟨fa ++ fb, []⟩ with hm
  have hne : ∀ c ∈ m.continuous, c ≠ [] := by
    intro c hc
    simp only [Matcher.continuous, hm, List.filterMap_nil, List.append_nil, List.mem_filterMap] at hc
    obtain ⟨f, hf, h3⟩ := hc
    split at h3
    · simp at h3
    · exact goodData_ne (hgf f hf) h3
  have hts : ∃ ts, m.getTimestamps true = .ok ts ∧ ∀ l, ts = some l → ∀ τ ∈ l, ∀ c ∈ m.continuous, InRange c τ := by
    classical
    rcases getTimestamps_spec m true hne with ⟨x, xs, ts, g1, g2, g3, g4⟩ | ⟨g1, g2, g3⟩ | ⟨g1, g2, g3⟩
    · refine ⟨_, g2, ?_⟩
      rintro _ ⟨⟩ τ hτ
      rw [g4 (fun t => ∀ y ∈ m.continuous, InRange y t) (fun t => Iff.rfl)] at hτ
      simpa using (List.mem_filter.mp hτ).2
    · exact ⟨_, g3, fun l _ τ _ c hc => by rw [g1] at hc; simp at hc⟩
    · exact ⟨_, g3, fun l hl => by cases hl⟩
  obtain ⟨ts, hts, hin⟩ := hts
  have hlook : ({ s with data := data } : State).lookupTransform sq a (.byObj b) =
      match transLoop sq ts m.frames (initTranslation ts, .one 1) with
      | .error e => .error e
      | .ok p => .ok (p.1, p.2, ts) := by
    simp only [State.lookupTransform, e, addArrays, bind, Except.bind, Matcher.getTransformation, hts]
    cases transLoop sq ts m.frames (initTranslation ts, .one 1) <;> rfl
  have hres : ∃ t r ts', ({ s with data := data } : State).lookupTransform sq a (.byObj b) = .ok (t, r, ts') := by
    rcases lookup_good sq hsq (s := { s with data := data }) hr.wf ha hb hcm hla hlb hok with ⟨_, _, Pa, Pb, _, _, e⟩ | ⟨_, ts, T, e, _⟩
    · exact ⟨_, _, _, e⟩
    · exact ⟨_, _, _, e⟩
  obtain ⟨t, r, ts', hres⟩ := hres
  cases ho : transLoop sq ts m.frames (initTranslation ts, .one 1) with
  | error x => rw [hlook, ho] at hres; cases hres
  | ok out' =>
    have hw : s.walk a (.byObj b) = .ok (la, lb.reverse) := by
      have := walk_eq (s := { s with data := data }) hr.wf ha hb hcm hla hlb
      simp only [State.walk, State.resolve]
      exact this
    refine ⟨ga ++ gb, fa ++ fb, ts, out', hfit, List.rel_append (h3.imp fun _ _ h => h.1) (h4.imp fun _ _ h => h.1), hgf,
      fun l hl τ hτ f hf => admissible_of_continuous (hin l hl τ hτ) f hf, ho, by rw [hlook, ho], ?_⟩
    have hts' : (⟨(ga ++ gb).map GFrame.stamps, []⟩ : Matcher).getTimestamps = .ok ts := (getTimestamps_gaps hfit).trans hts
    simp only [State.lookupTransformGaps, hw, bind, Except.bind, ea, eb, hts']
    cases transLoopGaps sqg ts (ga ++ gb) (initTranslationGaps ts, .one (some 1)) <;> rfl

/-- The initial transformation. -/
theorem init_rows (ts : Option (List ℝ)) : Rows Fits (initTranslationGaps ts) (initTranslation ts) := by
  have h : Fits (fun _ => some 0) (0 : Vec) := fun k x hx => by cases hx; rfl
  cases ts with
  | none => exact .one h
  | some l => exact .many (.cons h .nil)

theorem route_exists {s : State} {a b : ℕ} {p : ℕ → Prop} (hp : PathAll s a b p) : ∃ l, Route s a b l := by
  obtain ⟨c, la, lb, h1, h2, h3, _⟩ := hp
  exact ⟨_, c, la, lb, h1, h2, h3, rfl⟩

theorem addFramesGaps_noPose {gd : ℕ → Option GapData} {inv : Bool} {l : List ℕ} {fs fs' : List GFrame} (e : addFramesGaps gd inv l fs = .ok fs') :
    ∀ i ∈ l, ∃ g p, gd i = some g ∧ g.pose = some p := by
  induction l generalizing fs with
  | nil => simp
  | cons j l ih =>
    simp only [addFramesGaps] at e
    cases hj : gd j with
    | none => rw [hj] at e; cases e
    | some d =>
      rw [hj] at e
      simp only at e
      cases hd : d.pose with
      | none => rw [hd] at e; cases e
      | some p =>
        obtain ⟨t, r⟩ := p
        rw [hd] at e
        simp only at e
        cases hk : checkTimestamps d.timestamps (firstLenGaps t) with
        | error x => rw [hk] at e; cases e
        | ok x =>
          rw [hk] at e
          intro i hi
          rcases List.mem_cons.mp hi with rfl | hi
          · exact ⟨d, _, hj, hd⟩
          · exact ih e i hi

theorem walk_route {s : State} {h : List Event} (hr : Reachable s h) {a b : ℕ} (ha : a < s.size) (hb : b < s.size) {l : List ℕ} (hl : Route s a b l) :
    ∃ up down, s.walk a (.byObj b) = .ok (up, down) ∧ l = up ++ down := by
  obtain ⟨c, la, lb, h1, h2, h3, rfl⟩ := hl
  refine ⟨la, lb.reverse, ?_, rfl⟩
  simp only [State.walk, State.resolve]
  exact walk_eq hr.wf ha hb h1 h2 h3

/-- If a frame on the route has no pose, the lookup raises. -/
theorem C98_no_pose {s : State} {h : List Event} (hr : Reachable s h) (ha : a < s.size) (hb : b < s.size) {l : List ℕ} (hl : Route s a b l) {i : ℕ}
    (hi : i ∈ l) (hn : ∀ g, gd i = some g → g.pose = none) : ∃ e, s.lookupTransformGaps sqg gd a (.byObj b) = .error e := by
  obtain ⟨up, down, hw, rfl⟩ := walk_route hr ha hb hl
  simp only [State.lookupTransformGaps, bind, hw, Except.bind]
  cases e1 : addFramesGaps gd false up [] with
  | error x => exact ⟨x, rfl⟩
  | ok fs =>
    simp only
    cases e2 : addFramesGaps gd true down fs with
    | error x => exact ⟨x, rfl⟩
    | ok fs' =>
      exfalso
      rcases List.mem_append.mp hi with hi | hi
      · obtain ⟨g, p, h1, h2⟩ := addFramesGaps_noPose e1 i hi
        rw [hn g h1] at h2; cases h2
      · obtain ⟨g, p, h1, h2⟩ := addFramesGaps_noPose e2 i hi
        rw [hn g h1] at h2; cases h2

/-- Whatever the missing entries were: the lookup returns, with the same timestamps, and every number it returns is the number that the
lookup in the complete tree returns. -/
theorem C98_sound (hsq : SquadLaw sq) (hg : SquadGapsLaw sq sqg) (hr : Reachable s' h') (ha : a < s.size) (hb : b < s.size)
    (hc : CompletesTree s gd s') (hp : PathAll s' a b (FrameOk true s')) {t : Arr Vec} {r : Arr Quat} {ts : Option (List ℝ)}
    (e : s'.lookupTransform sq a (.byObj b) = .ok (t, r, ts)) :
    ∃ tg rg, s.lookupTransformGaps sqg gd a (.byObj b) = .ok (tg, rg, ts) ∧ Rows Fits tg t ∧ Rows FitsQ rg r := by
  obtain ⟨l, hl⟩ := route_exists hp
  obtain ⟨gs, fs, ts', out', hfit, _, hgood, _, ho, e', eg⟩ := lookup_gaps (sqg := sqg) hsq hr ha hb hc hl hp
  rw [e] at e'
  cases e'
  obtain ⟨out, ho', h1, h2⟩ := transLoopGaps_sound hg hfit hgood (acc := (initTranslationGaps ts, .one (some 1))) (init_rows ts)
    (.one fun x hx => by cases hx; rfl) ho
  exact ⟨out.1, out.2, by rw [eg, ho'], h1, h2⟩

theorem fits_complete {g : GVec} {v : Vec} (h : Fits g v) (hc : Complete g) : g = fun j => some (v j) := by
  obtain ⟨w, rfl⟩ := complete_known hc
  funext k
  rw [h k _ rfl]

theorem fitsQ_known {g : Option Quat} {q : Quat} (h : FitsQ g q) (hc : g ≠ none) : g = some q := by
  obtain ⟨w, rfl⟩ := Option.ne_none_iff_exists'.mp hc
  rw [h _ rfl]

theorem rows_get {α β : Type} {R : α → β → Prop} {l : List α} {l' : List β} (h : List.Forall₂ R l l') {k : ℕ} {b : β} (hb : l'[k]? = some b) :
    ∃ a, l[k]? = some a ∧ R a b := by
  induction h generalizing k with
  | nil => simp at hb
  | cons h1 _ ih =>
    cases k with
    | zero => cases hb; exact ⟨_, rfl, h1⟩
    | succ k => simpa using ih (by simpa using hb)

/-- If nothing is missing near `τ` in the frames on the way, then nothing is missing in the result for `τ`. -/
theorem C98_near (hsq : SquadLaw sq) (hgl : SquadGapsLaw sq sqg) (hr : Reachable s' h') (ha : a < s.size) (hb : b < s.size)
    (hc : CompletesTree s gd s') (hp : PathAll s' a b (FrameOk true s')) {l : List ℕ} (hl : Route s' a b l) {τ : ℝ}
    (hn : ∀ i ∈ l, ∀ g, gd i = some g → NoGapsNear τ g) {A : Pose} (hA : GivesAt (s'.lookupTransform sq a (.byObj b)) τ A) :
    GapsGiveAt (s.lookupTransformGaps sqg gd a (.byObj b)) τ A := by
  obtain ⟨gs, fs, ts, out', hfit, hgs, hgood, had, ho, e', eg⟩ := lookup_gaps (sqg := sqg) hsq hr ha hb hc hl hp
  obtain ⟨out, ho', h1, h2⟩ := transLoopGaps_sound hgl hfit hgood (acc := (initTranslationGaps ts, .one (some 1))) (init_rows ts)
    (.one fun x hx => by cases hx; rfl) ho
  rw [ho'] at eg
  simp only at eg
  have hng : ∀ g ∈ gs, NoGapsNear τ ⟨some (g.translation, g.rotation), g.timestamps, g.discrete⟩ := by
    clear hfit ho' eg
    have : ∀ {l gs}, List.Forall₂ (fun i (g : GFrame) => gd i = some ⟨some (g.translation, g.rotation), g.timestamps, g.discrete⟩) l gs →
        (∀ i ∈ l, ∀ g, gd i = some g → NoGapsNear τ g) →
        ∀ g ∈ gs, NoGapsNear τ ⟨some (g.translation, g.rotation), g.timestamps, g.discrete⟩ := by
      intro l gs h
      induction h with
      | nil => simp
      | cons h1 _ ih =>
        intro hn g hg
        rcases List.mem_cons.mp hg with rfl | hg
        · exact hn _ (by simp) _ h1
        · exact ih (fun i hi => hn i (by simp [hi])) g hg
    exact this hgs hn
  rcases hA with hA | ⟨tl, rl, tsl, k, hA, hk, ht, hrk⟩
  · rw [hA] at e'
    simp only [Except.ok.injEq, Prod.mk.injEq] at e'
    obtain ⟨e1, e2, rfl⟩ := e'
    have hk := transLoopGaps_known (k := 0) (sqg := sqg) (ts := none) (gs := gs) (fun g hg t r e => by
      have := hng g hg
      obtain ⟨gt, gr, gts, gdisc, ginv⟩ := g
      simp only at this
      cases this with
      | static c1 c2 => cases e; exact ⟨c1, c2⟩
      | discrete => cases e
      | continuous => cases e) (acc := (initTranslationGaps none, .one (some 1)))
      (show KnownAt 0 Complete (.one fun _ => some 0) from fun k h => by cases h)
      (show KnownAt 0 (fun q : Option Quat => q ≠ none) (.one (some 1)) from fun h => by cases h) ho'
    obtain ⟨o1, o2⟩ := out
    rw [← e1] at h1
    rw [← e2] at h2
    simp only at h1 h2 hk eg
    cases h1 with
    | one h1 =>
    cases h2 with
    | one h2 =>
    left
    rw [eg, fits_complete h1 hk.1, fitsQ_known h2 hk.2]
  · rw [hA] at e'
    simp only [Except.ok.injEq, Prod.mk.injEq] at e'
    obtain ⟨e1, e2, rfl⟩ := e'
    have hτ : τ ∈ tsl := List.mem_of_getElem? hk
    have hkn := transLoopGaps_known (k := k) (sqg := sqg) (ts := some tsl) (gs := gs) (fun g hg t r e => by
      obtain ⟨j, hj⟩ := List.mem_iff_getElem?.mp hg
      obtain ⟨b, _⟩ := List.getElem?_eq_some_iff.mp hj
      have hf : fs[j]? = some (fs[j]'(by rw [← hfit.length_eq]; exact b)) := List.getElem?_eq_getElem _
      exact transformFromFrameGaps_known hgl (forall₂_row hfit hj hf) (hgood _ (List.mem_of_getElem? hf)) hk
        (had tsl rfl τ hτ _ (List.mem_of_getElem? hf)) (hng g hg) e) (acc := (initTranslationGaps (some tsl), .one (some 1)))
      (show KnownAt k Complete (.many [fun _ => some 0]) from fun a ha => by
        have : a = fun _ => some 0 := by
          rcases ha with ha | ha
          · simpa using List.mem_of_getElem? ha
          · cases ha; rfl
        subst this
        intro k h; cases h)
      (show KnownAt k (fun q : Option Quat => q ≠ none) (.one (some 1)) from fun h => by cases h) ho'
    obtain ⟨o1, o2⟩ := out
    rw [← e1] at h1
    rw [← e2] at h2
    simp only at h1 h2 hkn eg
    cases h1 with
    | @many tg _ h1 =>
    cases h2 with
    | @many rg _ h2 =>
    obtain ⟨g, hg1, hg2⟩ := rows_get h1 ht
    obtain ⟨q, hq1, hq2⟩ := rows_get h2 hrk
    right
    refine ⟨tg, rg, tsl, k, eg, hk, ?_, ?_⟩
    · rw [hg1, fits_complete hg2 (hkn.1 g (.inl hg1))]
    · rw [hq1, fitsQ_known hq2 (hkn.2 q (.inl hq1))]

theorem rows_get' {α β : Type} {R : α → β → Prop} {l : List α} {l' : List β} (h : List.Forall₂ R l l') {k : ℕ} {a : α} (ha : l[k]? = some a) :
    ∃ b, l'[k]? = some b ∧ R a b := by
  induction h generalizing k with
  | nil => simp at ha
  | cons h1 _ ih =>
    cases k with
    | zero => cases ha; exact ⟨_, rfl, h1⟩
    | succ k => simpa using ih (by simpa using ha)

/-- A transformation that is returned without missing entries is the transformation of every completion. -/
theorem C98_certain (hsq : SquadLaw sq) (hg : SquadGapsLaw sq sqg) (hr : Reachable s' h') (ha : a < s.size) (hb : b < s.size)
    (hc : CompletesTree s gd s') (hp : PathAll s' a b (FrameOk true s')) {τ : ℝ} {A : Pose}
    (hA : GapsGiveAt (s.lookupTransformGaps sqg gd a (.byObj b)) τ A) : GivesAt (s'.lookupTransform sq a (.byObj b)) τ A := by
  obtain ⟨l, hl⟩ := route_exists hp
  obtain ⟨gs, fs, ts, out', _, _, _, _, _, e', _⟩ := lookup_gaps (sqg := sqg) hsq hr ha hb hc hl hp
  obtain ⟨tg, rg, eg, h1, h2⟩ := C98_sound hsq hg hr ha hb hc hp e'
  obtain ⟨o1, o2⟩ := out'
  rcases hA with hA | ⟨tl, rl, tsl, k, hA, hk, ht, hrk⟩
  · rw [eg] at hA
    cases hA
    simp only at h1 h2 e'
    cases h1 with
    | one h1 =>
    cases h2 with
    | one h2 =>
    left
    rw [e', h2 _ rfl]
    congr 3
    funext j
    exact h1 j _ rfl
  · rw [eg] at hA
    cases hA
    simp only at h1 h2 e'
    cases h1 with
    | many h1 =>
    cases h2 with
    | many h2 =>
    obtain ⟨v, hv, hv'⟩ := rows_get' h1 ht
    obtain ⟨q, hq, hq'⟩ := rows_get' h2 hrk
    refine .inr ⟨_, _, _, k, e', hk, ?_, ?_⟩
    · rw [hv]; congr 1; funext j; exact hv' j _ rfl
    · rw [hq, hq' _ rfl]

end

end RBM.Props
