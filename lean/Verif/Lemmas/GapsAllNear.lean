import Verif.Lemmas.GapsAllMatch
import Verif.Lemmas.RotateBcast
import Verif.Props.GapsAll

/-!
Which entries of a transformed array with missing entries are not missing (C101).
-/

namespace RBM

open Spec RBM.Props

theorem moveaxis_last {α : Type} (a : ND α) {p : ℕ} (h : a.shape.length = p + 1) :
    (a.moveaxis p p).shape = a.shape ∧ ∀ idx, idx.length = p + 1 → (a.moveaxis p p).get idx = a.get idx :=
  ⟨moveL_last (by omega), fun idx hi => by simp only [ND.moveaxis]; rw [moveL_last (by omega)]⟩

theorem cross_known {r v : Fin 3 → Option ℝ} (hr : ∀ j, r j ≠ none) (hv : ∀ j, v j ≠ none) (k : Fin 3) : crossNan2 r v k ≠ none := by
  obtain ⟨r, rfl⟩ := complete_known hr
  obtain ⟨v, rfl⟩ := complete_known hv
  simp [crossNan2, nan2]

theorem npCrossAll_known {q : ND (Option Quat)} {r w C : ND (Option ℝ)} {S : List ℕ} {axis : ℤ} (hr : r.shape = q.shape ++ [3])
    (hrk : ∀ i k, q.get i ≠ none → r.get (i ++ [k]) ≠ none)
    (hw : w.shape = S ++ [3]) (hp : normAxis axis (S.length + 1) = some S.length) (hb : Spec.Broadcast q.shape S S)
    (e : npCrossAll r w axis = .ok C) :
    C.shape = S ++ [3] ∧ ∀ i, Valid S i → q.get (ND.bidx q.shape i) ≠ none → (∀ k < 3, w.get (i ++ [k]) ≠ none) → ∀ k, C.get (i ++ [k]) ≠ none := by
  have hl := hb.length
  have hwd : w.ndim = S.length + 1 := by simp [ND.ndim, hw]
  obtain ⟨m1, m2⟩ := moveaxis_last w (p := S.length) (by simp [hw])
  rw [hw] at m1
  simp only [npCrossAll, hwd, hp, Nat.add_sub_cancel] at e
  simp only [crossLastAll, m1, hr, List.getLast?_concat, List.dropLast_concat, and_self, if_true, hb.bshape] at e
  simp only [ND.ndim, List.length_append, List.length_singleton, hp, Nat.add_sub_cancel, m1, hr] at e
  cases e
  refine ⟨moveL_last (by simp), fun i hi hq hwk k => ?_⟩
  have hil := hi.length
  simp only [ND.moveaxis]
  rw [moveL_last (l := i ++ [k]) (by simp [hil])]
  simp only [List.dropLast_concat, List.getLast?_concat, Option.getD_some]
  refine cross_known (fun j => ?_) (fun j => ?_) _
  · rw [show i.length - q.shape.length = 0 by omega, List.drop_zero]
    exact hrk _ _ hq
  · rw [show i.length - S.length = 0 by omega, List.drop_zero, bidx_valid hi]
    rw [moveL_last (l := i ++ [j.val]) (by simp [hil])]
    exact hwk _ j.2

theorem swap_last_known {α : Type} {a c : ND α} {Q : List ℕ} {axis : ℤ} (ha : a.shape = Q ++ [1]) (hp : normAxis axis (Q.length + 1) = some Q.length)
    (e : a.swapaxesZ (-1) axis = .ok c) : c.shape = Q ++ [1] ∧ ∀ i k, i.length = Q.length → c.get (i ++ [k]) = a.get (i ++ [k]) := by
  have hn : a.ndim = Q.length + 1 := by simp [ND.ndim, ha]
  simp only [ND.swapaxesZ, hn, normAxis_neg_one (Nat.succ_pos _), hp, Nat.add_sub_cancel] at e
  cases e
  refine ⟨?_, fun i k hi => ?_⟩
  · simp only [ND.swapaxes, ha]; exact swapL_self (by simp)
  · show a.get (swapL Q.length Q.length (i ++ [k])) = _
    rw [swapL_self (by simp [hi])]

theorem nan2_known {f : ℝ → ℝ → ℝ} {x y : Option ℝ} (hx : x ≠ none) (hy : y ≠ none) : nan2 f x y ≠ none := by
  obtain ⟨x, rfl⟩ := Option.ne_none_iff_exists'.mp hx
  obtain ⟨y, rfl⟩ := Option.ne_none_iff_exists'.mp hy
  simp [nan2]

theorem bop_known {α β γ : Type} {f : α → β → γ} {a : ND α} {b : ND β} {c : ND γ} {u : List ℕ} (h : Spec.Broadcast a.shape b.shape u)
    (e : ND.bop f a b = .ok c) : c.shape = u ∧ ∀ idx, c.get idx = f (a.bget idx) (b.bget idx) := by
  rw [h.bop f] at e
  cases e
  exact ⟨rfl, fun _ => rfl⟩

theorem Spec.Broadcast.refl (s : List ℕ) : Spec.Broadcast s s s := by
  induction s with
  | nil => exact .nil
  | cons n s ih => exact .same n ih

/-- Entry `i ++ [0]` of an array with a last axis of length one, next to one with last axis `n`. -/
theorem bget_col {α : Type} {a : ND α} {Q S i : List ℕ} {k : ℕ} (ha : a.shape = Q ++ [1]) (hl : Q.length = S.length) (hi : Valid S i) :
    a.bget (i ++ [k]) = a.get (ND.bidx Q i ++ [0]) := by
  have hil := hi.length
  rw [bget_same a (by simp [ND.ndim, ha, hil, hl]), ha, bidx_append (by omega)]
  simp [ND.bidx]

theorem formulaAll_known {q : ND (Option Quat)} {v C : ND (Option ℝ)} {S : List ℕ} {axis : ℤ} (hw : v.shape = S ++ [3])
    (hp : normAxis axis (S.length + 1) = some S.length) (hb : Spec.Broadcast q.shape S S) (e : rotateArrayFormulaAll q v axis = .ok C) :
    C.shape = S ++ [3] ∧ ∀ i, Valid S i → q.get (ND.bidx q.shape i) ≠ none → (∀ k < 3, v.get (i ++ [k]) ≠ none) →
      ∀ k < 3, C.get (i ++ [k]) ≠ none := by
  have hl := hb.length.1
  simp only [rotateArrayFormulaAll, bind] at e
  obtain ⟨s, e1, e⟩ := bind_ok' e
  obtain ⟨m, e2, e⟩ := bind_ok' e
  obtain ⟨x, e3, e⟩ := bind_ok' e
  obtain ⟨sv, e4, e⟩ := bind_ok' e
  obtain ⟨sum, e5, e⟩ := bind_ok' e
  obtain ⟨d, e6, e⟩ := bind_ok' e
  obtain ⟨d2, e7, e⟩ := bind_ok' e
  have hpq : normAxis axis (q.shape.length + 1) = some q.shape.length := by rw [hl]; exact hp
  obtain ⟨s1, s2⟩ := swap_last_known rfl hpq e1
  obtain ⟨m1, m2⟩ := swap_last_known rfl hpq e2
  have hrk : ∀ i k, q.get i ≠ none → ((⟨q.shape ++ [3], fun idx => (q.get idx.dropLast).map fun x => qcomp x (idx.getLast?.getD 0 + 1)⟩ :
      ND (Option ℝ))).get (i ++ [k]) ≠ none := fun i k hq => by simpa using hq
  obtain ⟨x1, x2⟩ := npCrossAll_known (q := q) rfl hrk hw hp hb e3
  obtain ⟨sv1, sv2⟩ := bop_known (u := S ++ [3]) (by rw [s1, hw]; exact hb.append (.left 3 .nil)) e4
  obtain ⟨u1, u2⟩ := bop_known (u := S ++ [3]) (by rw [sv1, x1]; exact .refl _) e5
  obtain ⟨d1, d3⟩ := npCrossAll_known (q := q) rfl hrk u1 hp hb e6
  obtain ⟨c1, c2⟩ := bop_known (u := S ++ [3]) (by rw [m1, show (d.map fun x : Option ℝ => x.map fun x => 2 * x).shape = S ++ [3] from d1]; exact (hb.append (.left 3 .nil)).symm) e7
  obtain ⟨g1, g2⟩ := bop_known (u := S ++ [3]) (by rw [hw, c1]; exact .refl _) e
  refine ⟨g1, fun i hi hq hv k hk => ?_⟩
  have hil := hi.length
  have hval : ∀ k < 3, Valid (S ++ [3]) (i ++ [k]) := fun k hk => valid_snoc_mk hi hk
  have hs : ∀ k, s.bget (i ++ [k]) ≠ none := fun k => by
    rw [bget_col s1 hl hi, s2 _ _ (by rw [bidx_length (by omega)])]
    simpa using hq
  have hm : ∀ k, m.bget (i ++ [k]) ≠ none := fun k => by
    rw [bget_col m1 hl hi, m2 _ _ (by rw [bidx_length (by omega)])]
    simpa using hq
  have hbv : ∀ {a : ND (Option ℝ)}, a.shape = S ++ [3] → ∀ k < 3, a.get (i ++ [k]) ≠ none → a.bget (i ++ [k]) ≠ none := fun {a} ha k hk h => by
    rwa [bget_valid a (by rw [ha]; exact hval k hk)]
  have hsv : ∀ k < 3, sv.get (i ++ [k]) ≠ none := fun k hk => by
    rw [sv2]; exact nan2_known (hs k) (hbv hw k hk (hv k hk))
  have hsum : ∀ k < 3, sum.get (i ++ [k]) ≠ none := fun k hk => by
    rw [u2]; exact nan2_known (hbv sv1 k hk (hsv k hk)) (hbv x1 k hk (x2 i hi hq hv k))
  have hd := d3 i hi hq hsum
  rw [g2]
  refine nan2_known (hbv hw k hk (hv k hk)) (hbv c1 k hk ?_)
  rw [c2]
  refine nan2_known ?_ (hm k)
  rw [bget_valid _ (by rw [show (d.map fun x : Option ℝ => x.map fun x => 2 * x).shape = S ++ [3] from d1]; exact hval k hk)]
  simpa [ND.map] using hd k

theorem resampleNum_known {sqg : SquadGapsFn} {a c : ND (Option ℝ)} {n : ℕ} {rest tail : List ℕ} {ats ts : List ℝ} (hs : a.shape = n :: rest)
    (h4 : (n :: rest).getLast? ≠ some 4) (hi : StrictlyIncreasing ats) (hl : 2 ≤ ats.length) {K : ℕ} {τ : ℝ} (hk : ts[K]? = some τ) (hin : InRange ats τ)
    (hrow : ∀ j, Close ats 1 τ j → a.get (j :: tail) ≠ none) (e : resampleArrayAll sqg a (some ats) (some ts) = .ok c) :
    c.shape = ts.length :: rest ∧ c.get (K :: tail) ≠ none := by
  simp only [resampleArrayAll, hs] at e
  rw [if_neg h4] at e
  by_cases h1 : ats.length ≠ n
  · rw [if_pos h1] at e; cases e
  · rw [if_neg h1] at e
    push Not at h1
    by_cases h2 : anyOutside ats ts
    · rw [if_pos h2] at e; cases e
    · rw [if_neg h2] at e
      cases hc : collect (ts.map (interpLoc ats)) with
      | error x => rw [hc] at e; cases e
      | ok locs =>
        rw [hc] at e
        cases e
        refine ⟨rfl, ?_⟩
        obtain ⟨b, hb⟩ := List.getElem?_eq_some_iff.mp hk
        have hloc := collect_getD hc (i := K) (by simpa using b) (0, 0)
        rw [List.getElem?_map, hk] at hloc
        simp only [Option.map_some, Option.some.injEq] at hloc
        have hτ : ts.getD K 0 = τ := by rw [List.getD_eq_getElem?_getD, hk]; rfl
        obtain ⟨l1, l2⟩ := interpLoc_lt hloc
        have key := interpValGaps_complete (ys := (List.range n).map fun i => (fun _ => a.get (i :: tail) : GVec)) hi hl (by simp [h1]) hin (by
          intro j hj g hg k
          rw [List.getElem?_map] at hg
          cases hx : (List.range n)[j]? with
          | none => rw [hx] at hg; cases hg
          | some y =>
            rw [hx] at hg; cases hg
            obtain ⟨bj, ej⟩ := List.getElem?_eq_some_iff.mp hx
            simp only [List.getElem_range] at ej
            subst ej
            exact hrow _ hj) hloc 0
        have gd : ∀ {β : Type} (f : ℕ → β) (d : β) (m : ℕ), m < n → ((List.range n).map f).getD m d = f m := by
          intro β f d m hm
          rw [List.getD_eq_getElem?_getD, List.getElem?_map, List.getElem?_range hm]; rfl
        simp only [interpValGaps] at key
        rw [gd _ _ _ (h1 ▸ l1), gd _ _ _ (h1 ▸ l2)] at key
        simp only [List.getD_cons_zero, List.drop_succ_cons, List.drop_zero, hτ]
        rw [gd _ _ _ (h1 ▸ l1), gd _ _ _ (h1 ▸ l2)]
        exact key

theorem resampleQuat_known {sq : SquadFn} {sqg : SquadGapsFn} (hg : SquadGapsLaw sq sqg) {a c : ND (Option ℝ)} {n : ℕ} {rest tail : List ℕ} {ats ts : List ℝ}
    (hs : a.shape = n :: (rest ++ [4])) (hi : StrictlyIncreasing ats) (hl : 2 ≤ ats.length) (hn : ats.length = n) {K : ℕ} {τ : ℝ} (hk : ts[K]? = some τ)
    (hin : InRange ats τ) (hrow : ∀ j, Close ats 2 τ j → ∀ k < 4, a.get (j :: (tail ++ [k])) ≠ none)
    (e : resampleArrayAll sqg a (some ats) (some ts) = .ok c) :
    c.shape = ts.length :: (rest ++ [4]) ∧ ∀ k, c.get (K :: (tail ++ [k])) ≠ none := by
  obtain ⟨b, hb⟩ := List.getElem?_eq_some_iff.mp hk
  have hτ : ts.getD K 0 = τ := by rw [List.getD_eq_getElem?_getD, hk]; rfl
  have h4 : (n :: (rest ++ [4])).getLast? = some 4 := by rw [← List.cons_append, List.getLast?_concat]
  simp only [resampleArrayAll, hs, asQuatArrayGaps, h4, if_true] at e
  rw [if_neg (by rintro (h | rfl); · omega
                 · simp at b), if_neg (by rintro (h | h); · omega
                                          · simp at h)] at e
  cases e
  refine ⟨by simp [asFloatArrayGaps], fun k => ?_⟩
  simp only [asFloatArrayGaps, ← List.cons_append, List.dropLast_concat, List.getD_cons_zero, List.drop_succ_cons, List.drop_zero, hτ]
  refine fun h => hg.near _ ats τ (by simp [hn]) hl hi hin (fun j hj hx => ?_) (Option.map_eq_none_iff.mp h)
  rw [List.getElem?_map] at hx
  cases hy : (List.range n)[j]? with
  | none => rw [hy] at hx; cases hx
  | some y =>
    rw [hy] at hx
    obtain ⟨bj, ej⟩ := List.getElem?_eq_some_iff.mp hy
    simp only [List.getElem_range] at ej
    subst ej
    simp only [Option.map_some, Option.some.injEq] at hx
    have hr := hrow _ hj
    obtain ⟨w0, e0⟩ := Option.ne_none_iff_exists'.mp (hr 0 (by omega))
    obtain ⟨w1, e1⟩ := Option.ne_none_iff_exists'.mp (hr 1 (by omega))
    obtain ⟨w2, e2⟩ := Option.ne_none_iff_exists'.mp (hr 2 (by omega))
    obtain ⟨w3, e3⟩ := Option.ne_none_iff_exists'.mp (hr 3 (by omega))
    simp only [List.cons_append, e0, e1, e2, e3, quatGaps] at hx
    cases hx

/-- The poses and the resampled array at a time near which nothing is missing. -/
theorem matchAll_known {sq : SquadFn} {sqg : SquadGapsFn} {s s' : State} {gd : ℕ → Option GapData} {h' : List Event} {a b : ℕ}
    (hsq : SquadLaw sq) (hg : SquadGapsLaw sq sqg) (hr : Reachable s' h') (ha : a < s.size) (hb : b < s.size)
    (hc : CompletesTree s gd s') {l : List ℕ} (hl : Route s' a b l) (hne : l ≠ []) (hp : PathAll s' a b (FrameOk true s'))
    {w : ND (Option ℝ)} {w' : ND ℝ} {ats ts : List ℝ} (hw : w.shape = w'.shape)
    {m' : Matcher} {t' : Arr Vec} {r' : Arr Quat}
    (e1 : s'.getMatcher a (.byObj b) [⟨w', some ats⟩] = .ok m') (e2 : m'.getTransformation sq = .ok (t', r', some ts))
    {K : ℕ} {τ : ℝ} (hk : ts[K]? = some τ) (hn : ∀ i ∈ l, ∀ g, gd i = some g → NoGapsNear τ g)
    {t : Arr GVec} {r : Arr (Option Quat)} {x : ND (Option ℝ)} (e : s.matchAllGaps sqg gd a (.byObj b) w (some ats) = .ok (t, r, x, some ts)) :
    InRange ats τ ∧ resampleArrayAll sqg w (some ats) (some ts) = .ok x ∧
      (∃ tl rl, t = .many tl ∧ r = .many rl ∧ tl.length = ts.length ∧ rl.length = ts.length ∧ Complete (tl.getD K fun _ => none) ∧ rl.getD K none ≠ none) := by
  obtain ⟨data, rfl⟩ := hc.tree
  obtain ⟨c, la, lb, hcm, hla, hlb, hok, rfl⟩ := pathAll_route hr.wf hp hl
  have hg' : ∀ i ∈ la ++ lb, ∃ d, ({ s with data := data } : State).data i = some d ∧ GoodData d := by simpa [FrameOk] using hok
  have hck : ∀ i ∈ la ++ lb, Checked { s with data := data } i := fun i hi => by
    obtain ⟨d, h1, h2⟩ := hg' i hi; exact GoodData.checked h1 h2
  obtain ⟨fa, fb, em, h1, h2⟩ := getMatcher_ok (s := { s with data := data }) hr.wf ha hb hcm hla hlb hck [⟨w', some ats⟩]
  obtain ⟨ga, ea, h3⟩ := addFramesGaps_ok hc.data (inv := false) (l := la) (fun i hi => hck i (by simp [hi])) []
  obtain ⟨gb, eb, h4⟩ := addFramesGaps_ok hc.data (inv := true) (l := lb.reverse) (fun i hi => hck i (by simp at hi; simp [hi])) ga
  rw [List.nil_append] at ea
  have hfit : List.Forall₂ GFits (ga ++ gb) (fa ++ fb) := List.rel_append (gfits_of hc.data h3 h1) (gfits_of hc.data h4 h2)
  have hgf : ∀ f ∈ fa ++ fb, GoodData f.data := by
    have key : ∀ {inv l fs}, List.Forall₂ (FrameOf { s with data := data } inv) l fs →
        (∀ i ∈ l, ∃ d, ({ s with data := data } : State).data i = some d ∧ GoodData d) → ∀ f ∈ fs, GoodData f.data := by
      intro inv l fs hf
      induction hf with
      | nil => simp
      | cons hx _ ih =>
        intro hl f hf
        rcases List.mem_cons.mp hf with rfl | hf
        · obtain ⟨d, g1, g2⟩ := hl _ (List.mem_cons_self ..)
          rw [hx.1] at g1; cases g1; exact g2
        · exact ih (fun i hi => hl i (List.mem_cons_of_mem _ hi)) f hf
    intro f hf
    rcases List.mem_append.mp hf with hf | hf
    · exact key h1 (fun i hi => hg' i (by simp [hi])) f hf
    · exact key h2 (fun i hi => hg' i (by simp at hi; simp [hi])) f hf
  have hng : ∀ g ∈ ga ++ gb, NoGapsNear τ ⟨some (g.translation, g.rotation), g.timestamps, g.discrete⟩ := by
    have key : ∀ {inv l gs}, List.Forall₂ (fun i (g : GFrame) => gd i = some ⟨some (g.translation, g.rotation), g.timestamps, g.discrete⟩ ∧ g.inverse = inv) l gs →
        (∀ i ∈ l, ∀ g, gd i = some g → NoGapsNear τ g) → ∀ g ∈ gs, NoGapsNear τ ⟨some (g.translation, g.rotation), g.timestamps, g.discrete⟩ := by
      intro inv l gs hx
      induction hx with
      | nil => simp
      | cons hx _ ih =>
        intro hl g hg
        rcases List.mem_cons.mp hg with rfl | hg
        · exact hl _ (List.mem_cons_self ..) _ hx.1
        · exact ih (fun i hi => hl i (List.mem_cons_of_mem _ hi)) g hg
    intro g hg
    rcases List.mem_append.mp hg with hg | hg
    · exact key h3 (fun i hi => hn i (by simp [hi])) g hg
    · exact key h4 (fun i hi => hn i (by simp at hi; simp [hi])) g hg
  have hnef : fa ++ fb ≠ [] := by
    intro h
    have n1 := h1.length_eq
    have n2 := h2.length_eq
    rw [List.append_eq_nil_iff] at h
    rw [h.1] at n1
    rw [h.2] at n2
    simp only [List.length_nil, List.length_reverse] at n1 n2
    exact hne (by rw [List.length_eq_zero_iff.mp n1, List.length_eq_zero_iff.mp n2]; rfl)
  rw [e1] at em
  simp only [addArrays] at em
  cases e4 : (⟨fa ++ fb, []⟩ : Matcher).addArray ⟨w', some ats⟩ with
  | error z => rw [e4] at em; cases em
  | ok m1 =>
    rw [e4] at em
    cases em
    obtain ⟨hm, e5⟩ := addArray_shape (m := ⟨fa ++ fb, []⟩) (n := ⟨(ga ++ gb).map GFrame.stamps, []⟩) (x := ⟨w', some ats⟩) (y := ⟨w.fill, some ats⟩) (by exact hw.symm) rfl e4
    simp only [List.nil_append] at hm e5
    subst hm
    simp only [Matcher.getTransformation, bind] at e2
    obtain ⟨ts0, e6, e2⟩ := bind_ok' e2
    obtain ⟨⟨t0, r0⟩, e7, e2⟩ := bind_ok' e2
    simp only [Pure.pure, Except.pure] at e2
    cases e2
    have e6' : (⟨(ga ++ gb).map GFrame.stamps, [⟨w.fill, some ats⟩]⟩ : Matcher).getTimestamps = .ok (some ts) :=
      (getTimestamps_gaps' hfit (by simp)).trans e6
    have hin := getTimestamps_range e6 ts rfl
    have hτ : τ ∈ ts := List.mem_of_getElem? hk
    have had : ∀ τ ∈ ts, ∀ f ∈ fa ++ fb, Admissible f.data τ := fun τ hτ f hf =>
      admissible_of_continuous (m := ⟨fa ++ fb, [⟨w', some ats⟩]⟩) (hin τ hτ) f hf
    obtain ⟨T, eT, -⟩ := transLoop_good sq hsq ts h1 h2 hgf (fun f hf τ hτ => had τ hτ f hf) hnef
    have e7' := e7
    simp only [initTranslation] at e7'
    rw [eT] at e7'
    cases e7'
    obtain ⟨out, ho, h5, h6⟩ := transLoopGaps_sound hg hfit hgf (acc := (initTranslationGaps (some ts), .one (some 1))) (init_rows (some ts))
      (.one fun x hx => by cases hx; rfl) e7
    have hkn := transLoopGaps_known (k := K) (sqg := sqg) (ts := some ts) (gs := ga ++ gb) (fun g hgm t r e => by
      obtain ⟨j, hj⟩ := List.mem_iff_getElem?.mp hgm
      obtain ⟨bj, _⟩ := List.getElem?_eq_some_iff.mp hj
      have hf : (fa ++ fb)[j]? = some ((fa ++ fb)[j]'(by rw [← hfit.length_eq]; exact bj)) := List.getElem?_eq_getElem _
      exact transformFromFrameGaps_known hg (forall₂_row hfit hj hf) (hgf _ (List.mem_of_getElem? hf)) hk
        (had τ hτ _ (List.mem_of_getElem? hf)) (hng g hgm) e) (acc := (initTranslationGaps (some ts), .one (some 1)))
      (show KnownAt K Complete (.many [fun _ => some 0]) from fun a ha => by
        have : a = fun _ => some 0 := by
          rcases ha with ha | ha
          · simpa using List.mem_of_getElem? ha
          · cases ha; rfl
        subst this
        intro k h; cases h)
      (show KnownAt K (fun q : Option Quat => q ≠ none) (.one (some 1)) from fun h => by cases h) ho
    have hwk : s.walk a (.byObj b) = .ok (la, lb.reverse) := by
      have := walk_eq (s := { s with data := data }) hr.wf ha hb hcm hla hlb
      simp only [State.walk, State.resolve]
      exact this
    simp only [State.matchAllGaps, bind, hwk, Except.bind, ea, eb, e5, e6', ho, Pure.pure, Except.pure] at e
    refine ⟨hin τ hτ ats (by simp [Matcher.continuous]), ?_⟩
    cases hx : resampleArrayAll sqg w (some ats) (some ts) with
    | error z => rw [hx] at e; cases e
    | ok y =>
      rw [hx] at e
      cases e
      obtain ⟨o1, o2⟩ := out
      simp only at h5 h6 hkn
      cases h5 with
      | @many tl _ h5 =>
      cases h6 with
      | @many rl _ h6 =>
      have n1 : tl.length = ts.length := by simpa using h5.length_eq
      have n2 : rl.length = ts.length := by simpa using h6.length_eq
      obtain ⟨bk, _⟩ := List.getElem?_eq_some_iff.mp hk
      refine ⟨rfl, tl, rl, rfl, rfl, n1, n2, hkn.1 _ (.inl ?_), hkn.2 _ (.inl ?_)⟩
      · rw [List.getD_eq_getElem?_getD, List.getElem?_eq_getElem (by omega)]; rfl
      · rw [List.getD_eq_getElem?_getD, List.getElem?_eq_getElem (by omega)]; rfl

theorem expand_gquats (rl : List (Option Quat)) {d : ℕ} (hd : 2 ≤ d) :
    (expandSingletonAxes (ND.ofGQuats (.many rl)) d).shape = rl.length :: (List.replicate (d - 2) 1 ++ [4]) ∧
      ∀ i js k, js.length = d - 2 → (expandSingletonAxes (ND.ofGQuats (.many rl)) d).get (i :: (js ++ [k])) =
        (rl.getD i none).map fun q => qcomp q k := by
  obtain ⟨h1, h2⟩ := expand_iter (ND.ofGQuats (.many rl)) (n := rl.length) (rest := [4]) rfl (d - 2)
  have e : expandSingletonAxes (ND.ofGQuats (.many rl)) d = (ND.expandDims1)^[d - 2] (ND.ofGQuats (.many rl)) := by
    simp [expandSingletonAxes, ND.ndim, ND.ofGQuats]
  rw [e]
  refine ⟨h1, fun i js k hj => ?_⟩
  rw [h2 i js [k] hj]
  simp [ND.ofGQuats]

theorem expand_gvecs (tl : List GVec) {d : ℕ} (hd : 2 ≤ d) :
    (expandSingletonAxes (ND.ofGVecs (.many tl)) d).shape = tl.length :: (List.replicate (d - 2) 1 ++ [3]) ∧
      ∀ i js k, js.length = d - 2 → (expandSingletonAxes (ND.ofGVecs (.many tl)) d).get (i :: (js ++ [k])) =
        tl.getD i (fun _ => none) (Fin.ofNat 3 k) := by
  obtain ⟨h1, h2⟩ := expand_iter (ND.ofGVecs (.many tl)) (n := tl.length) (rest := [3]) rfl (d - 2)
  have e : expandSingletonAxes (ND.ofGVecs (.many tl)) d = (ND.expandDims1)^[d - 2] (ND.ofGVecs (.many tl)) := by
    simp [expandSingletonAxes, ND.ndim, ND.ofGVecs]
  rw [e]
  refine ⟨h1, fun i js k hj => ?_⟩
  rw [h2 i js [k] hj]
  simp [ND.ofGVecs]

theorem swapZ_same {α : Type} {a c : ND α} {i j : ℤ} {p : ℕ} (hi : normAxis i a.ndim = some p) (hj : normAxis j a.ndim = some p)
    (e : a.swapaxesZ i j = .ok c) : c.shape = a.shape ∧ ∀ idx, idx.length = a.shape.length → c.get idx = a.get idx := by
  have hlt := normAxis_lt hi
  simp only [ND.swapaxesZ, hi, hj] at e
  cases e
  exact ⟨swapL_self hlt, fun idx h => by simp only [ND.swapaxes]; rw [swapL_self (by rw [h]; exact hlt)]⟩

theorem broadcast_first (n : ℕ) (rest : List ℕ) : Spec.Broadcast (n :: List.replicate rest.length 1) (n :: rest) (n :: rest) := by
  refine .same n ?_
  induction rest with
  | nil => exact .nil
  | cons m rest ih => exact .left m ih

theorem bidx_first {n K : ℕ} (rest c : List ℕ) (hc : c.length = rest.length) (hK : K < n) :
    ND.bidx (n :: List.replicate rest.length 1) (K :: c) = K :: List.replicate c.length 0 := by
  simp only [ND.bidx]
  rw [← hc, bidx_ones]
  congr 1
  split <;> omega

/-- The orientations of a lookup, as they meet an array of `n :: rest` vectors or quaternions. -/
theorem asQuat_expand {rl : List (Option Quat)} {rest : List ℕ} {x : ND (Option ℝ)} (hx : x.shape = (expandSingletonAxes (ND.ofGQuats (.many rl)) (rest.length + 2)).shape)
    (hg : ∀ idx, idx.length = x.shape.length → x.get idx = (expandSingletonAxes (ND.ofGQuats (.many rl)) (rest.length + 2)).get idx)
    {q : ND (Option Quat)} (e : asQuatArrayGaps x = .ok q) :
    q.shape = rl.length :: List.replicate rest.length 1 ∧ ∀ K (c : List ℕ), c.length = rest.length → rl.getD K none ≠ none →
      q.get (K :: List.replicate c.length 0) ≠ none := by
  obtain ⟨h1, h2⟩ := expand_gquats rl (d := rest.length + 2) (by omega)
  rw [h1] at hx
  simp only [Nat.add_sub_cancel] at hx h2
  have hl : x.shape.getLast? = some 4 := by rw [hx, ← List.cons_append, List.getLast?_concat]
  simp only [asQuatArrayGaps, hl] at e
  cases e
  refine ⟨by simp only [hx, ← List.cons_append, List.dropLast_concat], fun K c hc hk => ?_⟩
  obtain ⟨w, hw⟩ := Option.ne_none_iff_exists'.mp hk
  have key : ∀ k, x.get (K :: List.replicate c.length 0 ++ [k]) = some (qcomp w k) := fun k => by
    rw [hg _ (by rw [hx]; simp [hc]), List.cons_append, h2 _ _ _ (by simp [hc]), hw]; rfl
  simp only [key, quatGaps]
  simp

theorem rotateAll_known {rl : List (Option Quat)} {rest : List ℕ} {x y : ND (Option ℝ)} {axis : ℤ} (hx : x.shape = rl.length :: (rest ++ [3]))
    (hp : normAxis axis (rest.length + 2) = some (rest.length + 1))
    (e : rotateVectorsFAll (expandSingletonAxes (ND.ofGQuats (.many rl)) x.ndim) x axis = .ok y) :
    y.shape = rl.length :: (rest ++ [3]) ∧ ∀ K c, K < rl.length → Valid rest c → rl.getD K none ≠ none →
      (∀ k < 3, x.get (K :: (c ++ [k])) ≠ none) → ∀ k < 3, y.get (K :: (c ++ [k])) ≠ none := by
  have hxd : x.ndim = rest.length + 2 := by simp [ND.ndim, hx]
  rw [hxd] at e
  obtain ⟨h1, h2⟩ := expand_gquats rl (d := rest.length + 2) (by omega)
  simp only [rotateVectorsFAll, bind] at e
  obtain ⟨q1, e1, e⟩ := bind_ok' e
  obtain ⟨q, e2, e⟩ := bind_ok' e
  have hn := normAxis_neg_one (n := (expandSingletonAxes (ND.ofGQuats (.many rl)) (rest.length + 2)).ndim) (by rw [ND.ndim, h1]; simp)
  obtain ⟨s1, s2⟩ := swapZ_same hn hn e1
  obtain ⟨q1s, q1k⟩ := asQuat_expand s1 (fun idx h => s2 idx (by rw [h, s1])) e2
  simp only [rotateVectorsQAll] at e
  rw [if_neg (by simp [ND.ndim, q1s]), hxd, hp] at e
  simp only at e
  split at e
  · cases e
  · split at e
    · cases e
    · cases ef : rotateArrayFormulaAll q x axis with
      | error z => rw [ef] at e; cases e
      | ok R =>
        rw [ef] at e
        simp only at e
        split at e
        · cases e
        · cases e
          obtain ⟨g1, g2⟩ := formulaAll_known (S := rl.length :: rest) (by rw [hx]; rfl) (by simpa using hp) (by rw [q1s]; exact broadcast_first _ _) ef
          refine ⟨g1, fun K c hK hc hk hv k hk3 => ?_⟩
          have := g2 (K :: c) ⟨hK, hc⟩ (by rw [q1s, bidx_first _ _ hc.length hK]; exact q1k K c hc.length hk) (fun k hk => by simpa using hv k hk) k hk3
          simpa using this

theorem addAll_known {tl : List GVec} {rest : List ℕ} {y u : ND (Option ℝ)} (hy : y.shape = tl.length :: (rest ++ [3]))
    (e : ND.bop (nan2 fun x y => x + y) y (expandSingletonAxes (ND.ofGVecs (.many tl)) (rest.length + 2)) = .ok u) :
    u.shape = tl.length :: (rest ++ [3]) ∧ ∀ K c, K < tl.length → Valid rest c → Complete (tl.getD K fun _ => none) →
      ∀ k < 3, y.get (K :: (c ++ [k])) ≠ none → u.get (K :: (c ++ [k])) ≠ none := by
  obtain ⟨h1, h2⟩ := expand_gvecs tl (d := rest.length + 2) (by omega)
  simp only [Nat.add_sub_cancel] at h1 h2
  obtain ⟨u1, u2⟩ := bop_known (u := tl.length :: (rest ++ [3])) (by
    rw [hy, h1, ← List.cons_append, ← List.cons_append]
    exact (broadcast_first _ rest).symm.append (.same 3 .nil)) e
  refine ⟨u1, fun K c hK hc hk k hk3 hyk => ?_⟩
  rw [u2]
  refine nan2_known ?_ ?_
  · rwa [bget_valid y (by rw [hy]; exact ⟨hK, valid_snoc_mk hc hk3⟩)]
  · rw [bget_same _ (by simp [ND.ndim, h1, hc.length]), h1, ← List.cons_append, ← List.cons_append,
      bidx_append (by simp [hc.length]), bidx_first _ _ hc.length hK]
    simp only [ND.bidx, List.cons_append]
    rw [h2 _ _ _ (by simp [hc.length])]
    exact hk _

theorem mulAll_known {rl : List (Option Quat)} {rest : List ℕ} {x x1 z : ND (Option ℝ)} {rq aq pr : ND (Option Quat)} {axis : ℤ}
    (hx : x.shape = rl.length :: (rest ++ [4])) (hp : normAxis axis (rest.length + 2) = some (rest.length + 1))
    (e0 : x.swapaxesZ axis (-1) = .ok x1) (e1 : asQuatArrayGaps (expandSingletonAxes (ND.ofGQuats (.many rl)) (rest.length + 2)) = .ok rq)
    (e2 : asQuatArrayGaps x1 = .ok aq) (e3 : ND.bop mulGaps rq aq = .ok pr) (e4 : (asFloatArrayGaps pr).swapaxesZ (-1) axis = .ok z) :
    z.shape = rl.length :: (rest ++ [4]) ∧ ∀ K c, K < rl.length → Valid rest c → rl.getD K none ≠ none →
      (∀ k < 4, x.get (K :: (c ++ [k])) ≠ none) → ∀ k < 4, z.get (K :: (c ++ [k])) ≠ none := by
  have hneg : normAxis (-1) (rest.length + 2) = some (rest.length + 1) := normAxis_neg_one (n := rest.length + 2) (by omega)
  obtain ⟨q1s, q1k⟩ := asQuat_expand rfl (fun _ _ => rfl) e1
  have hxd : x.ndim = rest.length + 2 := by simp [ND.ndim, hx]
  obtain ⟨s1, s2⟩ := swapZ_same (by rw [hxd]; exact hp) (by rw [hxd]; exact hneg) e0
  rw [hx] at s1
  simp only [asQuatArrayGaps, s1] at e2
  rw [show (rl.length :: (rest ++ [4])).getLast? = some 4 by rw [← List.cons_append, List.getLast?_concat]] at e2
  cases e2
  have hdl : (rl.length :: (rest ++ [4])).dropLast = rl.length :: rest := by rw [← List.cons_append, List.dropLast_concat]
  obtain ⟨p1, p2⟩ := bop_known (u := rl.length :: rest) (by rw [q1s]; simp only [hdl]; exact broadcast_first _ rest) e3
  have hfs : (asFloatArrayGaps pr).shape = rl.length :: (rest ++ [4]) := by simp [asFloatArrayGaps, p1]
  have hfd : (asFloatArrayGaps pr).ndim = rest.length + 2 := by simp [ND.ndim, hfs]
  obtain ⟨z1, z2⟩ := swapZ_same (by rw [hfd]; exact hneg) (by rw [hfd]; exact hp) e4
  refine ⟨z1.trans hfs, fun K c hK hc hk hv k hk4 => ?_⟩
  rw [z2 _ (by rw [hfs]; simp [hc.length])]
  simp only [asFloatArrayGaps, ← List.cons_append, List.dropLast_concat]
  intro hmap
  have hpr := Option.map_eq_none_iff.mp hmap
  rw [p2] at hpr
  refine known_mul ?_ ?_ hpr
  · rw [bget_same _ (by simp [ND.ndim, q1s, hc.length]), q1s, bidx_first _ _ hc.length hK]
    exact q1k K c hc.length hk
  · rw [bget_valid _ (by simp only [hdl]; exact ⟨hK, hc⟩)]
    have hv' : ∀ k < 4, ∃ w, x1.get (K :: c ++ [k]) = some w := fun k hk4 => by
      rw [s2 _ (by rw [hx]; simp [hc.length])]
      exact Option.ne_none_iff_exists'.mp (hv k hk4)
    obtain ⟨w0, f0⟩ := hv' 0 (by omega)
    obtain ⟨w1, f1⟩ := hv' 1 (by omega)
    obtain ⟨w2, f2⟩ := hv' 2 (by omega)
    obtain ⟨w3, f3⟩ := hv' 3 (by omega)
    simp only [f0, f1, f2, f3, quatGaps]
    simp

end RBM
