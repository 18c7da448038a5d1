import Verif.Spec.Nearby
import Verif.Lemmas.Equivalent
import Verif.Lemmas.TransformLaws

/-!
Poses and changes of coordinates depend on the samples near a time only (C97).
-/

namespace RBM

open Spec

theorem Spec.Matters.here {xs : List ℝ} {n : ℕ} {τ : ℝ} {k : ℕ} (h : xs[k]? = some τ) : Matters xs n τ k := ⟨τ, h, .inl rfl⟩

/-- Sample times do not lie strictly between two consecutive sample times. -/
theorem not_mem_between {xs : List ℝ} (hs : StrictlyIncreasing xs) {k : ℕ} {x0 x1 τ : ℝ} (h0 : xs[k]? = some x0)
    (h1 : xs[k + 1]? = some x1) (l0 : x0 < τ) (l1 : τ < x1) : τ ∉ xs := by
  intro h
  obtain ⟨j, hj⟩ := List.mem_iff_getElem?.mp h
  obtain ⟨a1, a2⟩ := List.getElem?_eq_some_iff.mp h0
  obtain ⟨b1, b2⟩ := List.getElem?_eq_some_iff.mp h1
  obtain ⟨c1, c2⟩ := List.getElem?_eq_some_iff.mp hj
  have hm := List.pairwise_iff_getElem.mp hs
  rcases lt_trichotomy j k with hlt | rfl | hlt
  · have := hm j k c1 a1 hlt; rw [c2, a2] at this; linarith
  · rw [c2] at a2; linarith
  · rcases Nat.lt_or_ge (k + 1) j with h2 | h2
    · have := hm (k + 1) j b1 c1 h2; rw [c2, b2] at this; linarith
    · have : j = k + 1 := by omega
      subst this; rw [c2] at b2; linarith

theorem linInterp_near {ev : List ℝ} {tr tr' : List Vec} (hs : StrictlyIncreasing ev) (hl : tr'.length = ev.length) {τ : ℝ}
    (hag : ∀ k, Matters ev 1 τ k → tr[k]? = tr'[k]?) {t : Vec} (h : IsLinInterp ev tr τ t) : IsLinInterp ev tr' τ t := by
  obtain ⟨k, x0, x1, y0, y1, e0, e1, f0, f1, hlt, hle0, hle1, rfl⟩ := h
  obtain ⟨b0, _⟩ := List.getElem?_eq_some_iff.mp e0
  obtain ⟨b1, _⟩ := List.getElem?_eq_some_iff.mp e1
  have g0 : ∃ z, tr'[k]? = some z := ⟨_, List.getElem?_eq_getElem (by omega)⟩
  have g1 : ∃ z, tr'[k + 1]? = some z := ⟨_, List.getElem?_eq_getElem (by omega)⟩
  rcases eq_or_lt_of_le hle0 with rfl | hlt0
  · obtain ⟨z, hz⟩ := g1
    refine ⟨k, x0, x1, y0, z, e0, e1, ?_, hz, hlt, le_refl _, hle1, by simp⟩
    rw [← hag k (.here e0)]; exact f0
  rcases eq_or_lt_of_le hle1 with rfl | hlt1
  · obtain ⟨z, hz⟩ := g0
    have : (τ - x0) / (τ - x0) = 1 := div_self (by linarith)
    refine ⟨k, x0, τ, z, y1, e0, e1, hz, ?_, hlt, hle0, le_refl _, by rw [this]; simp⟩
    rw [← hag (k + 1) (.here e1)]; exact f1
  · have hn := not_mem_between hs e0 e1 hlt0 hlt1
    have m0 : Matters ev 1 τ k := ⟨x0, e0, .inr ⟨hn, .inl ⟨hlt0, fun y hy => by rw [e1] at hy; cases hy; exact hlt1⟩⟩⟩
    have m1 : Matters ev 1 τ (k + 1) := ⟨x1, e1, .inr ⟨hn, .inr ⟨hlt1, fun j y hj hy => by
      have : j = k := by omega
      subst this; rw [e0] at hy; cases hy; exact hlt0⟩⟩⟩
    exact ⟨k, x0, x1, y0, y1, e0, e1, by rw [← hag _ m0]; exact f0, by rw [← hag _ m1]; exact f1, hlt, hle0, hle1, rfl⟩

/-- Recordings that agree in the samples that matter for `τ` have the same pose at `τ`. -/
theorem agreeNear_pose {sq : SquadFn} (hsq : SquadLaw sq) (hn : SquadNear sq) {τ : ℝ} {d d' : FrameData} (h : AgreeNear τ d d')
    (hg : GoodData d) (hg' : GoodData d') {P : Pose} (hP : IsPoseAt sq d τ P) : IsPoseAt sq d' τ P := by
  cases h with
  | static => exact hP
  | discrete hd =>
    cases hP with
    | discrete h1 h2 h3 => exact .discrete h1 (by rw [← (hd _ h1).1]; exact h2) (by rw [← (hd _ h1).2]; exact h3)
  | @continuous tr ro tr' ro' ev ht hr =>
    cases hg with
    | continuous a1 a2 a3 a4 a5 =>
    cases hg' with
    | continuous b1 b2 b3 b4 b5 =>
    cases hP with
    | @continuous _ _ _ _ t h1 =>
      have hin := isLinInterp_inRange a4 h1
      have e : sq ro ev τ = sq ro' ev τ := by
        by_cases hm : τ ∈ ev
        · obtain ⟨k, hk⟩ := List.mem_iff_getElem?.mp hm
          obtain ⟨bk, _⟩ := List.getElem?_eq_some_iff.mp hk
          have hq : ro[k]? = some ro[k] := List.getElem?_eq_getElem (by omega)
          rw [hsq.knot ro ev k _ τ a2 a3 a4 a5 hq hk, hsq.knot ro' ev k _ τ b2 a3 a4 b5 ((hr k (.here hk)).symm.trans hq) hk]
        · exact hn ro ro' ev τ a2 b2 a3 a4 a5 b5 hin hm hr
      rw [e]
      exact .continuous (linInterp_near a4 b1 ht h1)

theorem Spec.AgreeNear.symm {τ : ℝ} {d d' : FrameData} (h : AgreeNear τ d d') : AgreeNear τ d' d := by
  cases h with
  | static => exact .static
  | discrete h => exact .discrete fun k hk => ⟨(h k hk).1.symm, (h k hk).2.symm⟩
  | continuous h1 h2 => exact .continuous (fun k hk => (h1 k hk).symm) fun k hk => (h2 k hk).symm

theorem Spec.Rerecorded.symm {s s' : State} (h : Rerecorded s s') : Rerecorded s' s :=
  ⟨h.size.symm, h.parent.symm, fun i d => (h.stamps i d).symm⟩

theorem Spec.Rerecorded.nearest {s s' : State} (h : Rerecorded s s') {a b c : ℕ} (hc : NearestCommon s a b c) : NearestCommon s' a b c := by
  have e : ParentOf s' = ParentOf s := by funext i p; simp only [ParentOf, h.parent]
  simp only [NearestCommon, AncestorOrSelf, e] at hc ⊢
  exact hc

theorem Spec.Rerecorded.route {s s' : State} (h : Rerecorded s s') {a b : ℕ} {l : List ℕ} (hl : Route s a b l) : Route s' a b l := by
  obtain ⟨c, la, lb, hc, h1, h2, rfl⟩ := hl
  exact ⟨c, la, lb, h.nearest hc, by rw [h.parent]; exact h1, by rw [h.parent]; exact h2, rfl⟩

theorem agreeNear_refl {τ : ℝ} {d : FrameData} (hg : GoodData d) : AgreeNear τ d d := by
  cases hg with
  | static => exact .static
  | discrete => exact .discrete fun k _ => ⟨rfl, rfl⟩
  | continuous => exact .continuous (fun k _ => rfl) fun k _ => rfl

/-- A sample does not matter for times on or beyond its `n`-th neighbour, nor at other sample times. -/
theorem not_matters {ev : List ℝ} (hs : StrictlyIncreasing ev) {n j : ℕ} {τ : ℝ} (hn : 1 ≤ n)
    (hτ : (∃ i x, i + n ≤ j ∧ ev[i]? = some x ∧ τ ≤ x) ∨ (∃ i x, j + n ≤ i ∧ ev[i]? = some x ∧ x ≤ τ) ∨
      (∃ i, i ≠ j ∧ ev[i]? = some τ)) : ¬ Matters ev n τ j := by
  have mono : ∀ {i k : ℕ} {x y : ℝ}, ev[i]? = some x → ev[k]? = some y → i < k → x < y := by
    intro i k x y h1 h2 hik
    obtain ⟨a1, a2⟩ := List.getElem?_eq_some_iff.mp h1
    obtain ⟨b1, b2⟩ := List.getElem?_eq_some_iff.mp h2
    have := List.pairwise_iff_getElem.mp hs i k a1 b1 hik
    rwa [a2, b2] at this
  have monoLe : ∀ {i k : ℕ} {x y : ℝ}, ev[i]? = some x → ev[k]? = some y → i ≤ k → x ≤ y := by
    intro i k x y h1 h2 hik
    rcases Nat.lt_or_ge i k with h | h
    · exact (mono h1 h2 h).le
    · obtain rfl : i = k := by omega
      rw [h1] at h2; cases h2; exact le_refl _
  rintro ⟨x, hx, hm⟩
  rcases hτ with ⟨i, y, hi, hy, hle⟩ | ⟨i, y, hi, hy, hle⟩ | ⟨i, hi, hy⟩
  · have hxy := mono hy hx (by omega)
    rcases hm with rfl | ⟨_, ⟨h1, _⟩ | ⟨_, h2⟩⟩
    · linarith
    · linarith
    · obtain ⟨b, _⟩ := List.getElem?_eq_some_iff.mp hx
      have hz : ev[j - n]? = some ev[j - n] := List.getElem?_eq_getElem (by omega)
      have h3 := h2 (j - n) _ (by omega) hz
      have := monoLe hy hz (by omega)
      linarith
  · have hxy := mono hx hy (by omega)
    rcases hm with rfl | ⟨_, ⟨_, h2⟩ | ⟨h1, _⟩⟩
    · linarith
    · obtain ⟨b, _⟩ := List.getElem?_eq_some_iff.mp hy
      have hz : ev[j + n]? = some ev[j + n] := List.getElem?_eq_getElem (by omega)
      have h3 := h2 _ hz
      have := monoLe hz hy (by omega)
      linarith
    · linarith
  · rcases hm with rfl | ⟨h0, _⟩
    · rcases Nat.lt_or_gt_of_ne hi with h | h
      · exact lt_irrefl _ (mono hy hx h)
      · exact lt_irrefl _ (mono hx hy h)
    · exact h0 (List.mem_of_getElem? hy)

theorem poses_near {sq : SquadFn} {s s' : State} {τ : ℝ} (hsq : SquadLaw sq) (hn : SquadNear sq) {l : List ℕ} {Ps : List Pose}
    (hok : ∀ i ∈ l, FrameOk true s i) (hok' : ∀ i ∈ l, FrameOk true s' i)
    (hag : ∀ i ∈ l, ∀ d d', s.data i = some d → s'.data i = some d' → AgreeNear τ d d')
    (h : List.Forall₂ (PoseOf sq s τ) l Ps) : List.Forall₂ (PoseOf sq s' τ) l Ps := by
  induction h with
  | nil => exact .nil
  | @cons i Q l Ps hQ _ ih =>
    refine .cons ?_ (ih (fun i hi => hok i (by simp [hi])) (fun i hi => hok' i (by simp [hi])) fun i hi => hag i (by simp [hi]))
    obtain ⟨d, hd, hg⟩ := frameOk_true.mp (hok i (by simp))
    obtain ⟨d', hd', hg'⟩ := frameOk_true.mp (hok' i (by simp))
    obtain ⟨d0, hd0, hQ⟩ := hQ
    rw [hd] at hd0; cases hd0
    exact ⟨d', hd', agreeNear_pose hsq hn (hag i (by simp) d d' hd hd') hg hg' hQ⟩

/-- Changes of coordinates at a time near which the recordings agree are the same. -/
theorem transformAt_near {sq : SquadFn} {s s' : State} {a b : ℕ} {l : List ℕ} {τ : ℝ} (hsq : SquadLaw sq) (hn : SquadNear sq)
    (hw : WF s) (hw' : WF s') (hre : Rerecorded s s')
    (hp : PathAll s a b (FrameOk true s)) (hp' : PathAll s' a b (FrameOk true s')) (hl : Route s a b l)
    (hag : ∀ i ∈ l, ∀ d d', s.data i = some d → s'.data i = some d' → AgreeNear τ d d') {A : Pose} (hA : IsTransformAt sq s a b τ A) :
    IsTransformAt sq s' a b τ A := by
  obtain ⟨c, la, lb, hc, hla, hlb, hok⟩ := hp
  obtain ⟨c2, la2, lb2, hc2, hla2, hlb2, rfl⟩ := hl
  have := hc.unique hw hc2
  subst this
  obtain rfl := hla.unique hla2
  obtain rfl := hlb.unique hlb2
  obtain ⟨c', la', lb', hc', hla', hlb', hok'⟩ := hp'
  have := (hre.nearest hc).unique hw' hc'
  subst this
  rw [hre.parent] at hla' hlb'
  obtain rfl := hla.unique hla'
  obtain rfl := hlb.unique hlb'
  obtain ⟨⟨Pa, Pb, p1, p2, p3, p4⟩, _⟩ := hA.chainAt hw (fun _ => hsq) hc hla hlb hok
  exact ChainAt.isTransformAt hc' (by rw [hre.parent]; exact hla) (by rw [hre.parent]; exact hlb)
    ⟨Pa, Pb, poses_near hsq hn (fun i hi => hok i (by simp [hi])) (fun i hi => hok' i (by simp [hi])) (fun i hi => hag i (by simp [hi])) p1,
      poses_near hsq hn (fun i hi => hok i (by simp [hi])) (fun i hi => hok' i (by simp [hi])) (fun i hi => hag i (by simp [hi])) p2, p3, p4⟩

/-- The timestamps of a lookup depend on the timestamps of the frames only. -/
theorem lookup_rerecorded {sq : SquadFn} {s s' : State} {a b : ℕ} (hsq : SquadLaw sq)
    (hw : WF s) (hw' : WF s') (ha : a < s.size) (hb : b < s.size) (hre : Rerecorded s s')
    (hp : PathAll s a b (FrameOk true s)) (hp' : PathAll s' a b (FrameOk true s')) {t : Arr Vec} {r : Arr Quat} {ts : Option (List ℝ)}
    (he : s.lookupTransform sq a (.byObj b) = .ok (t, r, ts)) : ∃ t' r', s'.lookupTransform sq a (.byObj b) = .ok (t', r', ts) := by
  obtain ⟨c, la, lb, hc, hla, hlb, hok⟩ := hp
  obtain ⟨c', la', lb', hc', hla', hlb', hok'⟩ := hp'
  have := (hre.nearest hc).unique hw' hc'
  subst this
  rw [hre.parent] at hla' hlb'
  obtain rfl := hla.unique hla'
  obtain rfl := hlb.unique hlb'
  have hst : ∀ disc, stampsOf s' disc = stampsOf s disc := fun disc => funext fun i => hre.stamps i disc
  have h2 := lookup_good sq hsq hw' (by rw [hre.size]; exact ha) (by rw [hre.size]; exact hb) hc' (by rw [hre.parent]; exact hla) (by rw [hre.parent]; exact hlb) hok'
  simp only [hst] at h2
  rcases lookup_good sq hsq hw ha hb hc hla hlb hok with ⟨h1, h1', Pa, Pb, _, _, e⟩ | ⟨h1, ts1, T, e, h3, _, _⟩
  · rw [he] at e
    simp only [Except.ok.injEq, Prod.mk.injEq] at e
    obtain ⟨-, -, rfl⟩ := e
    rcases h2 with ⟨_, _, Qa, Qb, _, _, e'⟩ | ⟨g1, _⟩
    · exact ⟨_, _, e'⟩
    · rcases g1 with g1 | g1
      · exact absurd h1 g1
      · exact absurd h1' g1
  · rw [he] at e
    simp only [Except.ok.injEq, Prod.mk.injEq] at e
    obtain ⟨-, -, rfl⟩ := e
    rcases h2 with ⟨g1, g1', _⟩ | ⟨g1, ts2, T', e', g3, _, _⟩
    · rcases h1 with h1 | h1
      · exact absurd g1 h1
      · exact absurd g1' h1
    · have : ts2 = ts1 := by
        rcases h3 with ⟨x, xs, k1, k2⟩ | ⟨k1, k2⟩
        · rcases g3 with ⟨x', xs', k5, k6⟩ | ⟨k5, k6⟩
          · rw [k1] at k5
            obtain ⟨rfl, rfl⟩ := List.cons.inj k5
            rw [k6, k2]
            exact List.filter_congr fun t _ => decide_eq_decide.mpr (by rw [hst])
          · rw [k1] at k5; simp at k5
        · rcases g3 with ⟨x', xs', k5, k6⟩ | ⟨k5, k6⟩
          · rw [k1] at k5; simp at k5
          · rw [k6, k2]
      subst this
      exact ⟨_, _, e'⟩

end RBM
