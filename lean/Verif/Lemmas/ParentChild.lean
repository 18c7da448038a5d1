import Verif.Lemmas.GivesAt
import Verif.Lemmas.Args

namespace RBM

open Spec

theorem nearest_parent {s : State} {i p : ℕ} (h : s.parent i = some p) : NearestCommon s i p p :=
  ⟨.single h, .refl, fun _ _ h => h⟩

theorem nearest_parent' {s : State} {i p : ℕ} (h : s.parent i = some p) : NearestCommon s p i p :=
  ⟨.refl, .single h, fun _ h _ => h⟩

theorem pathTo_parent {s : State} (hw : WF s) {i p : ℕ} (h : s.parent i = some p) : PathTo s.parent p i [i] := by
  refine .up ?_ h .here
  rintro rfl
  exact hw.acyclic i (.single h)

theorem inRange_self {ev : List ℝ} (h : NonDecreasing ev) {τ : ℝ} (hτ : τ ∈ ev) : InRange ev τ := by
  constructor
  · intro x hx
    cases ev with
    | nil => simp at hx
    | cons y ev =>
      simp at hx; subst hx
      rcases List.mem_cons.mp hτ with rfl | hτ
      · exact le_refl _
      · exact (List.pairwise_cons.mp h).1 τ hτ
  · intro x hx
    obtain ⟨l, rfl⟩ : ∃ l, ev = l ++ [x] := by
      rw [List.getLast?_eq_some_iff] at hx; exact hx
    rcases List.mem_append.mp hτ with hτ | hτ
    · exact (List.pairwise_append.mp h).2.2 τ hτ x (by simp)
    · simp at hτ; rw [hτ]

theorem map_of_getElem? {α β} {l : List α} {m : List β} (hl : m.length = l.length) {f : α → β}
    (h : ∀ (k : ℕ) a b, l[k]? = some a → m[k]? = some b → f a = b) : l.map f = m := by
  apply List.ext_getElem?
  intro k
  rw [List.getElem?_map]
  by_cases hk : k < l.length
  · rw [List.getElem?_eq_getElem hk, List.getElem?_eq_getElem (hl ▸ hk)]
    simp only [Option.map_some]
    rw [h k _ _ (List.getElem?_eq_getElem hk) (List.getElem?_eq_getElem (hl ▸ hk))]
  · rw [List.getElem?_eq_none (by omega), List.getElem?_eq_none (by omega)]; rfl

open Classical in
/-- Lookup from a continuous frame to its parent returns the stored samples. -/
theorem lookup_up_continuous (sq : SquadFn) (hsq : SquadLaw sq) {s : State} (hw : WF s) {i p : ℕ}
    (hp : s.parent i = some p) {tr : List Vec} {ro : List Quat} {ev : List ℝ}
    (hd : s.data i = some ⟨some (.many tr, .many ro), some ev, false⟩)
    (hg : GoodData ⟨some (.many tr, .many ro), some ev, false⟩) :
    s.lookupTransform sq i (.byObj p) = .ok (.many tr, .many ro, some ev) ∧
    ∃ T : ℝ → Pose, s.lookupTransform sq p (.byObj i) =
      .ok (.many (ev.map fun τ => (T τ).t), .many (ev.map fun τ => (T τ).r), some ev) ∧
      ∀ (k : ℕ) τ t r, ev[k]? = some τ → tr[k]? = some t → ro[k]? = some r →
        T τ = (⟨t, r⟩ : Pose).inv := by
  have hlt := hw.parent_lt i p hp
  have hstf : stampsOf s false i = some ev := by simp [stampsOf, hd]
  obtain ⟨l1, l2, l3, hs, hun⟩ : tr.length = ev.length ∧ ro.length = ev.length ∧ 2 ≤ ev.length ∧ StrictlyIncreasing ev ∧
      ∀ q ∈ ro, IsUnitQ q := by
    cases hg with | continuous h1 h2 h3 h4 h5 => exact ⟨h1, h2, h3, h4, h5⟩
  have hfilter : ∀ ts, ts = (ev.filter fun t => decide (∀ y ∈ [ev], InRange y t)) → ts = ev := by
    rintro ts rfl
    apply List.filter_eq_self.mpr
    intro τ hτ
    simp only [List.mem_singleton, forall_eq, decide_eq_true_eq]
    exact inRange_self hs.nonDecreasing hτ
  have hpose : ∀ (k : ℕ) τ t r P, ev[k]? = some τ → tr[k]? = some t → ro[k]? = some r →
      PoseOf sq s τ i P → P = ⟨t, r⟩ := by
    rintro k τ t r P h1 h2 h3 ⟨d, hd', hP⟩
    rw [hd] at hd'; cases hd'
    cases hP with
    | continuous hl =>
      rw [hl.knot hs h1 h2, hsq.knot ro ev k r τ l2 l3 hs hun h3 h1]
  constructor
  · rcases lookup_good sq hsq hw hlt.1 hlt.2 (nearest_parent hp) (pathTo_parent hw hp) .here
      (by simp [FrameOk]; exact ⟨_, hd, hg⟩) with ⟨h1, _⟩ | ⟨_, ts, T, e, h2, _, hT⟩
    · simp [hstf] at h1
    · simp only [List.reverse_nil, List.append_nil, List.filterMap_cons, hstf, List.filterMap_nil] at h2
      rcases h2 with ⟨x, xs, hx, hts⟩ | ⟨h, _⟩
      · cases hx
        have := hfilter ts hts
        subst this
        have key : ∀ (k : ℕ) τ t r, ts[k]? = some τ → tr[k]? = some t → ro[k]? = some r → T τ = ⟨t, r⟩ := by
          intro k τ t r h1 h2 h3
          obtain ⟨Pa, Pb, q1, q2, _, q4⟩ := hT τ (List.mem_of_getElem? h1)
          cases q2
          cases q1 with
          | cons hP q1 =>
            cases q1
            rw [q4, hpose k τ t r _ h1 h2 h3 hP]
            simp [chain, Pose.inv, Pose.id, Pose.comp]
        have get : ∀ {α} {l : List α} {k : ℕ} {τ : ℝ}, l.length = ts.length → ts[k]? = some τ → ∃ a, l[k]? = some a := by
          intro α l k τ hl hk
          have := (List.getElem?_eq_some_iff.mp hk).1
          exact ⟨l[k], List.getElem?_eq_getElem _⟩
        rw [e]
        have e1 : (ts.map fun τ => (T τ).t) = tr := map_of_getElem? l1 (by
          intro k τ t h1 h2
          obtain ⟨r, h3⟩ := get l2 h1
          rw [key k τ t r h1 h2 h3])
        have e2 : (ts.map fun τ => (T τ).r) = ro := map_of_getElem? l2 (by
          intro k τ r h1 h3
          obtain ⟨t, h2⟩ := get l1 h1
          rw [key k τ t r h1 h2 h3])
        rw [e1, e2]
      · simp at h
  · rcases lookup_good sq hsq hw hlt.2 hlt.1 (nearest_parent' hp) .here (pathTo_parent hw hp)
      (by simp [FrameOk]; exact ⟨_, hd, hg⟩) with ⟨h1, _⟩ | ⟨_, ts, T, e, h2, _, hT⟩
    · simp [hstf] at h1
    · simp only [List.reverse_singleton, List.nil_append, List.filterMap_cons, hstf, List.filterMap_nil] at h2
      rcases h2 with ⟨x, xs, hx, hts⟩ | ⟨h, _⟩
      · cases hx
        have := hfilter ts hts
        subst this
        refine ⟨T, e, ?_⟩
        intro k τ t r h1 h2 h3
        obtain ⟨Pa, Pb, q1, q2, _, q4⟩ := hT τ (List.mem_of_getElem? h1)
        cases q1
        cases q2 with
        | cons hP q1 =>
          cases q1
          rw [q4, hpose k τ t r _ h1 h2 h3 hP]
          simp [chain]
      · simp at h

/-- Lookup from a discrete frame to its parent: one row per event time, holding the last event. -/
theorem lookup_up_discrete (sq : SquadFn) (hsq : SquadLaw sq) {s : State} (hw : WF s) {i p : ℕ}
    (hp : s.parent i = some p) {tr : List Vec} {ro : List Quat} {ev : List ℝ}
    (hd : s.data i = some ⟨some (.many tr, .many ro), some ev, true⟩)
    (hg : GoodData ⟨some (.many tr, .many ro), some ev, true⟩) :
    ∃ (ts : List ℝ) (T : ℝ → Pose), s.lookupTransform sq i (.byObj p) =
      .ok (.many (ts.map fun τ => (T τ).t), .many (ts.map fun τ => (T τ).r), some ts) ∧
      StrictlyIncreasing ts ∧ (∀ x, x ∈ ts ↔ x ∈ ev) ∧
      ∀ τ ∈ ts, ∃ k : ℕ, IsCurrentEvent ev τ k ∧ tr[k]? = some (T τ).t ∧ ro[k]? = some (T τ).r := by
  have hlt := hw.parent_lt i p hp
  have hstf : stampsOf s false i = none := by simp [stampsOf, hd]
  have hstt : stampsOf s true i = some ev := by simp [stampsOf, hd]
  rcases lookup_good sq hsq hw hlt.1 hlt.2 (nearest_parent hp) (pathTo_parent hw hp) .here
      (by simp [FrameOk]; exact ⟨_, hd, hg⟩) with ⟨_, h1, _⟩ | ⟨_, ts, T, e, h2, _, hT⟩
  · simp [hstt] at h1
  · simp only [List.reverse_nil, List.append_nil, List.filterMap_cons, hstf, hstt, List.filterMap_nil] at h2
    rcases h2 with ⟨x, xs, hx, hts⟩ | ⟨_, rfl⟩
    · simp at hx
    · refine ⟨_, T, e, npUnique_sorted _, fun x => by rw [mem_npUnique]; simp, ?_⟩
      intro τ hτ
      obtain ⟨Pa, Pb, q1, q2, _, q4⟩ := hT τ hτ
      cases q2
      cases q1 with
      | cons hP q1 =>
        cases q1
        obtain ⟨d, hd', hP⟩ := hP
        rw [hd] at hd'; cases hd'
        cases hP with
        | @discrete _ _ _ _ k t r hk h1 h2 =>
          refine ⟨k, hk, ?_, ?_⟩
          · rw [q4, h1]; simp [chain, Pose.inv, Pose.id, Pose.comp]
          · rw [q4, h2]; simp [chain, Pose.inv, Pose.id, Pose.comp]

/-- Static frame and its parent. -/
theorem lookup_static_parent (sq : SquadFn) {s : State} (hw : WF s) {i p : ℕ}
    (hp : s.parent i = some p) {P : Pose} (hd : StaticPoseOf s i P) (hP : P.r ≠ 0) :
    s.lookupTransform sq i (.byObj p) = .ok (.one P.t, .one P.r, none) ∧
    s.lookupTransform sq p (.byObj i) = .ok (.one P.inv.t, .one P.inv.r, none) := by
  have hlt := hw.parent_lt i p hp
  have h1 := lookup_static sq hw hlt.1 hlt.2 (nearest_parent hp) (pathTo_parent hw hp) .here
    (Pa := [P]) (Pb := []) (.cons ⟨hd, hP⟩ .nil) .nil
  have h2 := lookup_static sq hw hlt.2 hlt.1 (nearest_parent' hp) .here (pathTo_parent hw hp)
    (Pa := []) (Pb := [P]) .nil (.cons ⟨hd, hP⟩ .nil)
  rw [h1, h2]
  simp [chain, Pose.inv, Pose.id, Pose.comp]

end RBM
