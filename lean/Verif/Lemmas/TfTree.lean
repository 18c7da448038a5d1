import Verif.Props.Transformer

/-!
The buffer of a tree of frames is one that tf2 accepts, and its edges are the poses of the frames.
-/

namespace RBM

open RBM.Spec RBM.Ros RBM.Props

/-- What a message in the buffer says. -/
structure MsgOf (s : State) (i p : ℕ) (d : FrameData) (e : Bool × TransformStamped) : Prop where
  parent : s.parent i = some p
  data : s.data i = some d
  good : GoodData d
  child : e.2.childFrameId = s.name i
  frame : e.2.header.frameId = s.name p
  sample : (e.1 = true ∧ d.timestamps = none ∧ ∃ t r disc, d = ⟨some (.one t, .one r), none, disc⟩ ∧ msgPose e.2 = ⟨t, r⟩) ∨
    (e.1 = false ∧ ∃ tl rl, ∃ ns : List ℕ, ∃ (disc : Bool) (k : ℕ) (t : Vec) (r : Quat), d = ⟨some (.many tl, .many rl), some (ns.map fun n : ℕ => (n : ℝ)), disc⟩ ∧
      ns[k]? = some e.2.header.stamp ∧ tl[k]? = some t ∧ rl[k]? = some r ∧ msgPose e.2 = ⟨t, r⟩)

theorem tree_parent {s : State} {r i : ℕ} (hi : InTree s r i) (hne : i ≠ r) : ∃ p, s.parent i = some p ∧ InTree s r p := by
  rcases Relation.ReflTransGen.cases_head hi with rfl | ⟨p, hp, h⟩
  · exact absurd rfl hne
  · exact ⟨p, hp, h⟩

/-- The messages of a frame below the root. -/
theorem frameMsgs_of {s : State} {r : ℕ} (ht : TfTree s r) {i : ℕ} (hi : InTree s r i) (hne : i ≠ r) :
    ∃ ms p d, FrameMsgs s i ms ∧ s.parent i = some p ∧ InTree s r p ∧ ms ≠ [] ∧ s.data i = some d ∧ (∀ e ∈ ms, MsgOf s i p d e) ∧
      ms.Pairwise fun e e' => e.1 = false ∧ e'.1 = false ∧ e.2.header.stamp < e'.2.header.stamp := by
  obtain ⟨p, hp, hpt⟩ := tree_parent hi hne
  obtain ⟨d, hd, hg⟩ := ht.good i hi hne
  have moving : ∀ tl rl ev disc, d = ⟨some (.many tl, .many rl), some ev, disc⟩ → tl.length = ev.length → rl.length = ev.length → ev ≠ [] →
      ∃ ms p d, FrameMsgs s i ms ∧ s.parent i = some p ∧ InTree s r p ∧ ms ≠ [] ∧ s.data i = some d ∧ (∀ e ∈ ms, MsgOf s i p d e) ∧
      ms.Pairwise fun e e' => e.1 = false ∧ e'.1 = false ∧ e.2.header.stamp < e'.2.header.stamp := by
    rintro tl rl ev disc rfl h1 h2 h3
    obtain ⟨ns, rfl, hs⟩ := ht.stamps i _ ev hi hd rfl
    rw [List.length_map] at h1 h2
    have hn : ns ≠ [] := fun e => h3 (by rw [e]; rfl)
    let ms : List (Bool × TransformStamped) := (tl.zip (rl.zip ns)).map fun x => (false, poseMsg (s.name p) (s.name i) x.2.2 x.1 x.2.1)
    have hlen : ms.length = ns.length := by simp [ms, h1, h2]
    have hget : ∀ (k n : ℕ) t q, ns[k]? = some n → tl[k]? = some t → rl[k]? = some q → ms[k]? = some (false, poseMsg (s.name p) (s.name i) n t q) := by
      intro k n t q a b c
      obtain ⟨a1, a2⟩ := List.getElem?_eq_some_iff.mp a
      obtain ⟨b1, b2⟩ := List.getElem?_eq_some_iff.mp b
      obtain ⟨c1, c2⟩ := List.getElem?_eq_some_iff.mp c
      rw [List.getElem?_eq_some_iff]
      refine ⟨by omega, ?_⟩
      simp only [ms, List.getElem_map, List.getElem_zip, a2, b2, c2]
    refine ⟨ms, p, _, Or.inr ⟨p, hp, Or.inr ⟨tl, rl, ns, disc, hd, h1, h2, hn, hlen, hget⟩⟩, hp, hpt, ?_, hd, ?_, ?_⟩
    · intro e
      rw [e] at hlen
      exact hn (List.length_eq_zero_iff.mp hlen.symm)
    · intro e he
      obtain ⟨k, hk, hke⟩ := List.getElem_of_mem he
      have hk' : k < ns.length := by omega
      have := hget k ns[k] (tl[k]'(by omega)) (rl[k]'(by omega)) (by simp) (by simp) (by simp)
      rw [List.getElem?_eq_getElem hk, hke] at this
      have this := Option.some.inj this
      subst this
      exact ⟨hp, hd, hg, rfl, rfl, Or.inr ⟨rfl, tl, rl, ns, disc, k, _, _, rfl, List.getElem?_eq_getElem hk', List.getElem?_eq_getElem (by omega),
        List.getElem?_eq_getElem (by omega), msgPose_poseMsg _ _ _ _ _⟩⟩
    · rw [List.pairwise_iff_getElem] at hs ⊢
      intro j k hj hk hjk
      have ej := hget j ns[j] (tl[j]'(by omega)) (rl[j]'(by omega)) (by simp) (by simp) (by simp)
      have ek := hget k ns[k] (tl[k]'(by omega)) (rl[k]'(by omega)) (by simp) (by simp) (by simp)
      rw [List.getElem?_eq_getElem hj] at ej
      rw [List.getElem?_eq_getElem hk] at ek
      rw [Option.some.inj ej, Option.some.inj ek]
      exact ⟨rfl, rfl, hs j k (by omega) (by omega) hjk⟩
  cases hg with
  | @static t q hu =>
    refine ⟨_, p, _, Or.inr ⟨p, hp, Or.inl ⟨t, q, _, hd, rfl⟩⟩, hp, hpt, by simp, hd, ?_, by simp⟩
    intro e he
    rw [List.mem_singleton] at he
    subst he
    exact ⟨hp, hd, .static hu, rfl, rfl, Or.inl ⟨rfl, rfl, t, q, _, rfl, msgPose_poseMsg _ _ _ _ _⟩⟩
  | discrete h1 h2 h3 h4 h5 => exact moving _ _ _ _ rfl h1 h2 h3
  | continuous h1 h2 h3 h4 h5 => exact moving _ _ _ _ rfl h1 h2 (fun e => by rw [e] at h3; simp at h3)

theorem frameMsgs_root {s : State} {r : ℕ} (ht : TfTree s r) : FrameMsgs s r [] := by
  obtain ⟨d, hd, hts⟩ := ht.rootData
  exact Or.inl ⟨ht.root, rfl, d, hd, by rw [hts]; simp⟩

/-- The messages of a frame are determined. -/
theorem frameMsgs_unique {s : State} {i : ℕ} {ms ms' : List (Bool × TransformStamped)} (h : FrameMsgs s i ms) (h' : FrameMsgs s i ms') : ms = ms' := by
  rcases h with ⟨h1, rfl, -⟩ | ⟨p, hp, h⟩
  · rcases h' with ⟨-, rfl, -⟩ | ⟨p, hp, -⟩
    · rfl
    · rw [h1] at hp; cases hp
  · rcases h' with ⟨h1, -⟩ | ⟨p', hp', h'⟩
    · rw [h1] at hp; cases hp
    · have : p = p' := by rw [hp] at hp'; exact Option.some.inj hp'
      subst this
      rcases h with ⟨t, r, disc, hd, rfl⟩ | ⟨tl, rl, ns, disc, hd, h1, h2, h3, h4, h5⟩
      · rcases h' with ⟨t', r', disc', hd', rfl⟩ | ⟨tl', rl', ns', disc', hd', -⟩
        · rw [hd] at hd'
          cases hd'
          rfl
        · rw [hd] at hd'
          cases hd'
      · rcases h' with ⟨t', r', disc', hd', rfl⟩ | ⟨tl', rl', ns', disc', hd', h1', h2', h3', h4', h5'⟩
        · rw [hd] at hd'
          cases hd'
        · rw [hd] at hd'
          have hd' := Option.some.inj hd'
          simp only [FrameData.mk.injEq, Option.some.injEq, Prod.mk.injEq, Arr.many.injEq] at hd'
          obtain ⟨⟨rfl, rfl⟩, hns, -⟩ := hd'
          have : ns = ns' := List.map_injective_iff.mpr Nat.cast_injective hns
          subst this
          apply List.ext_getElem?
          intro k
          by_cases hk : k < ns.length
          · rw [h5 k ns[k] (tl[k]'(by omega)) (rl[k]'(by omega)) (by simp) (by simp) (by simp),
              h5' k ns[k] (tl[k]'(by omega)) (rl[k]'(by omega)) (by simp) (by simp) (by simp)]
          · rw [List.getElem?_eq_none (by omega), List.getElem?_eq_none (by omega)]

theorem forall₂_mem_left {α β : Type} {R : α → β → Prop} {l : List α} {m : List β} (h : List.Forall₂ R l m) {x : α} (hx : x ∈ l) :
    ∃ y ∈ m, R x y := by
  induction h with
  | nil => simp at hx
  | cons h1 _ ih =>
    rcases List.mem_cons.mp hx with rfl | hx
    · exact ⟨_, by simp, h1⟩
    · obtain ⟨y, hy, h⟩ := ih hx
      exact ⟨y, by simp [hy], h⟩

theorem forall₂_mem_right {α β : Type} {R : α → β → Prop} {l : List α} {m : List β} (h : List.Forall₂ R l m) {y : β} (hy : y ∈ m) :
    ∃ x ∈ l, R x y := by
  induction h with
  | nil => simp at hy
  | cons h1 _ ih =>
    rcases List.mem_cons.mp hy with rfl | hy
    · exact ⟨_, by simp, h1⟩
    · obtain ⟨x, hx, h⟩ := ih hy
      exact ⟨x, by simp [hx], h⟩

/-- The buffer of a tree. -/
structure TreeBuffer (s : State) (r : ℕ) (b : TfBuffer) : Prop where
  /-- Every message belongs to a frame below the root. -/
  from_frame : ∀ e ∈ b.msgs, ∃ i p d, InTree s r i ∧ i ≠ r ∧ InTree s r p ∧ MsgOf s i p d e
  /-- All messages of such frames are there. -/
  to_frame : ∀ i, InTree s r i → i ≠ r → ∃ ms, FrameMsgs s i ms ∧ ms ≠ [] ∧ ∀ e ∈ ms, e ∈ b.msgs
  order : b.msgs.Pairwise fun e e' => e.2.childFrameId = e'.2.childFrameId → e.1 = false ∧ e'.1 = false ∧ e.2.header.stamp < e'.2.header.stamp
  cache : CacheTimeFor s (InTree s r) b.cacheTime

theorem flatten_order {s : State} {r : ℕ} (ht : TfTree s r) {l : List ℕ} {mss : List (List (Bool × TransformStamped))}
    (h : List.Forall₂ (FrameMsgs s) l mss) (hn : l.Nodup) (hl : ∀ i ∈ l, InTree s r i) :
    mss.flatten.Pairwise fun e e' => e.2.childFrameId = e'.2.childFrameId → e.1 = false ∧ e'.1 = false ∧ e.2.header.stamp < e'.2.header.stamp := by
  have own : ∀ i ms, InTree s r i → FrameMsgs s i ms → (∀ e ∈ ms, e.2.childFrameId = s.name i) ∧
      ms.Pairwise fun e e' => e.1 = false ∧ e'.1 = false ∧ e.2.header.stamp < e'.2.header.stamp := by
    intro i ms hi hms
    by_cases hir : i = r
    · subst hir
      have := frameMsgs_unique hms (frameMsgs_root ht)
      subst this
      simp
    · obtain ⟨ms', p, d, h1, -, -, -, -, h5, h6⟩ := frameMsgs_of ht hi hir
      have := frameMsgs_unique hms h1
      subst this
      exact ⟨fun e he => (h5 e he).child, h6⟩
  induction h with
  | nil => simp
  | @cons i ms l mss h1 h2 ih =>
    rw [List.flatten_cons, List.pairwise_append]
    obtain ⟨hni, hn⟩ := List.nodup_cons.mp hn
    have hi := hl i (by simp)
    refine ⟨(by refine List.Pairwise.imp ?_ (own i ms hi h1).2; intro _ _ h _; exact h), ih hn fun j hj => hl j (by simp [hj]), ?_⟩
    intro e he e' he' hc
    exfalso
    obtain ⟨ms', hms', he'⟩ := List.mem_flatten.mp he'
    obtain ⟨j, hj, hjm⟩ := forall₂_mem_right h2 hms'
    have hjt := hl j (by simp [hj])
    rw [(own i ms hi h1).1 e he, (own j ms' hjt hjm).1 e' he'] at hc
    have := ht.distinct i j hi hjt hc
    subst this
    exact hni hj

theorem treeBuffer {s : State} {r : ℕ} (ht : TfTree s r) {h : List Event} (hr : Reachable s h) {rf : ℕ} (hrf : InTree s r rf) (hsz : rf < s.size) :
    ∃ b, fromReferenceFrame s rf = .ok b ∧ TreeBuffer s r b := by
  have hok : ∀ i, InTree s r i → ∃ ms, FrameMsgs s i ms := by
    intro i hi
    by_cases hir : i = r
    · subst hir; exact ⟨_, frameMsgs_root ht⟩
    · obtain ⟨ms, -, -, h, -⟩ := frameMsgs_of ht hi hir
      exact ⟨ms, h⟩
  obtain ⟨b, frames, mss, h1, h2, h3, h4, h5, h6⟩ := C58_messages hr hrf hsz ht.root hok
  refine ⟨b, h1, ?_, ?_, ?_, h6⟩
  · intro e he
    rw [h5] at he
    obtain ⟨ms, hms, he⟩ := List.mem_flatten.mp he
    obtain ⟨i, hi, hfm⟩ := forall₂_mem_right h4 hms
    have hit := (h3 i).mp hi
    by_cases hir : i = r
    · subst hir
      have := frameMsgs_unique hfm (frameMsgs_root ht)
      subst this
      simp at he
    · obtain ⟨ms', p, d, g1, g2, g3, g4, g5, g6, -⟩ := frameMsgs_of ht hit hir
      have := frameMsgs_unique hfm g1
      subst this
      exact ⟨i, p, d, hit, hir, g3, g6 e he⟩
  · intro i hi hir
    obtain ⟨ms, hms, hfm⟩ := forall₂_mem_left h4 ((h3 i).mpr hi)
    obtain ⟨ms', p, d, g1, g2, g3, g4, -⟩ := frameMsgs_of ht hi hir
    have := frameMsgs_unique hfm g1
    subst this
    exact ⟨ms, hfm, g4, fun e he => by rw [h5]; exact List.mem_flatten.mpr ⟨ms, hms, he⟩⟩
  · rw [h5]
    exact flatten_order ht h4 h2 fun i hi => (h3 i).mp hi

theorem pathReverse_parent {s : State} (h : WF s) {i p : ℕ} (hp : s.parent i = some p) : (s.pathReverse p).length < (s.pathReverse i).length := by
  obtain ⟨hi, hps⟩ := h.parent_lt i p hp
  have h1 := h.pathReverse hi
  have h2 : RootPath s.parent i (i :: s.pathReverse p) := .step hp (h.pathReverse hps)
  rw [h1.unique h2]
  simp

open Classical in
/-- Depth of a named frame. -/
noncomputable def nameDepth (s : State) (r : ℕ) (x : String) : ℕ :=
  if h : ∃ i, InTree s r i ∧ s.name i = some x then (s.pathReverse h.choose).length else 0

theorem nameDepth_eq {s : State} {r : ℕ} (ht : TfTree s r) {i : ℕ} (hi : InTree s r i) {x : String} (hx : s.name i = some x) :
    nameDepth s r x = (s.pathReverse i).length := by
  have h : ∃ i, InTree s r i ∧ s.name i = some x := ⟨i, hi, hx⟩
  rw [nameDepth, dif_pos h, ht.distinct _ i h.choose_spec.1 hi (h.choose_spec.2.trans hx.symm)]

theorem MsgOf.unit {s : State} {i p : ℕ} {d : FrameData} {e : Bool × TransformStamped} (h : MsgOf s i p d e) : IsUnitQ (msgPose e.2).r := by
  rcases h.sample with ⟨-, -, t, r, disc, rfl, hm⟩ | ⟨-, tl, rl, ns, disc, k, t, r, rfl, -, -, hr, hm⟩
  · rw [hm]
    have := h.good
    cases this with
    | static hu => exact hu
  · rw [hm]
    have := h.good
    cases this with
    | discrete h1 h2 h3 h4 h5 => exact h5 r (List.mem_of_getElem? hr)
    | continuous h1 h2 h3 h4 h5 => exact h5 r (List.mem_of_getElem? hr)

theorem le_last_of_pairwise {l : List ℕ} (h : l.Pairwise fun a b => a < b) {x y z : ℕ} (hx : x ∈ l) (hy : l.head? = some y) (hz : l.getLast? = some z) :
    y ≤ x ∧ x ≤ z := by
  obtain ⟨k, hk, rfl⟩ := List.getElem_of_mem hx
  rw [List.head?_eq_getElem?] at hy
  rw [List.getLast?_eq_getElem?] at hz
  obtain ⟨h1, rfl⟩ := List.getElem?_eq_some_iff.mp hy
  obtain ⟨h2, rfl⟩ := List.getElem?_eq_some_iff.mp hz
  rw [List.pairwise_iff_getElem] at h
  constructor
  · rcases Nat.eq_zero_or_pos k with rfl | h0
    · exact le_rfl
    · exact (h 0 k _ _ h0).le
  · rcases Nat.lt_or_ge k (l.length - 1) with h0 | h0
    · exact (h k _ _ _ h0).le
    · have : k = l.length - 1 := by omega
      subst this
      exact le_rfl

theorem TreeBuffer.ok {s : State} {r : ℕ} (ht : TfTree s r) (hwf : WF s) {b : TfBuffer} (hb : TreeBuffer s r b) : TfOk b where
  names e he := by
    obtain ⟨i, p, d, h1, -, h2, h3⟩ := hb.from_frame e he
    obtain ⟨x, hx, hx'⟩ := ht.names i h1
    obtain ⟨y, hy, hy'⟩ := ht.names p h2
    exact ⟨x, y, h3.child.trans hx, h3.frame.trans hy, hx', hy'⟩
  unit e he := by
    obtain ⟨i, p, d, -, -, -, h3⟩ := hb.from_frame e he
    exact h3.unit
  tree := by
    refine ⟨nameDepth s r, fun e he c q hc hq => ?_⟩
    obtain ⟨i, p, d, h1, -, h2, h3⟩ := hb.from_frame e he
    rw [h3.child] at hc
    rw [h3.frame] at hq
    rw [nameDepth_eq ht h1 hc, nameDepth_eq ht h2 hq]
    exact pathReverse_parent hwf h3.parent
  parent e he e' he' hc := by
    obtain ⟨i, p, d, h1, -, h2, h3⟩ := hb.from_frame e he
    obtain ⟨i', p', d', h1', -, h2', h3'⟩ := hb.from_frame e' he'
    rw [h3.child, h3'.child] at hc
    have := ht.distinct i i' h1 h1' hc
    subst this
    have hpp := h3.parent.symm.trans h3'.parent
    rw [h3.frame, h3'.frame, Option.some.inj hpp]
  order := hb.order
  cache e he e' he' hs hs' := by
    obtain ⟨i, p, d, h1, -, h2, h3⟩ := hb.from_frame e he
    obtain ⟨i', p', d', h1', -, h2', h3'⟩ := hb.from_frame e' he'
    rcases h3.sample with ⟨h, -⟩ | ⟨-, tl, rl, ns, disc, k, t, q, rfl, hk, -⟩
    · rw [h] at hs; cases hs
    rcases h3'.sample with ⟨h, -⟩ | ⟨-, tl', rl', ns', disc', k', t', q', rfl, hk', -⟩
    · rw [h] at hs'; cases hs'
    have hne : ns ≠ [] := List.ne_nil_of_mem (List.mem_of_getElem? hk)
    have hne' : ns' ≠ [] := List.ne_nil_of_mem (List.mem_of_getElem? hk')
    obtain ⟨T, a, z, hT, rfl, -, -, hall⟩ := hb.cache.2 i _ (ns.map fun n : ℕ => (n : ℝ)) h1 h3.data rfl (by simpa using hne)
    have ex : ∀ l : List ℕ, l ≠ [] → ∃ u v, l.head? = some u ∧ l.getLast? = some v := fun l hl =>
      ⟨_, _, List.head?_eq_some_head hl, List.getLast?_eq_some_getLast hl⟩
    obtain ⟨u, v, hu, hv⟩ := ex ns hne
    obtain ⟨u', v', hu', hv'⟩ := ex ns' hne'
    have r1 := hall i _ (ns.map fun n : ℕ => (n : ℝ)) u v h1 h3.data rfl (by simp [hu]) (by simp [hv])
    have r2 := hall i' _ (ns'.map fun n : ℕ => (n : ℝ)) u' v' h1' h3'.data rfl (by simp [hu']) (by simp [hv'])
    have mono : ∀ (j : ℕ) (dd : FrameData) (l : List ℕ), InTree s r j → s.data j = some dd → dd.timestamps = some (l.map fun n : ℕ => (n : ℝ)) →
        l.Pairwise fun a b => a < b := by
      intro j dd l hj hdd hl
      obtain ⟨m, hm, hs⟩ := ht.stamps j dd _ hj hdd hl
      have : l = m := List.map_injective_iff.mpr Nat.cast_injective hm
      rw [this]
      exact hs
    have m1 := le_last_of_pairwise (mono i _ ns h1 h3.data rfl) (List.mem_of_getElem? hk) hu hv
    have m2 := le_last_of_pairwise (mono i' _ ns' h1' h3'.data rfl) (List.mem_of_getElem? hk') hu' hv'
    have c1 : (e.2.header.stamp : ℝ) ≤ v := by exact_mod_cast m1.2
    have c2 : (u' : ℝ) ≤ (e'.2.header.stamp : ℝ) := by exact_mod_cast m2.1
    rw [hT]
    simp only [Option.getD_some]
    have := r1.2
    have := r2.1
    linarith

/-- A frame of the tree occurs in the buffer. -/
theorem TreeBuffer.known {s : State} {r : ℕ} (_ht : TfTree s r) {b : TfBuffer} (hb : TreeBuffer s r b) (hex : ∃ i, InTree s r i ∧ i ≠ r) {i : ℕ}
    (hi : InTree s r i) {x : String} (hx : s.name i = some x) : TfKnown b x := by
  by_cases hir : i = r
  · subst hir
    obtain ⟨j, hj, hji⟩ := hex
    rcases Relation.ReflTransGen.cases_tail hj with h | ⟨c, hjc, hc⟩
    · exact absurd h.symm hji
    · have hci : c ≠ i := by
        rintro rfl
        unfold ParentOf at hc
        have := _ht.root
        rw [hc] at this
        cases this
      obtain ⟨ms, h1, h2, h3⟩ := hb.to_frame c (.single hc) hci
      obtain ⟨e, he⟩ := List.exists_mem_of_ne_nil _ h2
      obtain ⟨ms', p, d, g1, g2, g3, g4, g5, g6, -⟩ := frameMsgs_of _ht (.single hc) hci
      have := frameMsgs_unique h1 g1
      subst this
      have hpi : p = i := by unfold ParentOf at hc; rw [hc] at g2; exact (Option.some.inj g2).symm
      subst hpi
      exact ⟨e, h3 e he, Or.inr ((g6 e he).frame.trans hx)⟩
  · obtain ⟨ms, h1, h2, h3⟩ := hb.to_frame i hi hir
    obtain ⟨e, he⟩ := List.exists_mem_of_ne_nil _ h2
    obtain ⟨ms', p, d, g1, g2, g3, g4, g5, g6, -⟩ := frameMsgs_of _ht hi hir
    have := frameMsgs_unique h1 g1
    subst this
    exact ⟨e, h3 e he, Or.inl ((g6 e he).child.trans hx)⟩

/-- A frame with a sample at `n` has an edge in the buffer, with its pose at time `n`. -/
theorem TreeBuffer.edge {s : State} {r : ℕ} (ht : TfTree s r) {b : TfBuffer} (hb : TreeBuffer s r b) {sq : SquadFn} (hsq : SquadLaw sq) {n : ℕ} {i : ℕ}
    (hi : InTree s r i) (hir : i ≠ r) (hn : SampledAt s n i) {x : String} (hx : s.name i = some x) :
    ∃ p y Q, s.parent i = some p ∧ InTree s r p ∧ s.name p = some y ∧ TfEdge b n x y Q ∧ PoseOf sq s n i Q ∧ IsUnitQ Q.r := by
  obtain ⟨ms, h1, h2, h3⟩ := hb.to_frame i hi hir
  obtain ⟨p, hp, hpt⟩ := tree_parent hi hir
  obtain ⟨y, hy, -⟩ := ht.names p hpt
  obtain ⟨d, hd, hg⟩ := ht.good i hi hir
  obtain ⟨d', hd', hsam⟩ := hn
  have : d' = d := by rw [hd] at hd'; exact (Option.some.inj hd').symm
  subst this
  rcases h1 with ⟨h, -⟩ | ⟨p', hp', h⟩
  · rw [h] at hp; cases hp
  have : p' = p := by rw [hp] at hp'; exact (Option.some.inj hp').symm
  subst this
  rcases h with ⟨t, q, disc, hdd, rfl⟩ | ⟨tl, rl, ns, disc, hdd, e1, e2, e3, e4, e5⟩
  · rw [hd] at hdd
    have hdd := Option.some.inj hdd
    subst hdd
    refine ⟨p', y, ⟨t, q⟩, hp, hpt, hy, ⟨(true, poseMsg (s.name p') (s.name i) 0 t q), h3 _ (by simp), Or.inl rfl, hx, hy, msgPose_poseMsg _ _ _ _ _⟩, ⟨_, hd, .static⟩, ?_⟩
    cases hg with
    | static h => exact h
  · rw [hd] at hdd
    have hdd := Option.some.inj hdd
    subst hdd
    obtain ⟨m, hm, hinc⟩ := ht.stamps i _ _ hi hd rfl
    have : ns = m := List.map_injective_iff.mpr Nat.cast_injective hm
    subst this
    obtain ⟨n', hn', hnn⟩ := List.mem_map.mp (hsam _ rfl)
    have : n' = n := Nat.cast_injective hnn
    subst this
    obtain ⟨k, hk, hkn⟩ := List.getElem_of_mem hn'
    have g0 : ns[k]? = some n' := by rw [List.getElem?_eq_getElem hk, hkn]
    have g1 : tl[k]? = some (tl[k]'(by omega)) := List.getElem?_eq_getElem (by omega)
    have g2 : rl[k]? = some (rl[k]'(by omega)) := List.getElem?_eq_getElem (by omega)
    have hmem := List.mem_of_getElem? (e5 k n' _ _ g0 g1 g2)
    have hev : (ns.map fun n : ℕ => (n : ℝ))[k]? = some (n' : ℝ) := by simp [g0]
    have hsi : StrictlyIncreasing (ns.map fun n : ℕ => (n : ℝ)) := by
      unfold StrictlyIncreasing
      rw [List.pairwise_map]
      exact hinc.imp fun h => by exact_mod_cast h
    refine ⟨p', y, ⟨tl[k]'(by omega), rl[k]'(by omega)⟩, hp, hpt, hy, ⟨_, h3 _ hmem, Or.inr rfl, hx, hy, msgPose_poseMsg _ _ _ _ _⟩, ?_, ?_⟩
    · refine ⟨_, hd, ?_⟩
      cases hg with
      | discrete h1 h2 h3 h4 h5 =>
        refine .discrete (k := k) (Or.inl ⟨_, hev, le_rfl, ?_⟩) g1 g2
        intro j e' hj he'
        obtain ⟨a1, a2⟩ := List.getElem?_eq_some_iff.mp hev
        obtain ⟨b1, b2⟩ := List.getElem?_eq_some_iff.mp he'
        have := List.pairwise_iff_getElem.mp hsi k j a1 b1 hj
        rw [a2, b2] at this
        exact this
      | continuous h1 h2 h3 h4 h5 =>
        have hr : (ns.map fun n : ℕ => (n : ℝ)).getD 0 0 ≤ (n' : ℝ) ∧ (n' : ℝ) ≤ (ns.map fun n : ℕ => (n : ℝ)).getD ((ns.map fun n : ℕ => (n : ℝ)).length - 1) 0 := by
          obtain ⟨a1, a2⟩ := List.getElem?_eq_some_iff.mp hev
          rw [getD_eq (by omega), getD_eq (by omega), ← a2]
          constructor
          · rcases Nat.eq_zero_or_pos k with rfl | h0
            · exact le_rfl
            · exact (List.pairwise_iff_getElem.mp hsi 0 k _ _ h0).le
          · rcases Nat.lt_or_ge k ((ns.map fun n : ℕ => (n : ℝ)).length - 1) with h0 | h0
            · exact (List.pairwise_iff_getElem.mp hsi k _ _ _ h0).le
            · have : k = (ns.map fun n : ℕ => (n : ℝ)).length - 1 := by omega
              simp only [← this]
              exact le_rfl
        obtain ⟨v, -, hv⟩ := interpAt_spec (ys := tl) hsi h3 h1 hr.1 hr.2
        have ev := hv.knot hsi hev g1
        have er := hsq.knot rl _ k _ _ h2 h3 hsi h5 g2 hev
        have key := IsPoseAt.continuous (sq := sq) (ro := rl) hv
        rw [ev, er] at key
        exact key
    · cases hg with
      | discrete h1 h2 h3 h4 h5 => exact h5 _ (List.mem_of_getElem? g2)
      | continuous h1 h2 h3 h4 h5 => exact h5 _ (List.mem_of_getElem? g2)

/-- Coordinates in an ancestor, in the state and in the buffer. -/
theorem TreeBuffer.coords {s : State} {r : ℕ} (ht : TfTree s r) {b : TfBuffer} (hb : TreeBuffer s r b) {sq : SquadFn} (hsq : SquadLaw sq) {n : ℕ}
    {a c : ℕ} {l : List ℕ} (hl : PathTo s.parent c a l) (hc : InTree s r c) (ha : InTree s r a) (hs : ∀ i ∈ l, SampledAt s n i)
    {x z : String} (hx : s.name a = some x) (hz : s.name c = some z) (p : Vec) :
    ∃ P, InAncestor s.parent (PoseOf sq s n) c a p P ∧ TfCoords (TfEdge b n) z x p P := by
  induction hl generalizing x p with
  | here =>
    rw [hx] at hz
    cases hz
    exact ⟨p, .here, .here⟩
  | @up a q l hac hpar hl ih =>
    have har : a ≠ r := by
      rintro rfl
      rw [ht.root] at hpar
      cases hpar
    obtain ⟨q', y, Q, h1, h2, h3, h4, h5, -⟩ := hb.edge ht hsq ha har (hs a (by simp)) hx
    have : q' = q := by rw [hpar] at h1; exact (Option.some.inj h1).symm
    subst this
    obtain ⟨P, g1, g2⟩ := ih h2 (fun i hi => hs i (by simp [hi])) h3 (Q.act p)
    exact ⟨P, .up hac hpar h5 g1, .up h4 g2⟩

end RBM
