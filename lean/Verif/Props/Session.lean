import Verif.Spec.RosSession
import Verif.Props.Cache

/-!
C80: bags are open exactly inside `with` blocks; what is on disk before, during and after a block, also if the process dies.
-/

namespace RBM.Props

open RBM RBM.Ros RBM.Spec

variable {cast : ℤ → ℤ}

theorem run_append (w : Disk) (a b : List SessEvent) : w.run cast (a ++ b) = (((w.run cast a).1.run cast b).1, (w.run cast a).2 ++ ((w.run cast a).1.run cast b).2) := by
  induction a generalizing w with
  | nil => rfl
  | cons e a ih => simp only [List.cons_append, Disk.run, ih]

theorem run_length (w : Disk) (es : List SessEvent) : (w.run cast es).2.length = es.length := by
  induction es generalizing w with
  | nil => rfl
  | cons e a ih => simp only [Disk.run, List.length_cons, ih]

theorem outcomes_snoc (w : Disk) (es : List SessEvent) (e : SessEvent) :
    outcomes (es ++ [e]) (w.run cast (es ++ [e])).2 = outcomes es (w.run cast es).2 ++ [(e, (((w.run cast es).1.step cast e).2).isOk)] := by
  rw [run_append]
  simp only [outcomes, List.map_append]
  rw [List.zip_append (by rw [List.length_map, run_length])]
  rfl

theorem run_snoc (w : Disk) (es : List SessEvent) (e : SessEvent) : (w.run cast (es ++ [e])).1 = ((w.run cast es).1.step cast e).1 := by
  rw [run_append]; rfl

theorem inside_snoc (tr : List Outcome) (x : Outcome) (i : ℕ) :
    Inside (tr ++ [x]) i ↔ x = (.enter i, true) ∨ (Inside tr i ∧ x.1 ≠ .exit i ∧ ¬ Dies x.1) := by
  constructor
  · rintro ⟨pre, post, h, hp⟩
    rcases List.eq_nil_or_concat post with rfl | ⟨post', y, rfl⟩
    · have := List.append_inj' (h.trans (by simp : _ = pre ++ [(SessEvent.enter i, true)])) rfl
      simp at this
      exact .inl this.2
    · have e : tr ++ [x] = (pre ++ (.enter i, true) :: post') ++ [y] := by rw [h]; simp
      obtain ⟨h1, h2⟩ := List.append_inj' e rfl
      simp at h2
      subst h2
      exact .inr ⟨⟨pre, post', h1, fun z hz => hp z (by simp [hz])⟩, hp x (by simp)⟩
  · rintro (rfl | ⟨⟨pre, post, rfl, hp⟩, h⟩)
    · exact ⟨tr, [], by simp, by simp⟩
    · refine ⟨pre, post ++ [x], by simp, fun z hz => ?_⟩
      rcases List.mem_append.mp hz with hz | hz
      · exact hp z hz
      · rw [List.mem_singleton.mp hz]; exact h

theorem export_objs (w : Disk) (rd : Reader) (topic : String) (out : OutFile) (fate : Fate) :
    ∃ x, (w.exportWith cast rd topic out fate).1 = { w with ncs := x } := by
  simp only [Disk.exportWith]
  cases rd.loadDatasetUncached topic with
  | error e => exact ⟨w.ncs, rfl⟩
  | ok ds =>
    simp only
    cases rd.getFilename out with
    | error e => exact ⟨w.ncs, rfl⟩
    | ok p => cases fate <;> exact ⟨_, rfl⟩

theorem load_objs (w : Disk) (rd : Reader) (topic : String) (cache : Bool) (fate : Fate) :
    ∃ x, (w.loadWith cast rd topic cache fate).1 = { w with ncs := x } := by
  simp only [Disk.loadWith]
  cases cache with
  | false => exact ⟨w.ncs, rfl⟩
  | true =>
    simp only [if_true]
    cases w.ncs (rd.cachePath topic) with
    | some f => exact ⟨w.ncs, rfl⟩
    | none =>
      obtain ⟨x, hx⟩ := export_objs (cast := cast) w rd topic (.path (rd.cachePath topic)) fate
      simp only
      generalize w.exportWith cast rd topic (.path (rd.cachePath topic)) fate = y at hx
      obtain ⟨w', r⟩ := y
      cases r with
      | error e => exact ⟨x, hx⟩
      | ok u => exact ⟨x, hx⟩

/-- Reading and exporting changes only netCDF files, unless the process dies. -/
theorem step_io (w : Disk) {e : SessEvent} (h : (∃ i topic cache fate, e = .load i topic cache fate) ∨ ∃ i topic out fate, e = .exportNc i topic out fate) :
    ∃ x, (Dies e → (w.step cast e).1 = ({ w with ncs := x } : Disk).die) ∧ (¬ Dies e → (w.step cast e).1 = { w with ncs := x }) := by
  have key : ∀ (fate : Fate) (y : Disk × Res SessRet) (x : Path → Option NcState), y.1 = { w with ncs := x } →
      (fate = .dies → (endCall fate y).1 = ({ w with ncs := x } : Disk).die) ∧ (fate ≠ .dies → (endCall fate y).1 = { w with ncs := x }) := by
    intro fate y x hy
    cases fate with
    | done => exact ⟨fun h => (nomatch h), fun _ => hy⟩
    | fails => exact ⟨fun h => (nomatch h), fun _ => hy⟩
    | dies => exact ⟨fun _ => by simp only [endCall, hy], fun h => absurd rfl h⟩
  rcases h with ⟨i, topic, cache, fate, rfl⟩ | ⟨i, topic, out, fate, rfl⟩
  · have hd : Dies (.load i topic cache fate) ↔ fate = .dies := by cases fate <;> simp [Dies]
    rw [hd]
    simp only [Disk.step]
    cases w.readerAt i with
    | error e => exact ⟨w.ncs, key fate _ w.ncs rfl⟩
    | ok rd =>
      obtain ⟨x, hx⟩ := load_objs (cast := cast) w rd topic cache fate
      exact ⟨x, key fate _ x hx⟩
  · have hd : Dies (.exportNc i topic out fate) ↔ fate = .dies := by cases fate <;> simp [Dies]
    rw [hd]
    simp only [Disk.step]
    cases w.readerAt i with
    | error e => exact ⟨w.ncs, key fate _ w.ncs rfl⟩
    | ok rd =>
      obtain ⟨x, hx⟩ := export_objs (cast := cast) w rd topic out fate
      exact ⟨x, key fate _ x hx⟩

/-- Whether the bag of object `i` is open. -/
def bagOpen (w : Disk) (i : ℕ) : Prop := ∃ o s, w.objs[i]? = some o ∧ o.bag = some s

theorem bagOpen_set {w : Disk} {i j : ℕ} {o o' : BagObj} (h : w.objs[i]? = some o) :
    bagOpen (w.setObj i o') j ↔ if j = i then o'.bag.isSome = true else bagOpen w j := by
  have hi := (List.getElem?_eq_some_iff.mp h).1
  by_cases hj : j = i
  · subst hj
    simp [bagOpen, Disk.setObj, List.getElem?_set, hi, Option.isSome_iff_exists]
  · simp [bagOpen, Disk.setObj, List.getElem?_set, hj, Ne.symm hj]

theorem bagOpen_of_objs {w w' : Disk} (h : w'.objs = w.objs) (i : ℕ) : bagOpen w' i ↔ bagOpen w i := by simp only [bagOpen, h]

theorem write_some (b : Bag) (clock : ℕ → ℕ) (ts t r : ND ℝ) (topic frame child : String) :
    ∃ b', (writeTransformStamped (some b) clock ts t r topic frame child).1 = some b' := by
  have key : ∀ (rows : List (ℝ × List ℝ × List ℝ × ℕ)) (b : Bag), ∃ b', (writeRows topic frame child (some b) rows).1 = some b' := by
    intro rows
    induction rows with
    | nil => exact fun b => ⟨b, rfl⟩
    | cons x rows ih =>
      intro b
      obtain ⟨τ, t, r, now⟩ := x
      simp only [writeRows]
      cases makeTransformMsg t r (some frame) (some child) τ with
      | error e => exact ⟨b, rfl⟩
      | ok m =>
        simp only
        cases hw : b.write topic m now with
        | mk b' res =>
          cases res with
          | error e => exact ⟨b', rfl⟩
          | ok u => exact ih b'
  simp only [writeTransformStamped]
  split
  · split_ifs
    · exact ⟨b, rfl⟩
    · exact ⟨b, rfl⟩
    · exact key _ b
  · exact ⟨b, rfl⟩

theorem write_none (clock : ℕ → ℕ) (ts t r : ND ℝ) (topic frame child : String) :
    (writeTransformStamped none clock ts t r topic frame child).1 = none := by
  have key : ∀ (rows : List (ℝ × List ℝ × List ℝ × ℕ)), (writeRows topic frame child none rows).1 = none := by
    intro rows
    cases rows with
    | nil => rfl
    | cons x rows =>
      obtain ⟨τ, t, r, now⟩ := x
      simp only [writeRows]
      cases makeTransformMsg t r (some frame) (some child) τ with
      | error e => rfl
      | ok m => rfl
  simp only [writeTransformStamped]
  split
  · split_ifs
    · rfl
    · rfl
    · exact key _
  · rfl

theorem step_write {w : Disk} {i : ℕ} {o : BagObj} (h : w.objs[i]? = some o) (hm : o.mode = .w) (clock : ℕ → ℕ) (ts t r : ND ℝ) (topic frame child : String) :
    (w.step cast (.write i clock ts t r topic frame child)).1 = w.setObj i
      { o with bag := o.bag.map fun s => (s.1, (writeTransformStamped (some s.2) clock ts t r topic frame child).1.getD s.2) } := by
  simp only [Disk.step, Disk.write, h, hm]
  congr 2
  cases hb : o.bag with
  | none => rfl
  | some s =>
    obtain ⟨b', hb'⟩ := write_some s.2 clock ts t r topic frame child
    simp [hb']

theorem step_bagOpen (w : Disk) (e : SessEvent) (i : ℕ) :
    bagOpen (w.step cast e).1 i ↔ (e = .enter i ∧ (w.step cast e).2.isOk = true) ∨ (bagOpen w i ∧ e ≠ .exit i ∧ ¬ Dies e) := by
  have app : ∀ o : BagObj, o.bag = none → (bagOpen { w with objs := w.objs ++ [o] } i ↔ bagOpen w i) := by
    intro o ho
    simp only [bagOpen]
    rw [List.getElem?_append]
    by_cases hi : i < w.objs.length
    · rw [if_pos hi]
    · rw [if_neg hi, List.getElem?_eq_none (by omega : w.objs.length ≤ i)]
      constructor
      · rintro ⟨o', s, h1, h2⟩
        rcases Nat.eq_zero_or_pos (i - w.objs.length) with h0 | h0
        · rw [h0] at h1; simp at h1; rw [← h1, ho] at h2; cases h2
        · rw [List.getElem?_eq_none (by simp; omega)] at h1; cases h1
      · rintro ⟨o', s, h1, _⟩; cases h1
  cases e with
  | reader p => simpa [Disk.step, Dies] using app ⟨p, .r, none⟩ rfl
  | writer p => simpa [Disk.step, Dies] using app ⟨p, .w, none⟩ rfl
  | enter j =>
    simp only [Disk.step, Disk.enter]
    cases ho : w.objs[j]? with
    | none => simp [Dies, Except.isOk, Except.toBool]
    | some o =>
      simp only
      have upd : ∀ (o' : BagObj) (w' : Disk), o'.bag.isSome = true → w'.objs = (w.setObj j o').objs →
          (bagOpen w' i ↔ (SessEvent.enter j = .enter i ∧ (Except.ok SessRet.unit : Res SessRet).isOk = true) ∨
            (bagOpen w i ∧ SessEvent.enter j ≠ .exit i ∧ ¬ Dies (.enter j))) := by
        intro o' w' ho' hw'
        rw [bagOpen_of_objs hw', bagOpen_set ho]
        by_cases hj : i = j
        · subst hj; simp [Except.isOk, Except.toBool, ho']
        · simp [hj, Ne.symm hj, Dies]
      cases hm : o.mode with
      | r =>
        simp only
        cases w.bags o.path with
        | none => simp [Dies, Except.isOk, Except.toBool]
        | some f =>
          cases f with
          | writing k => simp [Dies, Except.isOk, Except.toBool]
          | complete b => exact upd ⟨o.path, .r, some (w.sessions, b)⟩ _ rfl rfl
      | w => exact upd ⟨o.path, .w, some (w.sessions, Bag.empty)⟩ _ rfl rfl
  | exit j =>
    simp only [Disk.step, Disk.exit]
    cases ho : w.objs[j]? with
    | none =>
      have : i = j → ¬ bagOpen w i := by rintro rfl ⟨o, s, h, _⟩; rw [ho] at h; cases h
      by_cases hj : i = j
      · simp [this hj]
      · simp [Ne.symm hj, Dies]
    | some o =>
      simp only
      cases hb : o.bag with
      | none =>
        have : i = j → ¬ bagOpen w i := by rintro rfl ⟨o', s, h, h'⟩; rw [ho] at h; cases h; rw [hb] at h'; cases h'
        by_cases hj : i = j
        · simp [this hj]
        · simp [Ne.symm hj, Dies]
      | some s =>
        simp only
        have upd : ∀ (o' : BagObj) (w' : Disk), o'.bag = none → w'.objs = (w.setObj j o').objs → (bagOpen w' i ↔ (SessEvent.exit j = .enter i ∧
            (Except.ok SessRet.unit : Res SessRet).isOk = true) ∨ (bagOpen w i ∧ SessEvent.exit j ≠ .exit i ∧ ¬ Dies (.exit j))) := by
          intro o' w' ho' hw'
          rw [bagOpen_of_objs hw', bagOpen_set ho]
          by_cases hj : i = j
          · subst hj; simp [ho']
          · simp [hj, Ne.symm hj, Dies]
        cases hm : o.mode with
        | r => exact upd ⟨o.path, .r, none⟩ _ rfl rfl
        | w => exact upd ⟨o.path, .w, none⟩ _ rfl rfl
  | write j clock ts t r topic frame child =>
    have hne : ¬ (SessEvent.write j clock ts t r topic frame child = .enter i) := fun h => (nomatch h)
    have hne' : SessEvent.write j clock ts t r topic frame child ≠ .exit i := fun h => (nomatch h)
    simp only [hne, false_and, false_or, hne', ne_eq, not_false_eq_true, true_and, Dies, and_true]
    cases ho : w.objs[j]? with
    | none => simp only [Disk.step, Disk.write, ho]
    | some o =>
      cases hm : o.mode with
      | r => simp only [Disk.step, Disk.write, ho, hm]
      | w =>
        rw [step_write ho hm, bagOpen_set ho]
        by_cases hj : i = j
        · subst hj
          simp [bagOpen, ho, Option.isSome_iff_exists]
        · simp [hj]
  | load j topic cache fate =>
    obtain ⟨x, h1, h2⟩ := step_io (cast := cast) w (e := .load j topic cache fate) (.inl ⟨j, topic, cache, fate, rfl⟩)
    by_cases hd : Dies (.load j topic cache fate)
    · rw [h1 hd]; simp [hd, bagOpen, Disk.die]
    · rw [h2 hd]; simp [hd, bagOpen]
  | exportNc j topic out fate =>
    obtain ⟨x, h1, h2⟩ := step_io (cast := cast) w (e := .exportNc j topic out fate) (.inr ⟨j, topic, out, fate, rfl⟩)
    by_cases hd : Dies (.exportNc j topic out fate)
    · rw [h1 hd]; simp [hd, bagOpen, Disk.die]
    · rw [h2 hd]; simp [hd, bagOpen]
  | crash => simp [Disk.step, Disk.die, bagOpen, Dies]

/-- For every history of calls, failures and deaths of the process: the bag of a reader or writer is open exactly inside its `with` block. -/
theorem C80_inside {w : Disk} (hw : Fresh w) (es : List SessEvent) (i : ℕ) :
    (∃ o s, (w.run cast es).1.objs[i]? = some o ∧ o.bag = some s) ↔ Inside (outcomes es (w.run cast es).2) i := by
  induction es using List.reverseRecOn with
  | nil =>
    constructor
    · rintro ⟨o, s, h, _⟩; simp [Disk.run, hw.objs] at h
    · rintro ⟨pre, post, h, _⟩; simp [outcomes] at h
  | append_singleton es e ih =>
    rw [run_snoc, outcomes_snoc, inside_snoc, ← ih]
    exact (step_bagOpen (cast := cast) _ e i).trans (or_congr (by simp [Prod.ext_iff]) Iff.rfl)

/-! ### Open bags -/

theorem step_lost {w : Disk} (h0 : w.lost = 0) {e : SessEvent} (h : ∀ i, e = .enter i → (w.step cast e).2.isOk = true → ¬ bagOpen w i) : (w.step cast e).1.lost = 0 := by
  cases e with
  | reader p => exact h0
  | writer p => exact h0
  | enter j =>
    have h := h j rfl
    simp only [Disk.step, Disk.enter] at h ⊢
    cases ho : w.objs[j]? with
    | none => exact h0
    | some o =>
      rw [ho] at h
      simp only at h ⊢
      have hb : ∀ (y : Disk × Res SessRet), y.1.lost = (if o.bag.isSome then w.lost + 1 else w.lost) → (y.2.isOk = true → ¬ bagOpen w j) → y.2.isOk = true → y.1.lost = 0 := by
        intro y hy h hok
        have : o.bag.isSome = false := by
          cases hs : o.bag with
          | none => rfl
          | some s => exact absurd ⟨o, s, ho, hs⟩ (h hok)
        rw [hy, this]
        exact h0
      cases hm : o.mode with
      | r =>
        rw [hm] at h
        simp only at h ⊢
        cases hf : w.bags o.path with
        | none => exact h0
        | some f =>
          rw [hf] at h
          cases f with
          | writing k => exact h0
          | complete b => exact hb _ rfl h rfl
      | w =>
        rw [hm] at h
        exact hb _ rfl h rfl
  | exit j =>
    simp only [Disk.step, Disk.exit]
    cases w.objs[j]? with
    | none => exact h0
    | some o =>
      simp only
      cases o.bag with
      | none => exact h0
      | some s => cases o.mode <;> exact h0
  | write j clock ts t r topic frame child =>
    simp only [Disk.step, Disk.write]
    cases w.objs[j]? with
    | none => exact h0
    | some o =>
      simp only
      cases o.mode <;> exact h0
  | load j topic cache fate =>
    obtain ⟨x, h1, h2⟩ := step_io (cast := cast) w (e := .load j topic cache fate) (.inl ⟨j, topic, cache, fate, rfl⟩)
    by_cases hd : Dies (.load j topic cache fate)
    · rw [h1 hd]; rfl
    · rw [h2 hd]; exact h0
  | exportNc j topic out fate =>
    obtain ⟨x, h1, h2⟩ := step_io (cast := cast) w (e := .exportNc j topic out fate) (.inr ⟨j, topic, out, fate, rfl⟩)
    by_cases hd : Dies (.exportNc j topic out fate)
    · rw [h1 hd]; rfl
    · rw [h2 hd]; exact h0
  | crash => rfl

theorem ncard_indices {α} (l : List α) (p : α → Bool) : {i : ℕ | ∃ a, l[i]? = some a ∧ p a = true}.Finite ∧
    {i : ℕ | ∃ a, l[i]? = some a ∧ p a = true}.ncard = (l.filter p).length := by
  induction l with
  | nil => simp
  | cons x l ih =>
    have e : {i : ℕ | ∃ a, (x :: l)[i]? = some a ∧ p a = true} = {i | i = 0 ∧ p x = true} ∪ Nat.succ '' {i : ℕ | ∃ a, l[i]? = some a ∧ p a = true} := by
      ext i
      cases i with
      | zero => simp
      | succ i => simp
    have hfin : (Nat.succ '' {i : ℕ | ∃ a, l[i]? = some a ∧ p a = true}).Finite := ih.1.image _
    have hfin0 : {i : ℕ | i = 0 ∧ p x = true}.Finite := (Set.finite_singleton 0).subset fun i hi => hi.1
    refine ⟨by rw [e]; exact hfin0.union hfin, ?_⟩
    rw [e, Set.ncard_union_eq _ hfin0 hfin, Set.ncard_image_of_injective _ Nat.succ_injective, ih.2]
    · cases hp : p x with
      | true =>
        have : {i : ℕ | i = 0 ∧ true = true} = {0} := by ext i; simp
        rw [this, Set.ncard_singleton, List.filter_cons_of_pos hp, List.length_cons, Nat.add_comm]
      | false => simp [List.filter_cons_of_neg, hp]
    · rw [Set.disjoint_left]
      rintro i ⟨rfl, _⟩ ⟨j, _, hj⟩
      exact absurd hj (Nat.succ_ne_zero j)

/-- Without nested `with` statements of the same object, the open bags are those of the blocks that are entered and not left: in particular
no bag is open once all blocks are left, however they were left. -/
theorem C80_open {w : Disk} (hw : Fresh w) (es : List SessEvent) (hn : NoReentry (outcomes es (w.run cast es).2)) :
    openBags (w.run cast es).1 = {i | Inside (outcomes es (w.run cast es).2) i}.ncard := by
  have hl : (w.run cast es).1.lost = 0 := by
    induction es using List.reverseRecOn with
    | nil => exact hw.lost
    | append_singleton es e ih =>
      rw [run_snoc]
      rw [outcomes_snoc] at hn
      refine step_lost (ih fun pre i post h => hn pre i (post ++ [(e, ((w.run cast es).1.step cast e).2.isOk)]) (by rw [h]; simp)) ?_
      rintro i rfl hok
      have := hn (outcomes es (w.run cast es).2) i [] (by rw [hok])
      rw [← C80_inside hw] at this
      exact this
  have e : {i | Inside (outcomes es (w.run cast es).2) i} = {i : ℕ | ∃ a, (w.run cast es).1.objs[i]? = some a ∧ a.bag.isSome = true} := by
    ext i
    simp only [Set.mem_setOf_eq, ← C80_inside hw, Option.isSome_iff_exists]
    constructor
    · rintro ⟨o, s, h, h'⟩; exact ⟨o, h, s, h'⟩
    · rintro ⟨o, h, s, h'⟩; exact ⟨o, s, h, h'⟩
  rw [e, (ncard_indices _ _).2, openBags, hl]; rfl

/-- Nested `with` statements of the same object: afterwards no block is entered, the outer block ended with an exception and a bag is still
open. -/
theorem C80_reentry_leaks (p : Path) : ∃ es : List SessEvent, ∀ w, Fresh w →
    (∀ i, ¬ Inside (outcomes es (w.run cast es).2) i) ∧ openBags (w.run cast es).1 = 1 ∧
    (w.run cast es).2.getLast? = some (.error .attributeError) := by
  refine ⟨[.writer p, .enter 0, .enter 0, .exit 0, .exit 0], fun w hw => ?_⟩
  have h0 := hw.objs
  have h1 := hw.lost
  refine ⟨fun i => ?_, ?_, ?_⟩
  · rw [← C80_inside hw]
    rintro ⟨o, s, h, h'⟩
    simp [Disk.run, Disk.step, Disk.enter, Disk.exit, Disk.setObj, h0, closedFile] at h
    cases i with
    | zero => simp at h; rw [← h] at h'; cases h'
    | succ i => simp at h
  · simp [Disk.run, Disk.step, Disk.enter, Disk.exit, Disk.setObj, h0, h1, openBags]
  · simp [Disk.run, Disk.step, Disk.enter, Disk.exit, Disk.setObj, h0]

/-! ### Outside of the block -/

theorem write_outside {c : WriteCall} {n : ℕ} (hs : c.ShapesOk n) (hn : 0 < n) (ht : HasStamp (c.timestamps.get [0])) :
    (writeTransformStamped none c.clock c.timestamps c.translation c.rotation c.topic c.frame c.childFrame).2 = .error .attributeError := by
  obtain ⟨h1, h2, h3⟩ := hs
  obtain ⟨m, rfl⟩ : ∃ m, n = m + 1 := ⟨n - 1, by omega⟩
  simp only [writeTransformStamped, h1, h2, h3, ne_eq, not_true_eq_false, if_false]
  rw [List.range_succ_eq_map, List.map_cons]
  simp only [writeRows, makeTransformMsg, mkHeader, hasStamp_fromSec ht.1]
  simp [ndRow, List.range_succ, mkXYZ, mkXYZW, at', bind, Except.bind, Pure.pure, Except.pure]

/-- Outside of its block nothing can be read or written, and nothing changes. -/
theorem C80_outside {w : Disk} (hw : Fresh w) (es : List SessEvent) {i : ℕ} (hi : ¬ Inside (outcomes es (w.run cast es).2) i)
    {o : BagObj} (ho : (w.run cast es).1.objs[i]? = some o) :
    (o.mode = .r → ∀ topic out, (w.run cast es).1.step cast (.load i topic false .done) = ((w.run cast es).1, .error .runtimeError) ∧
      (w.run cast es).1.step cast (.exportNc i topic out .done) = ((w.run cast es).1, .error .runtimeError)) ∧
    (o.mode = .w → ∀ (c : WriteCall) (n : ℕ), c.ShapesOk n → 0 < n → HasStamp (c.timestamps.get [0]) →
      (w.run cast es).1.step cast (.write i c.clock c.timestamps c.translation c.rotation c.topic c.frame c.childFrame) =
        ((w.run cast es).1, .error .attributeError)) ∧
    (w.run cast es).1.step cast (.exit i) = ((w.run cast es).1, .error .attributeError) := by
  rw [← C80_inside hw] at hi
  generalize (w.run cast es).1 = v at *
  have hb : o.bag = none := by
    cases h : o.bag with
    | none => rfl
    | some s => exact absurd ⟨o, s, ho, h⟩ hi
  refine ⟨fun hm topic out => ?_, fun hm c n hs hn ht => ?_, ?_⟩
  · have hr : v.readerAt i = .ok ⟨o.path, none⟩ := by simp only [Disk.readerAt, ho, hm, hb, Option.map_none]
    constructor
    · simp only [Disk.step, hr, endCall, Disk.loadWith]; rfl
    · simp only [Disk.step, hr, endCall, Disk.exportWith]; rfl
  · have h1 := step_write (cast := cast) ho hm c.clock c.timestamps c.translation c.rotation c.topic c.frame c.childFrame
    have h2 : (v.step cast (.write i c.clock c.timestamps c.translation c.rotation c.topic c.frame c.childFrame)).2 = .error .attributeError := by
      simp only [Disk.step, Disk.write, ho, hm, hb, Option.map_none]
      rw [write_outside hs hn ht]; rfl
    rw [hb] at h1
    refine Prod.ext ?_ h2
    rw [h1]
    have : ({ o with bag := none } : BagObj) = o := by rw [← hb]
    simp only [Option.map_none]
    rw [this]
    have hlt := (List.getElem?_eq_some_iff.mp ho)
    have : v.objs.set i o = v.objs := by rw [← hlt.2]; exact List.set_getElem_self hlt.1
    simp only [Disk.setObj, this]
  · simp only [Disk.step, Disk.exit, ho, hb]

/-! ### Files -/

theorem unwritten_set {w : Disk} {p : Path} (h : Unwritten w p) {i : ℕ} {o' : BagObj} (ho : o'.mode = .w → o'.path = p → o'.bag = none) {w' : Disk}
    (hw : w'.objs = (w.setObj i o').objs) : Unwritten w' p := by
  intro o hmem hm hp
  rw [hw] at hmem
  rcases List.mem_or_eq_of_mem_set hmem with hmem | rfl
  · exact h o hmem hm hp
  · exact ho hm hp

theorem step_file {w : Disk} {p : Path} (hu : Unwritten w p) {e : SessEvent} (h : ∀ i o, e = .enter i → w.objs[i]? = some o → o.mode = .w → o.path ≠ p) :
    (w.step cast e).1.bags p = w.bags p ∧ Unwritten (w.step cast e).1 p := by
  have hmem : ∀ {i : ℕ} {o : BagObj}, w.objs[i]? = some o → o ∈ w.objs := fun h => List.mem_of_getElem? h
  cases e with
  | reader q =>
    refine ⟨rfl, fun o ho hm hp => ?_⟩
    rcases List.mem_append.mp (show o ∈ w.objs ++ [⟨q, .r, none⟩] from ho) with ho | ho
    · exact hu o ho hm hp
    · rw [List.mem_singleton.mp ho]
  | writer q =>
    refine ⟨rfl, fun o ho hm hp => ?_⟩
    rcases List.mem_append.mp (show o ∈ w.objs ++ [⟨q, .w, none⟩] from ho) with ho | ho
    · exact hu o ho hm hp
    · rw [List.mem_singleton.mp ho]
  | enter j =>
    simp only [Disk.step, Disk.enter]
    cases ho : w.objs[j]? with
    | none => exact ⟨rfl, hu⟩
    | some o =>
      simp only
      have hj := h j o rfl ho
      cases hm : o.mode with
      | r =>
        simp only
        cases w.bags o.path with
        | none => exact ⟨rfl, hu⟩
        | some f =>
          cases f with
          | writing k => exact ⟨rfl, hu⟩
          | complete b => exact ⟨rfl, unwritten_set (i := j) (o' := ⟨o.path, .r, some (w.sessions, b)⟩) hu (fun h => (nomatch h)) rfl⟩
      | w =>
        refine ⟨Function.update_of_ne (Ne.symm (hj hm)) _ _, ?_⟩
        exact unwritten_set (i := j) (o' := ⟨o.path, .w, some (w.sessions, Bag.empty)⟩) hu (fun _ h => absurd h (hj hm)) rfl
  | exit j =>
    simp only [Disk.step, Disk.exit]
    cases ho : w.objs[j]? with
    | none => exact ⟨rfl, hu⟩
    | some o =>
      simp only
      cases hb : o.bag with
      | none => exact ⟨rfl, hu⟩
      | some s =>
        simp only
        cases hm : o.mode with
        | r => exact ⟨rfl, unwritten_set (i := j) (o' := ⟨o.path, .r, none⟩) hu (fun _ _ => rfl) rfl⟩
        | w =>
          refine ⟨Function.update_of_ne ?_ _ _, unwritten_set (i := j) (o' := ⟨o.path, .w, none⟩) hu (fun _ _ => rfl) rfl⟩
          rintro rfl
          have := hu o (hmem ho) hm rfl
          rw [hb] at this; cases this
  | write j clock ts t r topic frame child =>
    cases ho : w.objs[j]? with
    | none => simp only [Disk.step, Disk.write, ho]; exact ⟨trivial, hu⟩
    | some o =>
      cases hm : o.mode with
      | r => simp only [Disk.step, Disk.write, ho, hm]; exact ⟨trivial, hu⟩
      | w =>
        rw [step_write ho hm]
        refine ⟨rfl, unwritten_set hu (fun h1 h2 => ?_) rfl⟩
        simp only at h1 h2 ⊢
        rw [hu o (hmem ho) hm h2]; rfl
  | load j topic cache fate =>
    obtain ⟨x, h1, h2⟩ := step_io (cast := cast) w (e := .load j topic cache fate) (.inl ⟨j, topic, cache, fate, rfl⟩)
    by_cases hd : Dies (.load j topic cache fate)
    · rw [h1 hd]; exact ⟨rfl, by simp [Unwritten, Disk.die]⟩
    · rw [h2 hd]; exact ⟨rfl, hu⟩
  | exportNc j topic out fate =>
    obtain ⟨x, h1, h2⟩ := step_io (cast := cast) w (e := .exportNc j topic out fate) (.inr ⟨j, topic, out, fate, rfl⟩)
    by_cases hd : Dies (.exportNc j topic out fate)
    · rw [h1 hd]; exact ⟨rfl, by simp [Unwritten, Disk.die]⟩
    · rw [h2 hd]; exact ⟨rfl, hu⟩
  | crash => exact ⟨rfl, by simp [Disk.step, Unwritten, Disk.die]⟩

/-- A bag file changes only by `with` blocks of writers of this file: not by reading, by other files or by deaths of the process. -/
theorem C80_stable {w : Disk} {p : Path} (hu : Unwritten w p) (es : List SessEvent) (h : NoWriter cast p w es) :
    (w.run cast es).1.bags p = w.bags p ∧ Unwritten (w.run cast es).1 p := by
  induction es generalizing w with
  | nil => exact ⟨rfl, hu⟩
  | cons e es ih =>
    obtain ⟨h1, h2⟩ := step_file (cast := cast) hu h.1
    obtain ⟨h3, h4⟩ := ih h2 h.2
    exact ⟨h3.trans h1, h4⟩

/-- A reader sees what is in the file, if it was completed; otherwise its block cannot be entered. -/
theorem C80_reads {w : Disk} {i : ℕ} {o : BagObj} (ho : w.objs[i]? = some o) (hm : o.mode = .r) :
    (∀ b, w.bags o.path = some (.complete b) → (w.step cast (.enter i)).2 = .ok .unit ∧ (w.step cast (.enter i)).1.readerAt i = .ok ⟨o.path, some b⟩) ∧
    (∀ k, w.bags o.path = some (.writing k) → w.step cast (.enter i) = (w, .error .bagException)) ∧
    (w.bags o.path = none → w.step cast (.enter i) = (w, .error .osError)) := by
  have hi := (List.getElem?_eq_some_iff.mp ho).1
  refine ⟨fun b hb => ?_, fun k hb => ?_, fun hb => ?_⟩
  · simp only [Disk.step, Disk.enter, ho, hm, hb]
    refine ⟨trivial, ?_⟩
    simp [Disk.readerAt, Disk.setObj, List.getElem?_set, hi]
  · simp only [Disk.step, Disk.enter, ho, hm, hb]
  · simp only [Disk.step, Disk.enter, ho, hm, hb]

/-! ### Inside the block of a writer -/

/-- Object `i` is a writer inside its block, and no other writer has the file open. -/
structure Writing (w : Disk) (i : ℕ) (p : Path) (k : ℕ) (b : Bag) : Prop where
  obj : w.objs[i]? = some ⟨p, .w, some (k, b)⟩
  file : w.bags p = some (.writing k)
  others : ∀ j o, j ≠ i → w.objs[j]? = some o → o.mode = .w → o.path = p → o.bag = none

theorem Writing.of_set {w w' : Disk} {i j : ℕ} {p : Path} {k : ℕ} {b : Bag} {o' : BagObj} (h : Writing w i p k b) (hj : j ≠ i)
    (ho : o'.mode = .w → o'.path = p → o'.bag = none) (hw : w'.objs = (w.setObj j o').objs) (hb : w'.bags p = w.bags p) : Writing w' i p k b := by
  refine ⟨?_, hb.trans h.file, fun l o hl hlo hm hp => ?_⟩
  · rw [hw]; simp only [Disk.setObj, List.getElem?_set, hj, if_false]; exact h.obj
  · rw [hw] at hlo
    simp only [Disk.setObj, List.getElem?_set] at hlo
    by_cases hjl : j = l
    · rw [if_pos hjl] at hlo
      split_ifs at hlo
      cases hlo
      exact ho hm hp
    · rw [if_neg hjl] at hlo
      exact h.others l o hl hlo hm hp

theorem step_writing {w : Disk} {i : ℕ} {p : Path} {k : ℕ} {b : Bag} (h : Writing w i p k b) {e : SessEvent} (hx : e ≠ .exit i) (hd : ¬ Dies e)
    (he : ∀ i o, e = .enter i → w.objs[i]? = some o → o.mode = .w → o.path ≠ p) :
    ∃ b', Writing (w.step cast e).1 i p k b' ∧
      ∀ cs, writeAll cs = some b → writeAll (cs ++ callsOf i [e]) = some b' := by
  have app : ∀ o : BagObj, o.bag = none → Writing { w with objs := w.objs ++ [o] } i p k b := by
    intro o ho
    have hi := (List.getElem?_eq_some_iff.mp h.obj).1
    refine ⟨by simp only; rw [List.getElem?_append_left hi]; exact h.obj, h.file, fun j o' hj hjo hm hp => ?_⟩
    simp only at hjo
    rw [List.getElem?_append] at hjo
    split_ifs at hjo with hlt
    · exact h.others j o' hj hjo hm hp
    · have := List.mem_of_getElem? hjo
      rw [List.mem_singleton.mp this]; exact ho
  cases e with
  | reader q => exact ⟨b, app _ rfl, fun cs hcs => by simpa [callsOf] using hcs⟩
  | writer q => exact ⟨b, app _ rfl, fun cs hcs => by simpa [callsOf] using hcs⟩
  | enter j =>
    refine ⟨b, ?_, fun cs hcs => by simpa [callsOf] using hcs⟩
    have hj : j ≠ i := fun hji => he j _ rfl (hji ▸ h.obj) rfl rfl
    simp only [Disk.step, Disk.enter]
    cases ho : w.objs[j]? with
    | none => exact h
    | some o =>
      simp only
      cases hm : o.mode with
      | r =>
        simp only
        cases w.bags o.path with
        | none => exact h
        | some f =>
          cases f with
          | writing k => exact h
          | complete b' => exact h.of_set (o' := ⟨o.path, .r, some (w.sessions, b')⟩) hj (fun h => (nomatch h)) rfl rfl
      | w =>
        have hp := he j o rfl ho hm
        exact h.of_set (o' := ⟨o.path, .w, some (w.sessions, Bag.empty)⟩) hj (fun _ h => absurd h hp) rfl (Function.update_of_ne (Ne.symm hp) _ _)
  | exit j =>
    refine ⟨b, ?_, fun cs hcs => by simpa [callsOf] using hcs⟩
    have hj : j ≠ i := fun hji => hx (by rw [hji])
    simp only [Disk.step, Disk.exit]
    cases ho : w.objs[j]? with
    | none => exact h
    | some o =>
      simp only
      cases hb : o.bag with
      | none => exact h
      | some s =>
        simp only
        cases hm : o.mode with
        | r => exact h.of_set (o' := ⟨o.path, .r, none⟩) hj (fun _ _ => rfl) rfl rfl
        | w =>
          refine h.of_set (o' := ⟨o.path, .w, none⟩) hj (fun _ _ => rfl) rfl (Function.update_of_ne ?_ _ _)
          rintro rfl
          have := h.others j o hj ho hm rfl
          rw [hb] at this; cases this
  | write j clock ts t r topic frame child =>
    by_cases hj : j = i
    · subst hj
      obtain ⟨b', hb'⟩ := write_some b clock ts t r topic frame child
      refine ⟨b', ?_, fun cs hcs => ?_⟩
      · rw [step_write h.obj rfl]
        have hi := (List.getElem?_eq_some_iff.mp h.obj).1
        refine ⟨?_, h.file, fun l o hl hlo hm hp => h.others l o hl ?_ hm hp⟩
        · simp [Disk.setObj, hi, hb']
        · simpa [Disk.setObj, List.getElem?_set, Ne.symm hl] using hlo
      · have : callsOf j [.write j clock ts t r topic frame child] = [⟨ts, t, r, topic, frame, child, clock⟩] := by simp [callsOf]
        rw [this, writeAll, List.foldl_append, ← writeAll, hcs]
        exact hb'
    · refine ⟨b, ?_, fun cs hcs => by simpa [callsOf, hj] using hcs⟩
      cases ho : w.objs[j]? with
      | none => simp only [Disk.step, Disk.write, ho]; exact h
      | some o =>
        cases hm : o.mode with
        | r => simp only [Disk.step, Disk.write, ho, hm]; exact h
        | w =>
          rw [step_write ho hm]
          refine h.of_set hj (fun h1 h2 => ?_) rfl rfl
          simp only at h1 h2 ⊢
          rw [h.others j o hj ho hm h2]; rfl
  | load j topic cache fate =>
    obtain ⟨x, _, h2⟩ := step_io (cast := cast) w (e := .load j topic cache fate) (.inl ⟨j, topic, cache, fate, rfl⟩)
    refine ⟨b, ?_, fun cs hcs => by simpa [callsOf] using hcs⟩
    rw [h2 hd]; exact ⟨h.obj, h.file, h.others⟩
  | exportNc j topic out fate =>
    obtain ⟨x, _, h2⟩ := step_io (cast := cast) w (e := .exportNc j topic out fate) (.inr ⟨j, topic, out, fate, rfl⟩)
    refine ⟨b, ?_, fun cs hcs => by simpa [callsOf] using hcs⟩
    rw [h2 hd]; exact ⟨h.obj, h.file, h.others⟩
  | crash => exact absurd trivial hd

theorem callsOf_cons (i : ℕ) (e : SessEvent) (es : List SessEvent) : callsOf i (e :: es) = callsOf i [e] ++ callsOf i es := by
  cases e <;> simp [callsOf]
  split_ifs <;> simp

theorem run_writing {i : ℕ} {p : Path} {k : ℕ} (es : List SessEvent) (hx : ∀ e ∈ es, e ≠ .exit i ∧ ¬ Dies e) :
    ∀ {w : Disk} {b : Bag}, Writing w i p k b → NoWriter cast p w es → ∃ b', Writing (w.run cast es).1 i p k b' ∧
      ∀ cs, writeAll cs = some b → writeAll (cs ++ callsOf i es) = some b' := by
  induction es with
  | nil => intro w b h _; exact ⟨b, h, fun cs hcs => by simpa [callsOf] using hcs⟩
  | cons e es ih =>
    intro w b h hn
    obtain ⟨b1, h1, c1⟩ := step_writing (cast := cast) h (hx e (by simp)).1 (hx e (by simp)).2 hn.1
    obtain ⟨b2, h2, c2⟩ := ih (fun e he => hx e (by simp [he])) h1 hn.2
    refine ⟨b2, h2, fun cs hcs => ?_⟩
    rw [callsOf_cons, ← List.append_assoc]
    exact c2 _ (c1 cs hcs)

theorem enter_writing {w : Disk} {i : ℕ} {p : Path} (ho : w.objs[i]? = some ⟨p, .w, none⟩) (hu : Unwritten w p) :
    (w.step cast (.enter i)).2 = .ok .unit ∧ Writing (w.step cast (.enter i)).1 i p w.sessions Bag.empty := by
  have hi := (List.getElem?_eq_some_iff.mp ho).1
  simp only [Disk.step, Disk.enter, ho]
  refine ⟨trivial, by simp [Disk.setObj, hi], by simp, fun j o hj hjo hm hp => ?_⟩
  refine hu o (List.mem_of_getElem? (i := j) ?_) hm hp
  simpa [Disk.setObj, List.getElem?_set, Ne.symm hj] using hjo

/-- What the file of a writer contains after its block, whatever else happens in the process meanwhile: what the calls inside the block have written
to an empty bag, and nothing of what it contained before. Failed calls do not keep the block from completing the file. -/
theorem C80_stored {w : Disk} {i : ℕ} {p : Path} (ho : w.objs[i]? = some ⟨p, .w, none⟩) (hu : Unwritten w p) (es : List SessEvent)
    (hx : ∀ e ∈ es, e ≠ .exit i ∧ ¬ Dies e) (hn : NoWriter cast p (w.step cast (.enter i)).1 es) :
    ∃ b, writeAll (callsOf i es) = some b ∧ (w.run cast (.enter i :: es ++ [.exit i])).1.bags p = some (.complete b) ∧
      (w.run cast (.enter i :: es ++ [.exit i])).2.head? = some (.ok .unit) ∧
      (w.run cast (.enter i :: es ++ [.exit i])).2.getLast? = some (.ok .unit) ∧
      Unwritten (w.run cast (.enter i :: es ++ [.exit i])).1 p := by
  obtain ⟨h0, h1⟩ := enter_writing (cast := cast) ho hu
  obtain ⟨b, h2, h3⟩ := run_writing es hx h1 hn
  have hc : writeAll (callsOf i es) = some b := by simpa using h3 [] rfl
  have e1 : w.run cast (.enter i :: es) = (((w.step cast (.enter i)).1.run cast es).1, (w.step cast (.enter i)).2 :: ((w.step cast (.enter i)).1.run cast es).2) := rfl
  have e2 : ∀ v : Disk, v.run cast [.exit i] = ((v.step cast (.exit i)).1, [(v.step cast (.exit i)).2]) := fun v => rfl
  rw [run_append, e1, e2]
  generalize ((w.step cast (.enter i)).1.run cast es).1 = v at *
  refine ⟨b, hc, ?_, by simp [h0], ?_, ?_⟩
  · simp only [Disk.step, Disk.exit, h2.obj, h2.file, closedFile, if_true, Function.update_self]
  · have : (v.step cast (.exit i)).2 = .ok .unit := by simp only [Disk.step, Disk.exit, h2.obj]
    rw [this]
    exact List.getLast?_concat
  · simp only [Disk.step, Disk.exit, h2.obj]
    intro o hmem hm hp
    obtain ⟨j, hj⟩ := List.mem_iff_getElem?.mp hmem
    simp only [Disk.setObj, List.getElem?_set] at hj
    split_ifs at hj with h
    · cases hj; rfl
    · exact h2.others j o (Ne.symm h) hj hm hp

/-- Inside the block of a writer, and for ever after a death of the process inside it unless a new block of a writer completes the file: the file cannot be
opened. What it contained before is lost. -/
theorem C80_crash {w : Disk} {i : ℕ} {p : Path} (ho : w.objs[i]? = some ⟨p, .w, none⟩) (hu : Unwritten w p) (es : List SessEvent)
    (hx : ∀ e ∈ es, e ≠ .exit i ∧ ¬ Dies e) (hn : NoWriter cast p (w.step cast (.enter i)).1 es) :
    (∀ j o, (w.run cast (.enter i :: es)).1.objs[j]? = some o → o.mode = .r → o.path = p →
      (w.run cast (.enter i :: es)).1.step cast (.enter j) = ((w.run cast (.enter i :: es)).1, .error .bagException)) ∧
    ∀ d, Dies d → ∀ es', NoWriter cast p (w.run cast (.enter i :: es ++ [d])).1 es' →
      ∀ j o, (w.run cast (.enter i :: es ++ d :: es')).1.objs[j]? = some o → o.mode = .r → o.path = p →
        (w.run cast (.enter i :: es ++ d :: es')).1.step cast (.enter j) = ((w.run cast (.enter i :: es ++ d :: es')).1, .error .bagException) := by
  obtain ⟨h0, h1⟩ := enter_writing (cast := cast) ho hu
  obtain ⟨b, h2, h3⟩ := run_writing es hx h1 hn
  have e1 : (w.run cast (.enter i :: es)).1 = ((w.step cast (.enter i)).1.run cast es).1 := rfl
  refine ⟨fun j o hj hm hp => ?_, fun d hd es' hn' => ?_⟩
  · rw [e1] at hj ⊢
    exact (C80_reads hj hm).2.1 _ (hp ▸ h2.file)
  · have e3 : w.run cast (.enter i :: es ++ d :: es') = w.run cast ((.enter i :: es ++ [d]) ++ es') := by simp
    rw [e3, run_append]
    have e4 : (w.run cast (.enter i :: es ++ [d])).1 = (((w.step cast (.enter i)).1.run cast es).1.step cast d).1 := by rw [run_snoc, e1]
    rw [e4] at hn' ⊢
    generalize ((w.step cast (.enter i)).1.run cast es).1 = v at *
    have hv : (v.step cast d).1.bags p = some (.writing w.sessions) ∧ (v.step cast d).1.objs = [] := by
      cases d with
      | crash => exact ⟨h2.file, rfl⟩
      | load j topic cache fate =>
        obtain ⟨x, h, _⟩ := step_io (cast := cast) v (e := .load j topic cache fate) (.inl ⟨j, topic, cache, fate, rfl⟩)
        rw [h hd]; exact ⟨h2.file, rfl⟩
      | exportNc j topic out fate =>
        obtain ⟨x, h, _⟩ := step_io (cast := cast) v (e := .exportNc j topic out fate) (.inr ⟨j, topic, out, fate, rfl⟩)
        rw [h hd]; exact ⟨h2.file, rfl⟩
      | _ => exact absurd hd id
    obtain ⟨h5, _⟩ := C80_stable (cast := cast) (p := p) (w := (v.step cast d).1) (by simp [Unwritten, hv.2]) es' hn'
    intro j o hj hm hp
    exact (C80_reads hj hm).2.1 _ (by rw [hp, h5]; exact hv.1)

end RBM.Props
