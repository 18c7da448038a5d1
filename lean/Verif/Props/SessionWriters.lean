import Verif.Props.SessionExamples

/-!
C80: which calls readers and writers have, and two writers of the same file.
-/

namespace RBM.Props

open RBM RBM.Ros RBM.Spec

variable {cast : ℤ → ℤ}

/-- Readers cannot write, and writers can neither load nor export, inside and outside of their blocks: the call raises and changes nothing. -/
theorem C80_methods {w : Disk} {i : ℕ} {o : BagObj} (ho : w.objs[i]? = some o) :
    (o.mode = .r → ∀ c : WriteCall, w.step cast (.write i c.clock c.timestamps c.translation c.rotation c.topic c.frame c.childFrame) =
      (w, .error .attributeError)) ∧
    (o.mode = .w → ∀ topic cache out, w.step cast (.load i topic cache .done) = (w, .error .attributeError) ∧
      w.step cast (.exportNc i topic out .done) = (w, .error .attributeError)) := by
  refine ⟨fun hm c => ?_, fun hm topic cache out => ⟨?_, ?_⟩⟩
  · simp only [Disk.step, Disk.write, ho, hm]
  · simp only [Disk.step, Disk.readerAt, ho, hm, endCall]
  · simp only [Disk.step, Disk.readerAt, ho, hm, endCall]

/-! ### Two writers of the same file -/

/-- The session in which object `l` has the file `p` open for writing. -/
def wsess (w : Disk) (p : Path) (l : ℕ) : Option ℕ :=
  match w.objs[l]? with
  | some o => if o.mode = .w ∧ o.path = p then o.bag.map Prod.fst else none
  | none => none

theorem wsess_objs {w w' : Disk} (h : w'.objs = w.objs) (p : Path) (l : ℕ) : wsess w' p l = wsess w p l := by simp only [wsess, h]

theorem wsess_set {w w' : Disk} {j : ℕ} {o o' : BagObj} (ho : w.objs[j]? = some o) (h : w'.objs = (w.setObj j o').objs) (p : Path) (l : ℕ) :
    wsess w' p l = if l = j then (if o'.mode = .w ∧ o'.path = p then o'.bag.map Prod.fst else none) else wsess w p l := by
  have hj := (List.getElem?_eq_some_iff.mp ho).1
  simp only [wsess, h, Disk.setObj, List.getElem?_set]
  by_cases hl : l = j
  · subst hl; simp [hj]
  · simp [hl, Ne.symm hl]

theorem wsess_append (w : Disk) (o : BagObj) (hb : o.bag = none) (p : Path) (l : ℕ) : wsess { w with objs := w.objs ++ [o] } p l = wsess w p l := by
  simp only [wsess, List.getElem?_append]
  split_ifs with hl
  · rfl
  · rw [List.getElem?_eq_none (by omega : w.objs.length ≤ l)]
    cases hx : ([o] : List BagObj)[l - w.objs.length]? with
    | none => rfl
    | some o' =>
      have := List.mem_singleton.mp (List.mem_of_getElem? hx)
      simp [this, hb]

/-- Whatever does not open the file for writing and does not close it leaves it and its writers alone. -/
theorem step_wsess {w : Disk} {p : Path} {e : SessEvent} (hd : ¬ Dies e) (hn : ∀ i o, e = .enter i → w.objs[i]? = some o → o.mode = .w → o.path ≠ p)
    (hx : ∀ l, e = .exit l → wsess w p l = none) : (w.step cast e).1.bags p = w.bags p ∧ ∀ l, wsess (w.step cast e).1 p l = wsess w p l := by
  cases e with
  | reader q => exact ⟨rfl, wsess_append w _ rfl p⟩
  | writer q => exact ⟨rfl, wsess_append w _ rfl p⟩
  | enter j =>
    simp only [Disk.step, Disk.enter]
    cases ho : w.objs[j]? with
    | none => exact ⟨rfl, fun _ => rfl⟩
    | some o =>
      simp only
      cases hm : o.mode with
      | r =>
        simp only
        cases w.bags o.path with
        | none => exact ⟨rfl, fun _ => rfl⟩
        | some f =>
          cases f with
          | writing k => exact ⟨rfl, fun _ => rfl⟩
          | complete b =>
            refine ⟨rfl, fun l => ?_⟩
            refine (wsess_set (o' := ⟨o.path, .r, some (w.sessions, b)⟩) ho rfl p l).trans ?_
            split_ifs with h1 h2
            · cases h2.1
            · subst h1; simp [wsess, ho, hm]
            · rfl
      | w =>
        have hp := hn j o rfl ho hm
        refine ⟨Function.update_of_ne (Ne.symm hp) _ _, fun l => ?_⟩
        refine (wsess_set (o' := ⟨o.path, .w, some (w.sessions, Bag.empty)⟩) ho rfl p l).trans ?_
        split_ifs with h1 h2
        · exact absurd h2.2 hp
        · subst h1; simp [wsess, ho, hp]
        · rfl
  | exit j =>
    have hx := hx j rfl
    simp only [Disk.step, Disk.exit]
    cases ho : w.objs[j]? with
    | none => exact ⟨rfl, fun _ => rfl⟩
    | some o =>
      simp only [wsess, ho] at hx
      simp only
      cases hb : o.bag with
      | none => exact ⟨rfl, fun _ => rfl⟩
      | some s =>
        simp only
        have hp : ¬ (o.mode = .w ∧ o.path = p) := by
          intro h
          rw [if_pos h, hb] at hx
          cases hx
        have hl : ∀ (w' : Disk) (o' : BagObj), o'.mode = o.mode → o'.path = o.path → w'.objs = (w.setObj j o').objs → ∀ l, wsess w' p l = wsess w p l := by
          intro w' o' h1 h2 h3 l
          rw [wsess_set ho h3, h1, h2, if_neg hp]
          split_ifs with h
          · subst h; simp only [wsess, ho, if_neg hp]
          · rfl
        cases hm : o.mode with
        | r => exact ⟨rfl, hl _ ⟨o.path, .r, none⟩ hm.symm rfl rfl⟩
        | w => exact ⟨Function.update_of_ne (fun h => hp ⟨hm, h.symm⟩) _ _, hl _ ⟨o.path, .w, none⟩ hm.symm rfl rfl⟩
  | write j clock ts t r topic frame child =>
    cases ho : w.objs[j]? with
    | none => simp only [Disk.step, Disk.write, ho]; exact ⟨trivial, fun _ => trivial⟩
    | some o =>
      cases hm : o.mode with
      | r => simp only [Disk.step, Disk.write, ho, hm]; exact ⟨trivial, fun _ => trivial⟩
      | w =>
        rw [step_write ho hm]
        refine ⟨rfl, fun l => ?_⟩
        rw [wsess_set ho rfl]
        split_ifs with h1 h2
        · subst h1
          simp only [wsess, ho, if_pos h2, Option.map_map]
          rfl
        · subst h1; simp only [wsess, ho, if_neg h2]
        · rfl
  | load j topic cache fate =>
    obtain ⟨x, _, h2⟩ := step_io (cast := cast) w (e := .load j topic cache fate) (.inl ⟨j, topic, cache, fate, rfl⟩)
    rw [h2 hd]; exact ⟨rfl, fun _ => rfl⟩
  | exportNc j topic out fate =>
    obtain ⟨x, _, h2⟩ := step_io (cast := cast) w (e := .exportNc j topic out fate) (.inr ⟨j, topic, out, fate, rfl⟩)
    rw [h2 hd]; exact ⟨rfl, fun _ => rfl⟩
  | crash => exact absurd trivial hd

/-- Closing the file. -/
theorem exit_wsess {w : Disk} {p : Path} {l k : ℕ} (h : wsess w p l = some k) :
    (∃ b, (w.step cast (.exit l)).1.bags p = some (closedFile k b (w.bags p))) ∧
      ∀ m, wsess (w.step cast (.exit l)).1 p m = if m = l then none else wsess w p m := by
  simp only [wsess] at h
  cases ho : w.objs[l]? with
  | none => rw [ho] at h; cases h
  | some o =>
    rw [ho] at h
    simp only at h
    split_ifs at h with hp
    obtain ⟨hm, rfl⟩ := hp
    cases hb : o.bag with
    | none => rw [hb] at h; cases h
    | some s =>
      obtain ⟨k', b⟩ := s
      rw [hb] at h
      cases h
      simp only [Disk.step, Disk.exit, ho, hb, hm]
      refine ⟨⟨b, Function.update_self _ _ _⟩, fun m => ?_⟩
      refine (wsess_set (o' := ⟨o.path, .w, none⟩) ho rfl o.path m).trans ?_
      simp

/-- Session numbers are not used again. -/
theorem step_sessions (w : Disk) (e : SessEvent) : w.sessions ≤ (w.step cast e).1.sessions := by
  cases e with
  | reader q => exact le_rfl
  | writer q => exact le_rfl
  | enter j =>
    simp only [Disk.step, Disk.enter]
    cases w.objs[j]? with
    | none => exact le_rfl
    | some o =>
      simp only
      cases o.mode with
      | r =>
        simp only
        cases w.bags o.path with
        | none => exact le_rfl
        | some f => cases f <;> simp
      | w => simp
  | exit j =>
    simp only [Disk.step, Disk.exit]
    cases w.objs[j]? with
    | none => exact le_rfl
    | some o =>
      simp only
      cases o.bag with
      | none => exact le_rfl
      | some s => cases o.mode <;> exact le_rfl
  | write j clock ts t r topic frame child =>
    simp only [Disk.step, Disk.write]
    cases w.objs[j]? with
    | none => exact le_rfl
    | some o => simp only; cases o.mode <;> exact le_rfl
  | load j topic cache fate =>
    obtain ⟨x, h1, h2⟩ := step_io (cast := cast) w (e := .load j topic cache fate) (.inl ⟨j, topic, cache, fate, rfl⟩)
    by_cases hd : Dies (.load j topic cache fate)
    · rw [h1 hd]; exact le_rfl
    · rw [h2 hd]
  | exportNc j topic out fate =>
    obtain ⟨x, h1, h2⟩ := step_io (cast := cast) w (e := .exportNc j topic out fate) (.inr ⟨j, topic, out, fate, rfl⟩)
    by_cases hd : Dies (.exportNc j topic out fate)
    · rw [h1 hd]; exact le_rfl
    · rw [h2 hd]
  | crash => exact le_rfl

theorem run_sessions (w : Disk) (es : List SessEvent) : w.sessions ≤ (w.run cast es).1.sessions := by
  induction es generalizing w with
  | nil => exact le_rfl
  | cons e es ih => exact (step_sessions w e).trans (ih _)

/-- The file of two overlapping blocks, with whether each has been left. -/
def overlapFile (f : Option BagFile) (ki kj : ℕ) : Bool → Bool → Prop
  | false, false => f = some (.writing kj)
  | true, false => f = some (.writing ki)
  | false, true => ∃ b, f = some (.complete b)
  | true, true => ∃ k, f = some (.writing k)

/-- What two overlapping blocks `i` and `j` (entered later) have done, with whether each has been left. -/
structure Overlap (w : Disk) (p : Path) (i j ki kj : ℕ) (xi xj : Bool) : Prop where
  first : wsess w p i = if xi then none else some ki
  second : wsess w p j = if xj then none else some kj
  rest : ∀ l, l ≠ i → l ≠ j → wsess w p l = none
  file : overlapFile (w.bags p) ki kj xi xj

theorem step_overlap {w : Disk} {p : Path} {i j ki kj : ℕ} {xi xj : Bool} (hij : i ≠ j) (hk : ki ≠ kj) (h : Overlap w p i j ki kj xi xj) {e : SessEvent}
    (hd : ¬ Dies e) (hn : ∀ i o, e = .enter i → w.objs[i]? = some o → o.mode = .w → o.path ≠ p) :
    ∃ xi' xj', Overlap (w.step cast e).1 p i j ki kj xi' xj' ∧ (xi' = true ↔ xi = true ∨ e = .exit i) ∧ (xj' = true ↔ xj = true ∨ e = .exit j) := by
  have same : (∀ l, e = .exit l → wsess w p l = none) → Overlap (w.step cast e).1 p i j ki kj xi xj := by
    intro hx
    obtain ⟨h1, h2⟩ := step_wsess (cast := cast) hd hn hx
    exact ⟨(h2 i).trans h.first, (h2 j).trans h.second, fun l h3 h4 => (h2 l).trans (h.rest l h3 h4), by rw [h1]; exact h.file⟩
  by_cases hi : e = .exit i
  · subst hi
    have hej : SessEvent.exit i ≠ .exit j := fun h => hij (by cases h; rfl)
    cases xi with
    | true => exact ⟨true, xj, same (by rintro l hl; cases hl; exact h.first), by simp, by simp [hij]⟩
    | false =>
      obtain ⟨⟨b, h1⟩, h2⟩ := exit_wsess (cast := cast) (h.first : wsess w p i = some ki)
      refine ⟨true, xj, ⟨by rw [h2, if_pos rfl]; rfl, by rw [h2, if_neg (Ne.symm hij)]; exact h.second,
        fun l h3 h4 => by rw [h2, if_neg h3]; exact h.rest l h3 h4, ?_⟩, by simp, by simp [hij]⟩
      have hf := h.file
      cases xj with
      | false =>
        simp only [overlapFile] at hf ⊢
        rw [h1, hf, closedFile, if_neg (Ne.symm hk)]
      | true =>
        obtain ⟨b', hf⟩ := hf
        exact ⟨ki, by rw [h1, hf]; rfl⟩
  · by_cases hj : e = .exit j
    · subst hj
      cases xj with
      | true => exact ⟨xi, true, same (by rintro l hl; cases hl; exact h.second), by simp [Ne.symm hij], by simp⟩
      | false =>
        obtain ⟨⟨b, h1⟩, h2⟩ := exit_wsess (cast := cast) (h.second : wsess w p j = some kj)
        refine ⟨xi, true, ⟨by rw [h2, if_neg hij]; exact h.first, by rw [h2, if_pos rfl]; rfl,
          fun l h3 h4 => by rw [h2, if_neg h4]; exact h.rest l h3 h4, ?_⟩, by simp [Ne.symm hij], by simp⟩
        have hf := h.file
        cases xi with
        | false =>
          simp only [overlapFile] at hf ⊢
          exact ⟨b, by rw [h1, hf, closedFile, if_pos rfl]⟩
        | true =>
          simp only [overlapFile] at hf ⊢
          exact ⟨kj, by rw [h1, hf, closedFile, if_neg hk]⟩
    · exact ⟨xi, xj, same (by rintro l rfl; exact h.rest l (fun h => hi (by rw [h])) (fun h => hj (by rw [h]))), by simp [hi], by simp [hj]⟩

theorem run_overlap {p : Path} {i j ki kj : ℕ} (hij : i ≠ j) (hk : ki ≠ kj) (es : List SessEvent) (hd : ∀ e ∈ es, ¬ Dies e) :
    ∀ {w : Disk} {xi xj : Bool}, Overlap w p i j ki kj xi xj → NoWriter cast p w es →
      ∃ xi' xj', Overlap (w.run cast es).1 p i j ki kj xi' xj' ∧ (xi' = true ↔ xi = true ∨ .exit i ∈ es) ∧ (xj' = true ↔ xj = true ∨ .exit j ∈ es) := by
  induction es with
  | nil => intro w xi xj h _; exact ⟨xi, xj, h, by simp, by simp⟩
  | cons e es ih =>
    intro w xi xj h hn
    obtain ⟨yi, yj, h1, h2, h3⟩ := step_overlap (cast := cast) hij hk h (hd e (by simp)) hn.1
    obtain ⟨zi, zj, h4, h5, h6⟩ := ih (fun e he => hd e (by simp [he])) h1 hn.2
    refine ⟨zi, zj, h4, ?_, ?_⟩
    · rw [h5, h2, or_assoc, List.mem_cons, eq_comm (a := e)]
    · rw [h6, h3, or_assoc, List.mem_cons, eq_comm (a := e)]

/-- Two writers of the same file with overlapping blocks: `j` enters while `i` is inside. As long as `j` is inside, and once `i` has left, no reader can
open the file, in whatever order the blocks are left; when both have left, it stays so until a new block of a writer completes the file. What either has
written is lost. -/
theorem C80_two_writers {w : Disk} {i j : ℕ} {p : Path} (hi : w.objs[i]? = some ⟨p, .w, none⟩) (hu : Unwritten w p) (es₁ : List SessEvent)
    (hx₁ : ∀ e ∈ es₁, e ≠ .exit i ∧ ¬ Dies e) (hn₁ : NoWriter cast p (w.step cast (.enter i)).1 es₁)
    (hj : (w.run cast (.enter i :: es₁)).1.objs[j]? = some ⟨p, .w, none⟩) (es₂ : List SessEvent) (hd₂ : ∀ e ∈ es₂, ¬ Dies e)
    (hn₂ : NoWriter cast p (w.run cast (.enter i :: es₁ ++ [.enter j])).1 es₂) :
    (.exit i ∈ es₂ ∨ .exit j ∉ es₂ →
      ∀ l o, (w.run cast (.enter i :: es₁ ++ .enter j :: es₂)).1.objs[l]? = some o → o.mode = .r → o.path = p →
        (w.run cast (.enter i :: es₁ ++ .enter j :: es₂)).1.step cast (.enter l) =
          ((w.run cast (.enter i :: es₁ ++ .enter j :: es₂)).1, .error .bagException)) ∧
    (.exit i ∈ es₂ → .exit j ∈ es₂ → ∀ es₃, NoWriter cast p (w.run cast (.enter i :: es₁ ++ .enter j :: es₂)).1 es₃ →
      ∀ l o, (w.run cast (.enter i :: es₁ ++ .enter j :: es₂ ++ es₃)).1.objs[l]? = some o → o.mode = .r → o.path = p →
        (w.run cast (.enter i :: es₁ ++ .enter j :: es₂ ++ es₃)).1.step cast (.enter l) =
          ((w.run cast (.enter i :: es₁ ++ .enter j :: es₂ ++ es₃)).1, .error .bagException)) := by
  obtain ⟨h0, h1⟩ := enter_writing (cast := cast) hi hu
  obtain ⟨b, h2, -⟩ := run_writing es₁ hx₁ h1 hn₁
  have e0 : (w.run cast (.enter i :: es₁)).1 = ((w.step cast (.enter i)).1.run cast es₁).1 := rfl
  have hs : w.sessions < (w.run cast (.enter i :: es₁)).1.sessions := by
    rw [e0]
    refine lt_of_lt_of_le ?_ (run_sessions _ _)
    simp [Disk.step, Disk.enter, hi]
  rw [← e0] at h2
  have e1 : (w.run cast (.enter i :: es₁ ++ [.enter j])).1 = ((w.run cast (.enter i :: es₁)).1.step cast (.enter j)).1 := run_snoc _ _ _
  have e2 : (w.run cast (.enter i :: es₁ ++ .enter j :: es₂)).1 = ((w.run cast (.enter i :: es₁ ++ [.enter j])).1.run cast es₂).1 := by
    rw [show (.enter i :: es₁ ++ .enter j :: es₂ : List SessEvent) = (.enter i :: es₁ ++ [.enter j]) ++ es₂ by simp, run_append]
  have hij : i ≠ j := by
    rintro rfl
    rw [h2.obj] at hj
    cases hj
  have ov : Overlap (w.run cast (.enter i :: es₁ ++ [.enter j])).1 p i j w.sessions (w.run cast (.enter i :: es₁)).1.sessions false false := by
    rw [e1]
    generalize (w.run cast (.enter i :: es₁)).1 = v at *
    have hb : (v.step cast (.enter j)).1.bags p = some (.writing v.sessions) := by simp [Disk.step, Disk.enter, hj]
    have hl : ∀ l, wsess (v.step cast (.enter j)).1 p l = if l = j then some v.sessions else wsess v p l := by
      intro l
      simp only [Disk.step, Disk.enter, hj]
      refine (wsess_set (o' := ⟨p, .w, some (v.sessions, Bag.empty)⟩) hj rfl p l).trans ?_
      simp
    refine ⟨?_, by rw [hl, if_pos rfl]; rfl, fun l h3 h4 => ?_, hb⟩
    · rw [hl, if_neg hij]; simp [wsess, h2.obj]
    · rw [hl, if_neg h4]
      simp only [wsess]
      cases ho : v.objs[l]? with
      | none => rfl
      | some o =>
        simp only
        split_ifs with h
        · rw [h2.others l o h3 ho h.1 h.2]; rfl
        · rfl
  obtain ⟨xi, xj, ho, hxi, hxj⟩ := run_overlap hij (ne_of_lt hs) es₂ hd₂ ov hn₂
  rw [← e2] at ho
  simp only [Bool.false_eq_true, false_or] at hxi hxj
  have hfile : .exit i ∈ es₂ ∨ .exit j ∉ es₂ → ∃ k, (w.run cast (.enter i :: es₁ ++ .enter j :: es₂)).1.bags p = some (.writing k) := by
    intro h
    have hf := ho.file
    cases xi with
    | true =>
      cases xj with
      | false => exact ⟨_, hf⟩
      | true => exact hf
    | false =>
      cases xj with
      | false => exact ⟨_, hf⟩
      | true =>
        rcases h with h | h
        · cases hxi.mpr h
        · exact absurd (hxj.mp rfl) h
  refine ⟨fun h l o hl hm hp => ?_, fun hxi' hxj' es₃ hn₃ l o hl hm hp => ?_⟩
  · obtain ⟨k, hk⟩ := hfile h
    exact (C80_reads hl hm).2.1 k (hp ▸ hk)
  · obtain ⟨k, hk⟩ := hfile (.inl hxi')
    have hun : Unwritten (w.run cast (.enter i :: es₁ ++ .enter j :: es₂)).1 p := by
      intro o' hmem hm' hp'
      obtain ⟨m, hm⟩ := List.mem_iff_getElem?.mp hmem
      have hw : wsess (w.run cast (.enter i :: es₁ ++ .enter j :: es₂)).1 p m = none := by
        by_cases h3 : m = i
        · subst h3; rw [ho.first, hxi.mpr hxi']; rfl
        · by_cases h4 : m = j
          · subst h4; rw [ho.second, hxj.mpr hxj']; rfl
          · exact ho.rest m h3 h4
      simp only [wsess, hm, hm', hp', and_self, if_true] at hw
      cases hb : o'.bag with
      | none => rfl
      | some s => rw [hb] at hw; cases hw
    obtain ⟨h5, -⟩ := C80_stable (cast := cast) hun es₃ hn₃
    rw [run_append] at hl ⊢
    exact (C80_reads hl hm).2.1 k (by rw [hp]; exact h5.trans hk)

/-! ### A concrete case -/

/-- A process with two writers and a reader of the same file. -/
noncomputable def exWriters : Disk := { exDisk with objs := [⟨exBagPath, .w, none⟩, ⟨exBagPath, .w, none⟩, ⟨exBagPath, .r, none⟩] }

example (es₂ : List SessEvent) (h : es₂ = [.exit 0, .exit 1] ∨ es₂ = [.exit 1, .exit 0]) :
    (exWriters.run cast (.enter 0 :: [] ++ .enter 1 :: es₂ ++ [])).1.step cast (.enter 2) =
      ((exWriters.run cast (.enter 0 :: [] ++ .enter 1 :: es₂ ++ [])).1, .error .bagException) := by
  have hd : ∀ e ∈ es₂, ¬ Dies e := by
    intro e he
    rcases h with rfl | rfl <;> simp only [List.mem_cons, List.not_mem_nil, or_false] at he <;> rcases he with rfl | rfl <;> exact id
  have hn : ∀ v : Disk, NoWriter cast exBagPath v es₂ := by
    intro v
    rcases h with rfl | rfl <;> exact ⟨fun _ _ h => (nomatch h), fun _ _ h => (nomatch h), trivial⟩
  refine (C80_two_writers (cast := cast) (w := exWriters) (i := 0) (j := 1) (p := exBagPath) rfl (by simp [Unwritten, exWriters]) [] (by simp) trivial
    (by simp [Disk.run, Disk.step, Disk.enter, exWriters, Disk.setObj]) es₂ hd (hn _)).2 (by rcases h with rfl | rfl <;> simp) (by rcases h with rfl | rfl <;> simp)
    [] trivial 2 ⟨exBagPath, .r, none⟩ ?_ rfl rfl
  rcases h with rfl | rfl <;> simp [Disk.run, Disk.step, Disk.enter, Disk.exit, exWriters, Disk.setObj]

example : exWriters.step cast (.write 2 exWrite.clock exWrite.timestamps exWrite.translation exWrite.rotation exWrite.topic exWrite.frame exWrite.childFrame) =
    (exWriters, .error .attributeError) ∧ exWriters.step cast (.load 0 "/pose" true .done) = (exWriters, .error .attributeError) :=
  ⟨(C80_methods (o := ⟨exBagPath, .r, none⟩) rfl).1 rfl exWrite, ((C80_methods (o := ⟨exBagPath, .w, none⟩) rfl).2 rfl "/pose" true .none).1⟩

end RBM.Props
