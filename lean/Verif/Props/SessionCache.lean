import Verif.Props.Session

/-!
C81: caches and exports if calls are interrupted.
-/

namespace RBM.Props

open RBM RBM.Ros RBM.Spec

variable {cast : ℤ → ℤ}

/-- What an export does to the netCDF files. -/
theorem export_ncs (w : Disk) (rd : Reader) (topic : String) (out : OutFile) (fate : Fate) :
    (∃ e, (w.exportWith cast rd topic out fate) = (w, .error e) ∧ (rd.loadDatasetUncached topic = .error e ∨ rd.getFilename out = .error e)) ∨
    ∃ ds q, rd.loadDatasetUncached topic = .ok ds ∧ rd.getFilename out = .ok q ∧
      ((fate = .done ∧ w.exportWith cast rd topic out fate = (w.setNc q (.complete (writeNetcdf cast ds)), .ok .unit)) ∨
       (fate ≠ .done ∧ w.exportWith cast rd topic out fate = (w.setNc q .torn, .error .osError))) := by
  simp only [Disk.exportWith]
  cases h1 : rd.loadDatasetUncached topic with
  | error e => exact .inl ⟨e, rfl, .inl rfl⟩
  | ok ds =>
    simp only
    cases h2 : rd.getFilename out with
    | error e => exact .inl ⟨e, rfl, .inr rfl⟩
    | ok q =>
      refine .inr ⟨ds, q, rfl, rfl, ?_⟩
      cases fate with
      | done => exact .inl ⟨rfl, rfl⟩
      | fails => exact .inr ⟨nofun, rfl⟩
      | dies => exact .inr ⟨nofun, rfl⟩

/-- What a load does to the netCDF files, and what it returns. -/
theorem load_ncs (w : Disk) (rd : Reader) (topic : String) (fate : Fate) :
    (∃ f, w.ncs (rd.cachePath topic) = some f ∧ w.loadWith cast rd topic true fate = (w, openNc (some f))) ∨
    (w.ncs (rd.cachePath topic) = none ∧
      ((∃ e, rd.loadDatasetUncached topic = .error e ∧ w.loadWith cast rd topic true fate = (w, .error e)) ∨
       ∃ ds, rd.loadDatasetUncached topic = .ok ds ∧
        ((fate = .done ∧ w.loadWith cast rd topic true fate = (w.setNc (rd.cachePath topic) (.complete (writeNetcdf cast ds)), .ok (.dataset (openDataset (writeNetcdf cast ds))))) ∨
         (fate ≠ .done ∧ w.loadWith cast rd topic true fate = (w.setNc (rd.cachePath topic) .torn, .error .osError))))) := by
  simp only [Disk.loadWith, if_true]
  cases h : w.ncs (rd.cachePath topic) with
  | some f => exact .inl ⟨f, rfl, rfl⟩
  | none =>
    refine .inr ⟨rfl, ?_⟩
    simp only
    rcases export_ncs (cast := cast) w rd topic (.path (rd.cachePath topic)) fate with ⟨e, h1, h2⟩ | ⟨ds, q, h1, h2, h3⟩
    · rw [h1]
      rcases h2 with h2 | h2
      · exact .inl ⟨e, h2, rfl⟩
      · cases h2
    · cases h2
      refine .inr ⟨ds, h1, ?_⟩
      rcases h3 with ⟨h3, h4⟩ | ⟨h3, h4⟩
      · rw [h4]; exact .inl ⟨h3, by simp [Disk.setNc, openNc]⟩
      · rw [h4]; exact .inr ⟨h3, rfl⟩

theorem endCall_ncs (fate : Fate) (x : Disk × Res SessRet) : (endCall fate x).1.ncs = x.1.ncs ∧ (endCall fate x).2 = x.2 := by cases fate <;> exact ⟨rfl, rfl⟩

theorem readerAt_ok {w : Disk} {i : ℕ} {rd : Reader} (h : w.readerAt i = .ok rd) :
    ∃ o, w.objs[i]? = some o ∧ o.mode = .r ∧ rd = ⟨o.path, o.bag.map Prod.snd⟩ := by
  simp only [Disk.readerAt] at h
  cases ho : w.objs[i]? with
  | none => rw [ho] at h; cases h
  | some o =>
    rw [ho] at h
    simp only at h
    cases hm : o.mode with
    | w => rw [hm] at h; cases h
    | r => rw [hm] at h; cases h; exact ⟨o, rfl, hm, rfl⟩

/-- One event changes at most one netCDF file: that of a cached load if it does not exist, or that of an export. -/
theorem step_ncs (w : Disk) (e : SessEvent) : (w.step cast e).1.ncs = w.ncs ∨
    ∃ i rd topic ds q f, w.readerAt i = .ok rd ∧ rd.loadDatasetUncached topic = .ok ds ∧ (w.step cast e).1.ncs = Function.update w.ncs q (some f) ∧
      ((∃ fate, e = .load i topic true fate ∧ q = rd.cachePath topic ∧ w.ncs q = none) ∨ (∃ out fate, e = .exportNc i topic out fate ∧ rd.getFilename out = .ok q)) ∧
      (f = .complete (writeNetcdf cast ds) ∨ (f = .torn ∧ Interrupted e)) := by
  cases e with
  | reader p => exact .inl rfl
  | writer p => exact .inl rfl
  | enter i =>
    left
    simp only [Disk.step, Disk.enter]
    cases w.objs[i]? with
    | none => rfl
    | some o =>
      simp only
      cases o.mode with
      | w => rfl
      | r =>
        simp only
        cases w.bags o.path with
        | none => rfl
        | some f => cases f <;> rfl
  | exit i =>
    left
    simp only [Disk.step, Disk.exit]
    cases w.objs[i]? with
    | none => rfl
    | some o =>
      simp only
      cases o.bag with
      | none => rfl
      | some s => cases o.mode <;> rfl
  | write i clock ts t r topic frame child =>
    left
    simp only [Disk.step, Disk.write]
    cases w.objs[i]? with
    | none => rfl
    | some o =>
      simp only
      cases o.mode <;> rfl
  | load i topic cache fate =>
    simp only [Disk.step]
    cases hr : w.readerAt i with
    | error e => exact .inl (endCall_ncs fate _).1
    | ok rd =>
      simp only
      rw [(endCall_ncs fate _).1]
      cases cache with
      | false => exact .inl rfl
      | true =>
        rcases load_ncs (cast := cast) w rd topic fate with ⟨f, _, h⟩ | ⟨hn, ⟨e, _, h⟩ | ⟨ds, hds, ⟨hf, h⟩ | ⟨hf, h⟩⟩⟩
        · rw [h]; exact .inl rfl
        · rw [h]; exact .inl rfl
        · rw [h]
          exact .inr ⟨i, rd, topic, ds, _, _, hr, hds, rfl, .inl ⟨fate, rfl, rfl, hn⟩, .inl rfl⟩
        · rw [h]
          refine .inr ⟨i, rd, topic, ds, _, _, hr, hds, rfl, .inl ⟨fate, rfl, rfl, hn⟩, .inr ⟨rfl, ?_⟩⟩
          cases fate with
          | done => exact absurd rfl hf
          | fails => trivial
          | dies => trivial
  | exportNc i topic out fate =>
    simp only [Disk.step]
    cases hr : w.readerAt i with
    | error e => exact .inl (endCall_ncs fate _).1
    | ok rd =>
      simp only
      rw [(endCall_ncs fate _).1]
      rcases export_ncs (cast := cast) w rd topic out fate with ⟨e, h, _⟩ | ⟨ds, q, hds, hq, ⟨hf, h⟩ | ⟨hf, h⟩⟩
      · rw [h]; exact .inl rfl
      · rw [h]
        exact .inr ⟨i, rd, topic, ds, q, _, hr, hds, rfl, .inr ⟨out, fate, rfl, hq⟩, .inl rfl⟩
      · rw [h]
        refine .inr ⟨i, rd, topic, ds, q, _, hr, hds, rfl, .inr ⟨out, fate, rfl, hq⟩, .inr ⟨rfl, ?_⟩⟩
        cases fate with
        | done => exact absurd rfl hf
        | fails => trivial
        | dies => trivial
  | crash => exact .inl rfl

/-- A netCDF file that exists, whole or not, is changed only by exports to it: never by cached loads, with whatever bag. -/
theorem C81_only_exports {w : Disk} {p : Path} {f : NcState} (hf : w.ncs p = some f) (es : List SessEvent) (hn : NoExport cast p w es) :
    (w.run cast es).1.ncs p = some f := by
  induction es generalizing w with
  | nil => exact hf
  | cons e es ih =>
    refine ih ?_ hn.2
    rcases step_ncs (cast := cast) w e with h | ⟨i, rd, topic, ds, q, g, hr, hds, h, hwhy, _⟩
    · rw [h]; exact hf
    · rw [h, Function.update_of_ne]
      · exact hf
      · rintro rfl
        rcases hwhy with ⟨fate, rfl, rfl, h0⟩ | ⟨out, fate, rfl, h0⟩
        · rw [hf] at h0; cases h0
        · refine hn.1 ?_
          obtain ⟨o, ho, _, rfl⟩ := readerAt_ok hr
          cases out with
          | none => cases h0; exact ⟨o, ho, rfl, rfl⟩
          | path q => cases h0; rfl
          | str s => cases h0

theorem load_step {w : Disk} {i : ℕ} {rd : Reader} (h : w.readerAt i = .ok rd) (topic : String) (cache : Bool) (fate : Fate) :
    (w.step cast (.load i topic cache fate)).2 = (w.loadWith cast rd topic cache fate).2 := by
  simp only [Disk.step, h]
  exact (endCall_ncs fate _).2

/-- A cached load that is interrupted while it writes the cache file (by an error or by the death of the process) makes all later cached loads of that
topic fail, in this and every later process and for every bag of that folder, until the file is removed or exported anew. -/
theorem C81_torn_forever {w : Disk} {i : ℕ} {rd : Reader} (hr : w.readerAt i = .ok rd) {topic : String} {ds : Dataset}
    (hds : rd.loadDatasetUncached topic = .ok ds) (hnew : w.ncs (rd.cachePath topic) = none) {fate : Fate} (hfate : fate ≠ .done)
    (es : List SessEvent) (hn : NoExport cast (rd.cachePath topic) (w.step cast (.load i topic true fate)).1 es) {j : ℕ} {o : BagObj}
    (ho : (w.run cast (.load i topic true fate :: es)).1.objs[j]? = some o) (hm : o.mode = .r) (hp : o.path.folder = rd.bagFile.folder) (fate' : Fate) :
    ((w.run cast (.load i topic true fate :: es)).1.step cast (.load j topic true fate')).2 = .error .osError := by
  have h1 : (w.step cast (.load i topic true fate)).1.ncs (rd.cachePath topic) = some .torn := by
    simp only [Disk.step, hr]
    rw [(endCall_ncs fate _).1]
    rcases load_ncs (cast := cast) w rd topic fate with ⟨f, h, _⟩ | ⟨_, ⟨e, h, _⟩ | ⟨ds', _, ⟨h, _⟩ | ⟨_, h⟩⟩⟩
    · rw [hnew] at h; cases h
    · rw [hds] at h; cases h
    · exact absurd h hfate
    · rw [h]; simp [Disk.setNc]
  have h2 : (w.run cast (.load i topic true fate :: es)).1.ncs (rd.cachePath topic) = some .torn := C81_only_exports h1 es hn
  generalize (w.run cast (.load i topic true fate :: es)).1 = v at *
  have hrj : v.readerAt j = .ok ⟨o.path, o.bag.map Prod.snd⟩ := by simp only [Disk.readerAt, ho, hm]
  have hc : (Reader.mk o.path (o.bag.map Prod.snd)).cachePath topic = rd.cachePath topic := by simp only [Reader.cachePath, hp]
  rw [load_step hrj]
  simp only [Disk.loadWith, if_true, hc, h2, openNc]

/-- Exporting the topic to the cache file again, without interruption, repairs it. -/
theorem C81_repair {w : Disk} {i : ℕ} {rd : Reader} (hr : w.readerAt i = .ok rd) {topic : String} {ds : Dataset}
    (hds : rd.loadDatasetUncached topic = .ok ds) :
    (w.run cast [.exportNc i topic (.path (rd.cachePath topic)) .done, .load i topic true .done]).2 =
      [.ok .unit, .ok (.dataset (openDataset (writeNetcdf cast ds)))] := by
  have e1 : w.step cast (.exportNc i topic (.path (rd.cachePath topic)) .done) = (w.setNc (rd.cachePath topic) (.complete (writeNetcdf cast ds)), .ok .unit) := by
    simp only [Disk.step, hr, endCall, Disk.exportWith, hds, Reader.getFilename]
  have hr' : (w.setNc (rd.cachePath topic) (.complete (writeNetcdf cast ds))).readerAt i = .ok rd := hr
  simp only [Disk.run, e1, load_step hr']
  simp [Disk.loadWith, Disk.setNc, openNc]

/-- An interrupted export destroys the file that was there before: it can no longer be opened. -/
theorem C81_export_not_atomic {w : Disk} {i : ℕ} {rd : Reader} (hr : w.readerAt i = .ok rd) {topic : String} {ds : Dataset}
    (hds : rd.loadDatasetUncached topic = .ok ds) (q : Path) {fate : Fate} (hfate : fate ≠ .done) :
    (w.step cast (.exportNc i topic (.path q) fate)).2 = .error .osError ∧
    openNc ((w.step cast (.exportNc i topic (.path q) fate)).1.ncs q) = .error .osError ∧
    ∀ q', q' ≠ q → (w.step cast (.exportNc i topic (.path q) fate)).1.ncs q' = w.ncs q' := by
  simp only [Disk.step, hr, Disk.exportWith, hds, Reader.getFilename]
  rw [(endCall_ncs _ _).1, (endCall_ncs _ _).2]
  cases fate with
  | done => exact absurd rfl hfate
  | fails => exact ⟨rfl, by simp [Disk.setNc, openNc], fun q' h => by simp [Disk.setNc, h]⟩
  | dies => exact ⟨rfl, by simp [Disk.setNc, openNc], fun q' h => by simp [Disk.setNc, h]⟩

/-! ### One bag per folder -/

/-- For topics without underscore, the cache is missing, torn or what the bag says. -/
structure CacheOk (cast : ℤ → ℤ) (torn : Prop) (p : Path) (b : Bag) (w : Disk) : Prop where
  file : w.bags p = some (.complete b)
  objs : ∀ o ∈ w.objs, (o.mode = .w → o.path ≠ p) ∧ (o.mode = .r → (o.path.folder = p.folder → o.path = p) ∧ o.path.folder ≠ p.folder ++ ["cache"] ∧
    (o.path = p → ∀ s, o.bag = some s → s.2 = b))
  cache : ∀ topic f, '_' ∉ topic.toList → w.ncs ((Reader.mk p none).cachePath topic) = some f →
    (torn ∧ f = .torn) ∨ ∃ ds, (Reader.mk p (some b)).loadDatasetUncached topic = .ok ds ∧ f = .complete (writeNetcdf cast ds)

theorem uncached_some {p : Path} {bag : Option Bag} {b : Bag} (hb : ∀ s, bag = some s → s = b) {topic : String} {ds : Dataset}
    (h : (Reader.mk p bag).loadDatasetUncached topic = .ok ds) : (Reader.mk p (some b)).loadDatasetUncached topic = .ok ds := by
  cases bag with
  | none => cases h
  | some s => rw [← hb s rfl]; exact h

theorem step_cacheOk {torn : Prop} {p : Path} {b : Bag} {w : Disk} (h : CacheOk cast torn p b w) {e : SessEvent} (he : OneBag p e) (ht : Interrupted e → torn) :
    CacheOk cast torn p b (w.step cast e).1 := by
  have hu : Unwritten w p := fun o ho hm hp => absurd hp ((h.objs o ho).1 hm)
  have hmem : ∀ {i : ℕ} {o : BagObj}, w.objs[i]? = some o → o ∈ w.objs := fun h => List.mem_of_getElem? h
  have hfile := (step_file (cast := cast) hu (e := e) fun i o _ ho hm => (h.objs o (hmem ho)).1 hm).1
  refine ⟨hfile.trans h.file, ?_, ?_⟩
  · have hset : ∀ (i : ℕ) (o' : BagObj) (objs : List BagObj), objs = (w.setObj i o').objs → ((o'.mode = .w → o'.path ≠ p) ∧ (o'.mode = .r → (o'.path.folder = p.folder → o'.path = p) ∧
        o'.path.folder ≠ p.folder ++ ["cache"] ∧ (o'.path = p → ∀ s, o'.bag = some s → s.2 = b))) → ∀ o ∈ objs, (o.mode = .w → o.path ≠ p) ∧ (o.mode = .r → (o.path.folder = p.folder → o.path = p) ∧
          o.path.folder ≠ p.folder ++ ["cache"] ∧ (o.path = p → ∀ s, o.bag = some s → s.2 = b)) := by
      intro i o' objs ho ho' o hmem
      rw [ho] at hmem
      rcases List.mem_or_eq_of_mem_set hmem with hmem | rfl
      · exact h.objs o hmem
      · exact ho'
    cases e with
    | reader q =>
      intro o ho
      rcases List.mem_append.mp (show o ∈ w.objs ++ [⟨q, .r, none⟩] from ho) with ho | ho
      · exact h.objs o ho
      · rw [List.mem_singleton.mp ho]
        exact ⟨nofun, fun _ => ⟨he.1, he.2, fun _ _ h => nomatch h⟩⟩
    | writer q =>
      intro o ho
      rcases List.mem_append.mp (show o ∈ w.objs ++ [⟨q, .w, none⟩] from ho) with ho | ho
      · exact h.objs o ho
      · rw [List.mem_singleton.mp ho]
        exact ⟨fun _ => he, nofun⟩
    | enter j =>
      simp only [Disk.step, Disk.enter]
      cases ho : w.objs[j]? with
      | none => exact h.objs
      | some o =>
        simp only
        have hj := h.objs o (hmem ho)
        cases hm : o.mode with
        | r =>
          simp only
          cases hf : w.bags o.path with
          | none => exact h.objs
          | some f =>
            cases f with
            | writing k => exact h.objs
            | complete b' =>
              refine hset j ⟨o.path, .r, some (w.sessions, b')⟩ _ rfl ⟨nofun, fun _ => ⟨(hj.2 hm).1, (hj.2 hm).2.1, fun hp s hs => ?_⟩⟩
              simp only at hp
              rw [hp, h.file] at hf
              cases hf; cases hs; rfl
        | w => exact hset j ⟨o.path, .w, some (w.sessions, Bag.empty)⟩ _ rfl ⟨fun _ => hj.1 hm, nofun⟩
    | exit j =>
      simp only [Disk.step, Disk.exit]
      cases ho : w.objs[j]? with
      | none => exact h.objs
      | some o =>
        simp only
        have hj := h.objs o (hmem ho)
        cases hb : o.bag with
        | none => exact h.objs
        | some s =>
          simp only
          cases hm : o.mode with
          | r => exact hset j ⟨o.path, .r, none⟩ _ rfl ⟨nofun, fun _ => ⟨(hj.2 hm).1, (hj.2 hm).2.1, fun _ _ h => nomatch h⟩⟩
          | w => exact hset j ⟨o.path, .w, none⟩ _ rfl ⟨fun _ => hj.1 hm, nofun⟩
    | write j clock ts t r topic frame child =>
      cases ho : w.objs[j]? with
      | none => simp only [Disk.step, Disk.write, ho]; exact h.objs
      | some o =>
        have hj := h.objs o (hmem ho)
        cases hm : o.mode with
        | r => simp only [Disk.step, Disk.write, ho, hm]; exact h.objs
        | w =>
          rw [step_write ho hm]
          refine hset j _ _ rfl ⟨fun _ => hj.1 hm, fun h => ?_⟩
          simp only [hm] at h
          cases h
    | load j topic cache fate =>
      obtain ⟨x, h1, h2⟩ := step_io (cast := cast) w (e := .load j topic cache fate) (.inl ⟨j, topic, cache, fate, rfl⟩)
      by_cases hd : Dies (.load j topic cache fate)
      · rw [h1 hd]; simp [Disk.die]
      · rw [h2 hd]; exact h.objs
    | exportNc j topic out fate =>
      obtain ⟨x, h1, h2⟩ := step_io (cast := cast) w (e := .exportNc j topic out fate) (.inr ⟨j, topic, out, fate, rfl⟩)
      by_cases hd : Dies (.exportNc j topic out fate)
      · rw [h1 hd]; simp [Disk.die]
      · rw [h2 hd]; exact h.objs
    | crash => simp [Disk.step, Disk.die]
  · intro topic f htopic hf
    rcases step_ncs (cast := cast) w e with h0 | ⟨i, rd, topic', ds, q, g, hr, hds, h0, hwhy, hg⟩
    · rw [h0] at hf; exact h.cache topic f htopic hf
    · rw [h0] at hf
      by_cases hq : (Reader.mk p none).cachePath topic = q
      · rw [hq, Function.update_self] at hf
        cases hf
        obtain ⟨o, ho, hm, rfl⟩ := readerAt_ok hr
        obtain ⟨k1, k2, k3⟩ := (h.objs o (hmem ho)).2 hm
        rcases hg with rfl | ⟨rfl, hi⟩
        · right
          rcases hwhy with ⟨fate, rfl, rfl, _⟩ | ⟨out, fate, rfl, hout⟩
          · have hfold : p.folder ++ ["cache"] = o.path.folder ++ ["cache"] := congrArg Path.folder hq
            have hpath := k1 (List.append_cancel_right hfold).symm
            have htop : topic = topic' := by
              rw [hpath] at hq
              exact C54_names_partial _ htopic he hq
            refine ⟨ds, ?_, rfl⟩
            rw [htop, ← hpath]
            refine uncached_some (fun s hs => ?_) hds
            cases hb : o.bag with
            | none => rw [hb] at hs; cases hs
            | some s' => rw [hb] at hs; cases hs; exact k3 hpath s' hb
          · exfalso
            cases out with
            | none =>
              cases hout
              exact k2 (congrArg Path.folder hq).symm
            | path q' =>
              cases hout
              exact he (by rw [← hq]; rfl)
            | str s => cases hout
        · exact .inl ⟨ht hi, rfl⟩
      · rw [Function.update_of_ne hq] at hf
        exact h.cache topic f htopic hf

theorem run_cacheOk {torn : Prop} {p : Path} {b : Bag} (es : List SessEvent) (he : ∀ e ∈ es, OneBag p e) (ht : ∀ e ∈ es, Interrupted e → torn) :
    ∀ {w : Disk}, CacheOk cast torn p b w → CacheOk cast torn p b (w.run cast es).1 := by
  induction es with
  | nil => exact fun h => h
  | cons e es ih =>
    intro w h
    exact ih (fun e h => he e (by simp [h])) (fun e h => ht e (by simp [h])) (step_cacheOk h (he e (by simp)) (ht e (by simp)))

theorem fresh_cacheOk {w : Disk} (hw : Fresh w) {torn : Prop} {p : Path} {b : Bag} (hb : w.bags p = some (.complete b))
    (h0 : ∀ q : Path, q.folder = p.folder ++ ["cache"] → w.ncs q = none) : CacheOk cast torn p b w :=
  ⟨hb, by simp [hw.objs], fun topic f _ hf => by rw [h0 _ rfl] at hf; cases hf⟩

/-- With one bag per folder and topics without underscore, whatever fails and whenever processes die: a cached load never returns wrong data. It returns what the
bag says up to the rounding of netCDF, or raises: what loading from the bag raises, or that the file cannot be read or written. -/
theorem C81_never_wrong_partial {w : Disk} (hw : Fresh w) {p : Path} {b : Bag} (hb : w.bags p = some (.complete b))
    (h0 : ∀ q : Path, q.folder = p.folder ++ ["cache"] → w.ncs q = none) (es : List SessEvent) (he : ∀ e ∈ es, OneBag p e)
    {i : ℕ} {o : BagObj} (ho : (w.run cast es).1.objs[i]? = some o) (hm : o.mode = .r) (hp : o.path = p) {topic : String} (ht : '_' ∉ topic.toList) (fate : Fate) :
    (∃ ds, (Reader.mk p (some b)).loadDatasetUncached topic = .ok ds ∧
      ((w.run cast es).1.step cast (.load i topic true fate)).2 = .ok (.dataset (openDataset (writeNetcdf cast ds)))) ∨
    ((w.run cast es).1.step cast (.load i topic true fate)).2 = .error .osError ∨
    ∃ e, (Reader.mk p (o.bag.map Prod.snd)).loadDatasetUncached topic = .error e ∧ ((w.run cast es).1.step cast (.load i topic true fate)).2 = .error e := by
  have inv := run_cacheOk (cast := cast) (torn := True) es he (fun _ _ _ => trivial) (fresh_cacheOk hw hb h0)
  generalize (w.run cast es).1 = v at *
  have hr : v.readerAt i = .ok ⟨p, o.bag.map Prod.snd⟩ := by simp only [Disk.readerAt, ho, hm, hp]
  rw [load_step hr]
  rcases load_ncs (cast := cast) v ⟨p, o.bag.map Prod.snd⟩ topic fate with ⟨f, hf, h⟩ | ⟨_, ⟨e, he, h⟩ | ⟨ds, hds, ⟨_, h⟩ | ⟨_, h⟩⟩⟩
  · rw [h]
    rcases inv.cache topic f ht hf with ⟨_, rfl⟩ | ⟨ds, hds, rfl⟩
    · exact .inr (.inl rfl)
    · exact .inl ⟨ds, hds, rfl⟩
  · rw [h]; exact .inr (.inr ⟨e, he, rfl⟩)
  · rw [h]
    refine .inl ⟨ds, uncached_some (fun s hs => ?_) hds, rfl⟩
    cases hbag : o.bag with
    | none => rw [hbag] at hs; cases hs
    | some s' => rw [hbag] at hs; cases hs; exact ((inv.objs o (List.mem_of_getElem? ho)).2 hm).2.2 hp s' hbag
  · rw [h]; exact .inr (.inl rfl)

/-- If moreover no call was interrupted while it wrote a netCDF file (the process may have died at any other time), a cached load inside the block of a reader
returns the data, if the bag has them. -/
theorem C81_uninterrupted_partial {w : Disk} (hw : Fresh w) {p : Path} {b : Bag} (hb : w.bags p = some (.complete b))
    (h0 : ∀ q : Path, q.folder = p.folder ++ ["cache"] → w.ncs q = none) (es : List SessEvent) (he : ∀ e ∈ es, OneBag p e) (hi : ∀ e ∈ es, ¬ Interrupted e)
    {i : ℕ} {o : BagObj} (ho : (w.run cast es).1.objs[i]? = some o) (hm : o.mode = .r) (hp : o.path = p) (hin : Inside (outcomes es (w.run cast es).2) i)
    {topic : String} (ht : '_' ∉ topic.toList) {ds : Dataset} (hds : (Reader.mk p (some b)).loadDatasetUncached topic = .ok ds) :
    ((w.run cast es).1.step cast (.load i topic true .done)).2 = .ok (.dataset (openDataset (writeNetcdf cast ds))) := by
  have inv := run_cacheOk (cast := cast) (torn := False) es he hi (fresh_cacheOk hw hb h0)
  rw [← C80_inside hw] at hin
  generalize (w.run cast es).1 = v at *
  obtain ⟨o', s, ho', hs⟩ := hin
  rw [ho] at ho'
  cases ho'
  have hsb : s.2 = b := ((inv.objs o (List.mem_of_getElem? ho)).2 hm).2.2 hp s hs
  have hr : v.readerAt i = .ok ⟨p, some b⟩ := by simp only [Disk.readerAt, ho, hm, hp, hs, Option.map_some, hsb]
  rw [load_step hr]
  rcases load_ncs (cast := cast) v ⟨p, some b⟩ topic .done with ⟨f, hf, h⟩ | ⟨_, ⟨e, he, h⟩ | ⟨ds', hds', ⟨_, h⟩ | ⟨hne, h⟩⟩⟩
  · rw [h]
    rcases inv.cache topic f ht hf with ⟨hF, _⟩ | ⟨ds', hds', rfl⟩
    · exact absurd hF id
    · rw [hds] at hds'; cases hds'; rfl
  · rw [hds] at he; cases he
  · rw [h]
    rw [hds] at hds'; cases hds'; rfl
  · exact absurd rfl hne

end RBM.Props
