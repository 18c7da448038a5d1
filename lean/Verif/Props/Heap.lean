import Verif.Lemmas.HeapCommute
import Verif.Lemmas.ParentChild
import Verif.Lemmas.Registry
import Verif.Spec.Registry

namespace RBM.Props

open RBM.Spec RBM.Heap

/-! ### vocabulary -/

theorem valueOf_read (m : Mem) : valueOf m = ArrayLike.read m := by
  funext a; cases a <;> rfl

theorem exists_known {m : Mem} {a : ArrayLike} : Exists m a ↔ a.Known m := by
  cases a <;> exact Iff.rfl

theorem argValues_read (m : Mem) (a : HArgs) : argValues m a = a.read m := by
  simp only [argValues, HArgs.read, valueOf_read]

theorem optionValues_read (m : Mem) (o : HTArgs) : optionValues m o = o.read m := by
  simp only [optionValues, HTArgs.read, valueOf_read]

theorem argsExist_known {m : Mem} {a : HArgs} (h : ArgsExist m a) : a.Known m :=
  ⟨fun x hx => exists_known.mp (h.1 x hx), fun x hx => exists_known.mp (h.2.1 x hx), fun x hx => exists_known.mp (h.2.2 x hx)⟩

theorem unchanged_of {m m' : Mem} (h : Keeps m m') : Unchanged m m' := fun _ hr => ⟨hr.trans_le h.size, h.read hr⟩

/-! ### the arrays of frames exist -/

theorem sound_write {s : HState} (hs : s.Sound) (r : NdRef) (c : List ℕ → ℝ) : ({ s with mem := s.mem.write r c } : HState).Sound := by
  intro i f h
  have h1 := hs i f h
  refine ⟨fun t q e => ?_, fun x hx => ?_⟩
  · rw [write_size]; exact h1.pose t q e
  · rw [write_size]; exact h1.timestamps x hx

/-- Steps other than in-place writes change no existing array. -/
theorem step_keeps (sq : SquadFn) {s : HState} (hs : s.Sound) {o : HOp} (ho : Refers s.mem o) (hw : ∀ b, ¬WritesTo b o) :
    Keeps s.mem (s.step sq o).mem := by
  cases o with
  | array c => exact keeps_new s.mem c
  | write r c => exact absurd rfl (hw r.buf)
  | register n p a u => exact (register_agrees hs n p (argsExist_known ho) u).keeps
  | setParent i v => exact .refl _
  | deregister n => exact .refl _
  | clear => exact .refl _
  | lookup a dst => exact (runs_lookup sq hs (.refl _) a dst).keeps
  | vectors a arr dst o => exact (runs_vectors sq hs a (exists_known.mp ho.1) dst (fun x hx => exists_known.mp (ho.2 x hx))).keeps
  | points a arr dst o => exact (runs_points sq hs a (exists_known.mp ho.1) dst (fun x hx => exists_known.mp (ho.2 x hx))).keeps
  | quaternions a arr dst o => exact (runs_quaternions sq hs a (exists_known.mp ho.1) dst (fun x hx => exists_known.mp (ho.2 x hx))).keeps

theorem step_sound (sq : SquadFn) {s : HState} (hs : s.Sound) {o : HOp} (ho : Refers s.mem o) : (s.step sq o).Sound := by
  have key := step_keeps sq hs ho
  cases o with
  | write r c => exact sound_write hs r c
  | register n p a u => exact (register_agrees hs n p (argsExist_known ho) u).sound
  | array c => exact hs.keeps (key fun _ => id) _
  | setParent i v => exact fun i f h => hs i f h
  | deregister n => exact fun i f h => hs i f h
  | clear => exact fun i f h => hs i f h
  | lookup a dst => exact hs.keeps (key fun _ => id) _
  | vectors a arr dst o => exact hs.keeps (key fun _ => id) _
  | points a arr dst o => exact hs.keeps (key fun _ => id) _
  | quaternions a arr dst o => exact hs.keeps (key fun _ => id) _

theorem run_sound (sq : SquadFn) {s : HState} (hs : s.Sound) {ops : List HOp} (ho : Runnable sq s ops) : (s.run sq ops).Sound := by
  induction ops generalizing s with
  | nil => exact hs
  | cons o os ih => exact ih (step_sound sq hs ho.1) ho.2

theorem occurs_sound {sq : SquadFn} {s : HState} (h : Occurs sq s) : s.Sound := by
  obtain ⟨ops, h1, rfl⟩ := h
  exact run_sound sq (fun i f h => by cases h) h1

/-! ### C87 -/

/-- `register_frame` changes no array, in case of an error neither; the frames afterwards are those
of the value model (C01–C86). -/
theorem C87_register {sq : SquadFn} {s : HState} (h : Occurs sq s) (n : Option String) (p : Option FrameRef) {args : HArgs}
    (ha : ArgsExist s.mem args) (u : Bool) :
    (s.registerFrame n p args u).1.view = (s.view.registerFrame n p (argValues s.mem args) u).1 ∧
    (s.registerFrame n p args u).2 = (s.view.registerFrame n p (argValues s.mem args) u).2 ∧
    Unchanged s.mem (s.registerFrame n p args u).1.mem := by
  have := register_agrees (occurs_sound h) n p (argsExist_known ha) u
  rw [argValues_read]
  exact ⟨this.view, this.result, unchanged_of this.keeps⟩

/-- Frames follow later changes of the arrays they were registered with (unless `inverse=True`):
registering and then overwriting an array is the same as overwriting it and then registering. -/
theorem C87_follows {sq : SquadFn} {s : HState} (h : Occurs sq s) (n : Option String) (p : Option FrameRef) {args : HArgs}
    (ha : ArgsExist s.mem args) (hi : args.inverse = false) (u : Bool) {w : NdRef} (hw : w.buf < s.mem.size) (d : List ℕ → ℝ) :
    (({ s with mem := s.mem.write w d } : HState).registerFrame n p args u).2 = (s.registerFrame n p args u).2 ∧
    ({ (s.registerFrame n p args u).1 with mem := (s.registerFrame n p args u).1.mem.write w d } : HState).view =
      (({ s with mem := s.mem.write w d } : HState).view.registerFrame n p (argValues (s.mem.write w d) args) u).1 := by
  have e := register_comm s n p hi u d hw
  have hs' : ({ s with mem := s.mem.write w d } : HState).Sound := sound_write (occurs_sound h) w d
  have hk : args.Known (s.mem.write w d) := by
    have h0 := argsExist_known ha
    have key : ∀ x : ArrayLike, x.Known s.mem → x.Known (s.mem.write w d) := by
      intro x hx
      cases x with
      | array r => change r.buf < _; rw [write_size]; exact hx
      | nested c => trivial
    exact ⟨fun x hx => key x (h0.translation x hx), fun x hx => key x (h0.rotation x hx), fun x hx => key x (h0.timestamps x hx)⟩
  have ag := register_agrees hs' n p (args := args) hk u
  refine ⟨by rw [e], ?_⟩
  rw [argValues_read]
  refine Eq.trans ?_ ag.view
  rw [e]

theorem setParent_size' (s : State) (i : ℕ) (v : Option ℕ) : (s.setParent i v).1.size = s.size := by
  simp only [State.setParent]
  by_cases h : s.parent i = v
  · simp only [if_pos h]
  · simp only [if_neg h]
    cases s.checkLoop i v with
    | error e => rfl
    | ok u =>
      simp only [State.detach]
      cases s.parent i with
      | none =>
        simp only [State.attach]
        cases v with
        | none => rfl
        | some p => simp only; split <;> rfl
      | some q =>
        simp only
        by_cases hq : i ∈ s.children q
        · simp only [if_pos hq, State.attach]
          cases v with
          | none => rfl
          | some p => simp only; split <;> rfl
        · simp only [if_neg hq]

theorem register_size' (s : State) (i : ℕ) (u : Bool) : (s.register i u).1.size = s.size := by
  simp only [State.register]
  cases s.name i with
  | none => rfl
  | some n =>
    simp only
    cases dictGet s.reg n with
    | none => rfl
    | some old =>
      simp only
      cases u with
      | false => rfl
      | true =>
        simp only [if_true]
        have := setParent_size' s old none
        rcases hsp : s.setParent old none with ⟨s', _ | _⟩ <;> (rw [hsp] at this; exact this)

theorem construct_old (s : HState) (n : Option String) (p : Option FrameRef) (args : HArgs) :
    (∀ i < s.st.size, (s.construct n p args).1.obj i = s.obj i) ∧ (s.construct n p args).1.st.size = s.st.size + 1 := by
  have hu : ∀ (o : Option HFrame), ∀ i < s.st.size, Function.update s.obj s.st.size o i = s.obj i :=
    fun o i hi => Function.update_of_ne (by omega) _ _
  simp only [HState.construct]
  cases p with
  | none =>
    cases verifyRootH args with
    | error e => exact ⟨hu _, rfl⟩
    | ok x =>
      simp only
      split
      · exact ⟨hu _, rfl⟩
      · exact ⟨hu _, rfl⟩
  | some ref =>
    simp only
    cases s.st.resolve ref with
    | error e => exact ⟨hu _, rfl⟩
    | ok q =>
      simp only
      have hz := setParent_size' (s.st.alloc n) s.st.size (some q)
      rcases hsp : (s.st.alloc n).setParent s.st.size (some q) with ⟨st2, e | x⟩
      · rw [hsp] at hz; exact ⟨hu _, hz⟩
      · rw [hsp] at hz
        simp only
        rcases initArraysH args s.mem with ⟨e | ⟨t, r, ts⟩, m'⟩
        · exact ⟨hu _, hz⟩
        · simp only
          split
          · exact ⟨hu _, hz⟩
          · exact ⟨hu _, hz⟩

theorem register_old (s : HState) (n : Option String) (p : Option FrameRef) (args : HArgs) (u : Bool) :
    (∀ i < s.st.size, (s.registerFrame n p args u).1.obj i = s.obj i) ∧ (s.registerFrame n p args u).1.st.size = s.st.size + 1 := by
  have h := construct_old s n p args
  unfold HState.registerFrame
  rcases hc : s.construct n p args with ⟨s', e | j⟩
  · rw [hc] at h; exact h
  · rw [hc] at h
    exact ⟨h.1, (register_size' _ _ _).trans h.2⟩

theorem deregister_size' (s : State) (n : Option String) : (s.deregister n).1.size = s.size := by
  cases n with
  | none => rfl
  | some n =>
    simp only [State.deregister]
    cases dictGet s.reg n <;> rfl

theorem step_old (sq : SquadFn) (s : HState) (o : HOp) :
    (∀ i < s.st.size, (s.step sq o).obj i = s.obj i) ∧ s.st.size ≤ (s.step sq o).st.size := by
  cases o with
  | register n p a u => exact ⟨(register_old s n p a u).1, by have := (register_old s n p a u).2; simp only [HState.step]; omega⟩
  | setParent i v => exact ⟨fun _ _ => rfl, (setParent_size' _ _ _).ge⟩
  | deregister n => exact ⟨fun _ _ => rfl, (deregister_size' _ _).ge⟩
  | _ => exact ⟨fun _ _ => rfl, le_rfl⟩

theorem run_old (sq : SquadFn) (s : HState) (ops : List HOp) {i : ℕ} (hi : i < s.st.size) : (s.run sq ops).obj i = s.obj i := by
  induction ops generalizing s with
  | nil => rfl
  | cons o os ih => exact (ih _ (hi.trans_le (step_old sq s o).2)).trans ((step_old sq s o).1 i hi)

/-- A successful registration with a parent stores what `_init_arrays` returns. -/
theorem registered_obj {s s' : HState} {n : Option String} {ref : FrameRef} {args : HArgs} {u : Bool}
    (hr : s.registerFrame n (some ref) args u = (s', .ok ())) :
    ∃ t r ts, initArraysH args s.mem = (.ok (t, r, ts), s'.mem) ∧ s'.obj s.st.size = some ⟨some (t, r), ts, args.discrete⟩ ∧
      s'.st.size = s.st.size + 1 := by
  have hsz := (register_old s n (some ref) args u).2
  rw [hr] at hsz
  unfold HState.registerFrame at hr
  rcases hc : s.construct n (some ref) args with ⟨s1, e | j⟩
  · rw [hc] at hr; cases hr
  · rw [hc] at hr
    simp only at hr
    have hr := (Prod.mk.injEq _ _ _ _ ▸ hr : _ ∧ _).1
    have hm : s1.mem = s'.mem := by rw [← hr]
    have ho : s1.obj = s'.obj := by rw [← hr]
    rw [← hm, ← ho]
    clear hr hm ho
    simp only [HState.construct] at hc
    cases hres : s.st.resolve ref with
    | error e => rw [hres] at hc; cases hc
    | ok q =>
      rw [hres] at hc
      simp only at hc
      rcases hsp : (s.st.alloc n).setParent s.st.size (some q) with ⟨st2, e | x⟩
      · rw [hsp] at hc; cases hc
      · rw [hsp] at hc
        simp only at hc
        rcases hia : initArraysH args s.mem with ⟨e | ⟨t, r, ts⟩, m'⟩
        · rw [hia] at hc; cases hc
        · rw [hia] at hc
          simp only at hc
          split at hc
          · cases hc
          · cases hc
            exact ⟨t, r, ts, rfl, Function.update_self _ _ _, hsz⟩

theorem bind_ok {α β : Type} {p : HP α} {f : α → HP β} {m m2 : Mem} {b : β} (h : (p >>= f) m = (.ok b, m2)) :
    ∃ a m1, p m = (.ok a, m1) ∧ f a m1 = (.ok b, m2) := by
  rcases hp : p m with ⟨_ | a, m1⟩
  · simp only [Bind.bind, hp] at h; cases h
  · simp only [Bind.bind, hp] at h; exact ⟨a, m1, rfl, h⟩

theorem initTimestamps_array {ts : Option NdRef} {m m' : Mem} {x : Option NdRef} (h : initTimestampsH (ts.map .array) m = (.ok x, m')) :
    x = ts ∧ m' = m := by
  cases ts with
  | none => cases h; exact ⟨rfl, rfl⟩
  | some a =>
    simp only [Option.map_some, initTimestampsH] at h
    obtain ⟨b, m1, h1, h2⟩ := bind_ok h
    cases h1
    rcases hs : a.shape with _ | ⟨len, _ | ⟨n', rest⟩⟩
    · simp only [hs] at h2; cases h2
    · simp only [hs] at h2; cases h2; exact ⟨rfl, rfl⟩
    · simp only [hs] at h2; cases h2

theorem initTranslation_array {ts : Option NdRef} {t : NdRef} {m m' : Mem} {x : NdRef} (h : initTranslationH ts (some (.array t)) m = (.ok x, m')) :
    x = t ∧ m' = m := by
  simp only [initTranslationH] at h
  obtain ⟨b, m1, h1, h2⟩ := bind_ok h
  cases h1
  by_cases hc : t.shape = rowShape ts 3
  · rw [if_pos hc] at h2; cases h2; exact ⟨rfl, rfl⟩
  · rw [if_neg hc] at h2; cases h2

theorem initRotation_array {ts : Option NdRef} {t : NdRef} {m m' : Mem} {x : NdRef} (h : initRotationH ts (some (.array t)) m = (.ok x, m')) :
    x = t ∧ m' = m := by
  simp only [initRotationH] at h
  obtain ⟨b, m1, h1, h2⟩ := bind_ok h
  cases h1
  by_cases hc : t.shape = rowShape ts 4
  · rw [if_pos hc] at h2; cases h2; exact ⟨rfl, rfl⟩
  · rw [if_neg hc] at h2; cases h2

/-- Arrays are stored as they are. -/
theorem initArrays_arrays {t r : NdRef} {ts : Option NdRef} {discrete : Bool} {m m' : Mem} {x : NdRef × NdRef × Option NdRef}
    (h : initArraysH ⟨some (.array t), some (.array r), ts.map .array, false, discrete⟩ m = (.ok x, m')) : x = (t, r, ts) ∧ m' = m := by
  unfold initArraysH at h
  obtain ⟨ts', m1, h1, g1⟩ := bind_ok h
  obtain ⟨rfl, rfl⟩ := initTimestamps_array h1
  obtain ⟨t', m2, h2, g2⟩ := bind_ok g1
  obtain ⟨rfl, rfl⟩ := initTranslation_array h2
  obtain ⟨r', m3, h3, g3⟩ := bind_ok g2
  obtain ⟨rfl, rfl⟩ := initRotation_array h3
  cases g3
  exact ⟨rfl, rfl⟩

/-- Programs only add buffers. -/
def Grows {α : Type} (p : HP α) : Prop := ∀ m, m.size ≤ (p m).2.size

theorem Grows.bind {α β : Type} {p : HP α} {f : α → HP β} (h : Grows p) (hf : ∀ a, Grows (f a)) : Grows (p >>= f) := by
  intro m
  have h1 := h m
  rcases hp : p m with ⟨_ | a, m1⟩
  · rw [hp] at h1; simp only [Bind.bind, hp]; exact h1
  · rw [hp] at h1; simp only [Bind.bind, hp]; exact h1.trans (hf a m1)

theorem Grows.pure {α : Type} (a : α) : Grows (Pure.pure a) := fun _ => le_rfl
theorem Grows.lift {α : Type} (a : Res α) : Grows (lift a) := fun _ => le_rfl
theorem Grows.get (r : NdRef) : Grows (Heap.get r) := fun _ => le_rfl
theorem Grows.put (r : NdRef) (c : List ℕ → ℝ) : Grows (Heap.put r c) := fun m => (write_size m r c).ge
theorem Grows.new (c : ND ℝ) : Grows (Heap.new c) := fun m => (keeps_new m c).size
theorem Grows.asarray (a : ArrayLike) : Grows (asarray a) := by
  cases a with
  | array r => exact .pure r
  | nested c => exact .new c

theorem grows_initTranslation (ts : Option NdRef) (a : Option ArrayLike) : Grows (initTranslationH ts a) := by
  cases a with
  | none => exact .new _
  | some a =>
    refine .bind (.asarray a) fun r => ?_
    by_cases hc : r.shape = rowShape ts 3
    · rw [if_pos hc]; exact .pure _
    · rw [if_neg hc]; exact .lift _

theorem grows_initRotation (ts : Option NdRef) (a : Option ArrayLike) : Grows (initRotationH ts a) := by
  cases a with
  | none => exact .bind (.new _) fun r => .bind (.get r) fun c => .bind (.put _ _) fun _ => .pure _
  | some a =>
    refine .bind (.asarray a) fun r => ?_
    by_cases hc : r.shape = rowShape ts 4
    · rw [if_pos hc]; exact .pure _
    · rw [if_neg hc]; exact .lift _

/-- The inverse is computed into new arrays; the timestamps are stored as they are. -/
theorem initArrays_inverse {t r : Option ArrayLike} {ts : Option NdRef} {discrete : Bool} {m m' : Mem} {x : NdRef × NdRef × Option NdRef}
    (h : initArraysH ⟨t, r, ts.map .array, true, discrete⟩ m = (.ok x, m')) :
    x.2.2 = ts ∧ m.size ≤ x.1.buf ∧ m.size ≤ x.2.1.buf := by
  unfold initArraysH at h
  obtain ⟨ts', m1, h1, g1⟩ := bind_ok h
  obtain ⟨rfl, rfl⟩ := initTimestamps_array h1
  obtain ⟨t', m2, h2, g2⟩ := bind_ok g1
  have k2 := grows_initTranslation ts' t m1
  rw [h2] at k2
  obtain ⟨r', m3, h3, g3⟩ := bind_ok g2
  have k3 := grows_initRotation ts' r m2
  rw [h3] at k3
  simp only [if_true] at g3
  obtain ⟨rc, m4, h4, g4⟩ := bind_ok g3
  cases h4
  obtain ⟨q, m5, h5, g5⟩ := bind_ok g4
  have e5 : m5 = m3 := by simp only [lift, Prod.mk.injEq] at h5; exact h5.2.symm
  subst e5
  obtain ⟨r'', m6, h6, g6⟩ := bind_ok g5
  cases h6
  obtain ⟨tc, m7, h7, g7⟩ := bind_ok g6
  cases h7
  obtain ⟨v, m8, h8, g8⟩ := bind_ok g7
  have e8 : m8 = _ := (Prod.mk.injEq _ _ _ _ ▸ h8 : _ ∧ _).2.symm
  obtain ⟨t'', m9, h9, g9⟩ := bind_ok g8
  cases h9
  cases g9
  have k6 := (keeps_new m5 (ND.ofQuats q)).size
  simp only at k2 k3
  refine ⟨rfl, ?_, k2.trans k3⟩
  simp only [e8]
  exact (k2.trans k3).trans k6

/-- The values of a frame that was registered with arrays are the current values of these arrays,
after any further program. -/
theorem C87_current {sq : SquadFn} {s : HState} (n : Option String) (ref : FrameRef) {t r : NdRef} {ts : Option NdRef} (discrete : Bool)
    (u : Bool) {s' : HState}
    (hr : s.registerFrame n (some ref) ⟨some (.array t), some (.array r), ts.map .array, false, discrete⟩ u = (s', .ok ())) (ops : List HOp) :
    (s'.run sq ops).view.data s.st.size = some ⟨some (vecsOf ((s'.run sq ops).mem.read t), quatsOf ((s'.run sq ops).mem.read r)),
      ts.map (fun x => stampList ((s'.run sq ops).mem.read x)), discrete⟩ := by
  obtain ⟨t', r', ts', h1, h2, h3⟩ := registered_obj hr
  have h4 := (initArrays_arrays h1).1
  cases h4
  have h5 : (s'.run sq ops).obj s.st.size = _ := (run_old sq s' ops (by omega)).trans h2
  change ((s'.run sq ops).obj s.st.size).map _ = _
  rw [h5]
  rfl

/-- Two frames registered with the same arrays (not necessarily at the same time) always have equal
values. -/
theorem C87_shared {sq : SquadFn} {s1 s1' s2 s2' : HState} {n1 n2 : Option String} {p1 p2 : FrameRef} {t r : NdRef} {ts : Option NdRef}
    {discrete u1 u2 : Bool}
    (h1 : s1.registerFrame n1 (some p1) ⟨some (.array t), some (.array r), ts.map .array, false, discrete⟩ u1 = (s1', .ok ()))
    (ops : List HOp) (hm : s1'.run sq ops = s2)
    (h2 : s2.registerFrame n2 (some p2) ⟨some (.array t), some (.array r), ts.map .array, false, discrete⟩ u2 = (s2', .ok ()))
    (ops' : List HOp) :
    (s2'.run sq ops').view.data s1.st.size = (s2'.run sq ops').view.data s2.st.size := by
  subst hm
  obtain ⟨t', r', ts', a1, a2, a3⟩ := registered_obj h1
  cases (initArrays_arrays a1).1
  obtain ⟨t', r', ts', b1, b2, b3⟩ := registered_obj h2
  cases (initArrays_arrays b1).1
  have grow : ∀ (ops : List HOp) (s : HState), s.st.size ≤ (s.run sq ops).st.size := by
    intro ops
    induction ops with
    | nil => exact fun _ => le_rfl
    | cons o os ih => exact fun s => (step_old sq s o).2.trans (ih _)
  have hg := grow ops s1'
  have e1 : (s2'.run sq ops').obj s1.st.size = s2'.obj s1.st.size := run_old sq s2' ops' (by omega)
  have e2 : s2'.obj s1.st.size = (s1'.run sq ops).obj s1.st.size := by
    have := (register_old (s1'.run sq ops) n2 (some p2) ⟨some (.array t), some (.array r), ts.map .array, false, discrete⟩ u2).1 s1.st.size (by omega)
    rw [h2] at this
    exact this
  have e3 : (s1'.run sq ops).obj s1.st.size = s1'.obj s1.st.size := run_old sq s1' ops (by omega)
  have e4 : (s2'.run sq ops').obj (s1'.run sq ops).st.size = s2'.obj (s1'.run sq ops).st.size := run_old sq s2' ops' (by omega)
  change ((s2'.run sq ops').obj s1.st.size).map _ = ((s2'.run sq ops').obj (s1'.run sq ops).st.size).map _
  rw [e1, e2, e3, e4, a2, b2]

/-! ### programs -/

theorem run_buffer (sq : SquadFn) {s : HState} (hs : s.Sound) {ops : List HOp} (ho : Runnable sq s ops) {b : ℕ} (hb : b < s.mem.size)
    (hw : ∀ o ∈ ops, ¬WritesTo b o) : (s.run sq ops).mem.buffer b = s.mem.buffer b ∧ s.mem.size ≤ (s.run sq ops).mem.size := by
  induction ops generalizing s with
  | nil => exact ⟨rfl, le_rfl⟩
  | cons o os ih =>
    have h1 : (s.step sq o).mem.buffer b = s.mem.buffer b ∧ s.mem.size ≤ (s.step sq o).mem.size := by
      cases o with
      | write r c =>
        have hne : b ≠ r.buf := fun e => hw (.write r c) (by simp) e.symm
        exact ⟨write_other hne, (write_size _ _ _).ge⟩
      | _ =>
        have hk := step_keeps sq hs ho.1 (fun _ => id)
        exact ⟨hk.same b hb, hk.size⟩
    have h2 := ih (step_sound sq hs ho.1) ho.2 (hb.trans_le h1.2) (fun o h => hw o (by simp [h]))
    exact ⟨h2.1.trans h1.1, h1.2.trans h2.2⟩

/-- In any program, the values of an array change only through in-place writes to arrays that share
its memory; no function of the library writes to it. -/
theorem C87_arrays {sq : SquadFn} {s : HState} (h : Occurs sq s) {ops : List HOp} (ho : Runnable sq s ops) {r : NdRef}
    (hr : r.buf < s.mem.size) (hw : ∀ o ∈ ops, ¬WritesTo r.buf o) : (s.run sq ops).mem.read r = s.mem.read r := by
  simp only [Mem.read, (run_buffer sq (occurs_sound h) ho hr hw).1]

/-- In any program, the pose of a frame changes only through in-place writes to the arrays it keeps. -/
theorem C87_frames {sq : SquadFn} {s : HState} (h : Occurs sq s) {ops : List HOp} (ho : Runnable sq s ops) {i : ℕ} (hi : i < s.st.size)
    (hw : ∀ o ∈ ops, ∀ b, Uses s i b → ¬WritesTo b o) : (s.run sq ops).view.data i = s.view.data i := by
  have hs := occurs_sound h
  change ((s.run sq ops).obj i).map (HFrame.read (s.run sq ops).mem) = (s.obj i).map (HFrame.read s.mem)
  rw [run_old sq s ops hi]
  cases hf : s.obj i with
  | none => rfl
  | some f =>
    have hk := hs i f hf
    have rd : ∀ x : NdRef, Uses s i x.buf → x.buf < s.mem.size → (s.run sq ops).mem.read x = s.mem.read x := fun x hu hx => by
      simp only [Mem.read, (run_buffer sq hs ho hx fun o hm => hw o hm _ hu).1]
    simp only [Option.map_some, HFrame.read]
    congr 2
    · cases hp : f.pose with
      | none => rfl
      | some p =>
        obtain ⟨t, r⟩ := p
        have := hk.pose t r hp
        simp only [Option.map_some]
        rw [rd t ⟨f, hf, .inl ⟨t, r, hp, .inl rfl⟩⟩ this.1, rd r ⟨f, hf, .inl ⟨t, r, hp, .inr rfl⟩⟩ this.2]
    · cases ht : f.timestamps with
      | none => rfl
      | some x =>
        simp only [Option.map_some]
        rw [rd x ⟨f, hf, .inr ⟨x, ht, rfl⟩⟩ (hk.timestamps x ht)]

/-- With `inverse=True` translation and rotation are copies: later writes to arrays that existed
before do not change them, but the timestamps still follow. -/
theorem C87_inverse {sq : SquadFn} {s s' : HState} (h : Occurs sq s) {n : Option String} {p : FrameRef} {t r : Option ArrayLike} {ts : Option NdRef}
    {discrete u : Bool} (ha : ArgsExist s.mem ⟨t, r, ts.map .array, true, discrete⟩)
    (hr : s.registerFrame n (some p) ⟨t, r, ts.map .array, true, discrete⟩ u = (s', .ok ())) {ops : List HOp} (ho : Runnable sq s' ops)
    (hw : ∀ o ∈ ops, ∀ b, WritesTo b o → b < s.mem.size) :
    ∃ P, s'.view.data s.st.size = some ⟨some P, ts.map (fun x => stampList (s'.mem.read x)), discrete⟩ ∧
      (s'.run sq ops).view.data s.st.size = some ⟨some P, ts.map (fun x => stampList ((s'.run sq ops).mem.read x)), discrete⟩ := by
  have ag := register_agrees (occurs_sound h) n (some p) (argsExist_known ha) u
  rw [hr] at ag
  have hs' := ag.sound
  obtain ⟨t', r', ts', a1, a2, a3⟩ := registered_obj hr
  obtain ⟨c1, c2, c3⟩ := initArrays_inverse a1
  simp only at c1 c2 c3
  subst c1
  have hk := hs' _ _ a2
  have hlt := hk.pose t' r' rfl
  have e1 : (s'.run sq ops).obj s.st.size = s'.obj s.st.size := run_old sq s' ops (by omega)
  have rd : ∀ x : NdRef, s.mem.size ≤ x.buf → x.buf < s'.mem.size → (s'.run sq ops).mem.read x = s'.mem.read x := fun x hu hx => by
    simp only [Mem.read, (run_buffer sq hs' ho hx fun o hm hwr => absurd (hw o hm _ hwr) (by omega)).1]
  refine ⟨(vecsOf (s'.mem.read t'), quatsOf (s'.mem.read r')), ?_, ?_⟩
  · change (s'.obj s.st.size).map _ = _
    rw [a2]
    rfl
  · change ((s'.run sq ops).obj s.st.size).map _ = _
    rw [e1, a2]
    simp only [Option.map_some, HFrame.read]
    rw [rd t' c2 hlt.1, rd r' c3 hlt.2]

/-! ### results -/

theorem newStamps_map {m m' : Mem} {r : Option NdRef} {l : Option (List ℝ)} (h : NewStamps m r l m') :
    r.map (fun x => m'.read x) = l.map stampArray ∧ ∀ x, r = some x → Separate m x m' := by
  rcases h with ⟨rfl, rfl⟩ | ⟨x, ts, rfl, rfl, h⟩
  · exact ⟨rfl, by simp⟩
  · exact ⟨by simp [h.value], fun y hy => by cases hy; exact ⟨h.fresh, h.known⟩⟩

theorem disjoint_one {r : NdRef} {ts : Option NdRef} (h : Apart r ts) : Spec.Disjoint (r :: ts.toList) := by
  cases ts with
  | none => simp [Spec.Disjoint]
  | some x => simpa [Spec.Disjoint] using (h x rfl).symm

theorem disjoint_two {r q : NdRef} {ts : Option NdRef} (h : r.buf ≠ q.buf) (h1 : Apart r ts) (h2 : Apart q ts) : Spec.Disjoint (r :: q :: ts.toList) := by
  cases ts with
  | none => simpa [Spec.Disjoint] using h
  | some x => simpa [Spec.Disjoint] using ⟨⟨h, (h1 x rfl).symm⟩, (h2 x rfl).symm⟩

theorem returnsArray_of {p : HP HRet} {m : Mem} {v : Res PyRet} (h : Runs p m v (NewRet m)) : Unchanged m (p m).2 ∧ ReturnsArray m (p m) v := by
  refine ⟨unchanged_of h.keeps, ?_⟩
  obtain ⟨m', hk, ⟨a, x, e1, rfl, hn⟩ | ⟨e, e1, rfl⟩⟩ := h
  · rw [e1]
    refine ⟨fun e he => (by cases he), fun c hc => ?_, fun c ts hc => ?_⟩
    · cases hc
      cases a with
      | single r => exact ⟨r, rfl, hn.value, hn.fresh, hn.known⟩
      | withTs r ts => exact absurd hn id
    · cases hc
      cases a with
      | single r => exact absurd hn id
      | withTs r rts =>
        obtain ⟨n1, n2, n3⟩ := hn
        exact ⟨r, rts, rfl, n1.value, (newStamps_map n2).1, ⟨n1.fresh, n1.known⟩, (newStamps_map n2).2, disjoint_one n3⟩
  · rw [e1]
    exact ⟨fun e' he => by cases he; rfl, fun c hc => (by cases hc), fun c ts hc => by cases hc⟩

/-- `lookup_transform` changes no array and returns new arrays, with the values of the value model. -/
theorem C87_lookup {sq : SquadFn} {s : HState} (h : Occurs sq s) (a : ℕ) (dst : FrameRef) :
    Unchanged s.mem (lookupTransformH sq s a dst s.mem).2 ∧
    ReturnsTransform s.mem (lookupTransformH sq s a dst s.mem) (s.view.lookupTransform sq a dst) := by
  have h := runs_lookup sq (occurs_sound h) (.refl _) a dst
  refine ⟨unchanged_of h.keeps, ?_⟩
  obtain ⟨m', hk, ⟨⟨rt, rq, rts⟩, x, e1, e2, n1, n2, n3, n4, n5, n6⟩ | ⟨e, e1, e2⟩⟩ := h
  · rw [e1, e2]
    refine ⟨fun e he => (by cases he), fun t q ts hc => ?_⟩
    cases hc
    exact ⟨rt, rq, rts, rfl, n1.value, n2.value, (newStamps_map n3).1, ⟨n1.fresh, n1.known⟩, ⟨n2.fresh, n2.known⟩, (newStamps_map n3).2, disjoint_two n4 n5 n6⟩
  · rw [e1, e2]
    exact ⟨fun e' he => by cases he; rfl, fun t q ts hc => by cases hc⟩

/-- `transform_vectors` does not change its arguments, and its result shares no memory with them. -/
theorem C87_vectors {sq : SquadFn} {s : HState} (h : Occurs sq s) (a : ℕ) {arr : ArrayLike} (ha : Exists s.mem arr) (dst : FrameRef) {o : HTArgs}
    (ho : ∀ x, o.timestamps = some x → Exists s.mem x) :
    Unchanged s.mem (transformVectorsH sq s a arr dst o s.mem).2 ∧
    ReturnsArray s.mem (transformVectorsH sq s a arr dst o s.mem)
      (s.view.transformVectors sq a (valueOf s.mem arr) dst (optionValues s.mem o)) := by
  rw [optionValues_read, valueOf_read]
  exact returnsArray_of (runs_vectors sq (occurs_sound h) a (exists_known.mp ha) dst (fun x hx => exists_known.mp (ho x hx)))

/-- `transform_points` does not change its arguments, and its result shares no memory with them. -/
theorem C87_points {sq : SquadFn} {s : HState} (h : Occurs sq s) (a : ℕ) {arr : ArrayLike} (ha : Exists s.mem arr) (dst : FrameRef) {o : HTArgs}
    (ho : ∀ x, o.timestamps = some x → Exists s.mem x) :
    Unchanged s.mem (transformPointsH sq s a arr dst o s.mem).2 ∧
    ReturnsArray s.mem (transformPointsH sq s a arr dst o s.mem)
      (s.view.transformPoints sq a (valueOf s.mem arr) dst (optionValues s.mem o)) := by
  rw [optionValues_read, valueOf_read]
  exact returnsArray_of (runs_points sq (occurs_sound h) a (exists_known.mp ha) dst (fun x hx => exists_known.mp (ho x hx)))

/-- `transform_quaternions` does not change its arguments, and its result shares no memory with them. -/
theorem C87_orientations {sq : SquadFn} {s : HState} (h : Occurs sq s) (a : ℕ) {arr : ArrayLike} (ha : Exists s.mem arr) (dst : FrameRef) {o : HTArgs}
    (ho : ∀ x, o.timestamps = some x → Exists s.mem x) :
    Unchanged s.mem (transformQuaternionsH sq s a arr dst o s.mem).2 ∧
    ReturnsArray s.mem (transformQuaternionsH sq s a arr dst o s.mem)
      (s.view.transformQuaternions sq a (valueOf s.mem arr) dst (optionValues s.mem o)) := by
  rw [optionValues_read, valueOf_read]
  exact returnsArray_of (runs_quaternions sq (occurs_sound h) a (exists_known.mp ha) dst (fun x hx => exists_known.mp (ho x hx)))

/-- Overwriting a result changes neither the frames nor any array that existed before the call. -/
theorem C87_results_free {sq : SquadFn} {s : HState} (h : Occurs sq s) {m' : Mem} (hm : Unchanged s.mem m') {r : NdRef} (hr : Separate s.mem r m')
    (c : List ℕ → ℝ) :
    ({ s with mem := m'.write r c } : HState).view = s.view ∧ Unchanged s.mem (m'.write r c) := by
  have hsz : s.mem.size ≤ m'.size := hr.1.trans hr.2.le
  have hk : Keeps s.mem m' := ⟨hsz, fun b hb => by
    have h1 := (hm ⟨b, [], id⟩ hb).2
    have h2 : ∀ idx, (m'.read ⟨b, [], id⟩).get idx = (s.mem.read ⟨b, [], id⟩).get idx := fun idx => by rw [h1]
    funext idx
    exact h2 idx⟩
  have hk2 := keeps_write hk hr.1 c
  exact ⟨view_keeps (occurs_sound h) hk2 s.st, unchanged_of hk2⟩

/-! ### programs that do not overwrite arrays -/

/-- A step that is not an in-place write has the effect on the frames that it has in the value model. -/
theorem C87_steps {sq : SquadFn} {s : HState} (h : Occurs sq s) {o : HOp} (ho : Refers s.mem o) (hw : ∀ b, ¬WritesTo b o) :
    (∀ op, asOp s.mem o = some op → (s.step sq o).view = (s.view.step op).1) ∧ (asOp s.mem o = none → (s.step sq o).view = s.view) := by
  have hs := occurs_sound h
  have hk := step_keeps sq hs ho hw
  cases o with
  | write r c => exact absurd rfl (hw r.buf)
  | register n p a u =>
    refine ⟨fun op e => ?_, fun e => by cases e⟩
    cases e
    exact (C87_register h n p ho u).1
  | setParent i v =>
    refine ⟨fun op e => ?_, fun e => by cases e⟩
    cases e
    exact (congrArg Prod.fst (withData_setParent s.st s.view.data i v)).symm
  | deregister n =>
    refine ⟨fun op e => ?_, fun e => by cases e⟩
    cases e
    change ({ s with st := (s.st.deregister (some n)).1 } : HState).view = (s.view.deregister (some n)).1
    simp only [State.deregister]
    have : s.view.reg = s.st.reg := rfl
    rw [this]
    cases dictGet s.st.reg n <;> rfl
  | clear =>
    refine ⟨fun op e => ?_, fun e => by cases e⟩
    cases e
    rfl
  | array c => exact ⟨fun op e => (by cases e), fun _ => view_keeps hs hk s.st⟩
  | lookup a dst => exact ⟨fun op e => (by cases e), fun _ => view_keeps hs hk s.st⟩
  | vectors a arr dst o => exact ⟨fun op e => (by cases e), fun _ => view_keeps hs hk s.st⟩
  | points a arr dst o => exact ⟨fun op e => (by cases e), fun _ => view_keeps hs hk s.st⟩
  | quaternions a arr dst o => exact ⟨fun op e => (by cases e), fun _ => view_keeps hs hk s.st⟩

theorem occurs_step {sq : SquadFn} {s : HState} (h : Occurs sq s) {o : HOp} (ho : Refers s.mem o) : Occurs sq (s.step sq o) := by
  obtain ⟨ops, h1, rfl⟩ := h
  have ap : ∀ (ops : List HOp) (s : HState), Runnable sq s ops → Refers (s.run sq ops).mem o →
      Runnable sq s (ops ++ [o]) ∧ s.run sq (ops ++ [o]) = (s.run sq ops).step sq o := by
    intro ops
    induction ops with
    | nil => exact fun s _ h => ⟨⟨h, trivial⟩, rfl⟩
    | cons x xs ih => exact fun s h1 h2 => ⟨⟨h1.1, (ih _ h1.2 h2).1⟩, (ih _ h1.2 h2).2⟩
  exact ⟨ops ++ [o], (ap ops _ h1 ho).1, (ap ops _ h1 ho).2⟩

/-- Programs that never overwrite arrays reach exactly states of the value model, so that
everything proved about it (C01–C86) applies to them. -/
theorem C87_values {sq : SquadFn} {ops : List HOp} (ho : Runnable sq HState.init ops) (hn : NoWrites sq HState.init ops) :
    ∃ es, Reachable (HState.init.run sq ops).view es := by
  have key : ∀ (ops : List HOp) (s : HState), Occurs sq s → (∃ es, Reachable s.view es) → Runnable sq s ops → NoWrites sq s ops →
      ∃ es, Reachable (s.run sq ops).view es := by
    intro ops
    induction ops with
    | nil => exact fun s _ h _ _ => h
    | cons o os ih =>
      rintro s hs ⟨es, hr⟩ ho hn
      refine ih _ (occurs_step hs ho.1) ?_ ho.2 hn.2.2
      obtain ⟨h1, h2⟩ := C87_steps hs ho.1 hn.1
      cases hop : asOp s.mem o with
      | none => exact ⟨es, by rw [h2 hop]; exact hr⟩
      | some op =>
        rw [h1 op hop]
        refine ⟨_, .step op hr ?_⟩
        have := hn.2.1 op hop
        cases op <;> exact this
  exact key ops _ ⟨[], trivial, rfl⟩ ⟨[], .init⟩ ho hn

/-! ### a concrete program -/

/-- `t = np.array([1.0, 0, 0])`. -/
noncomputable def exTrA : NdRef := ⟨0, [3], id⟩

/-- `q = np.array([1.0, 0, 0, 0])`. -/
noncomputable def exRotA : NdRef := ⟨1, [4], id⟩

/-- The arguments `translation=t, rotation=q`. -/
noncomputable def exArgsH : HArgs := ⟨some (.array exTrA), some (.array exRotA), none, false, false⟩

/-- `register_frame("world"); t = np.array(...); q = np.array(...)`. -/
noncomputable def exProg : List HOp :=
  [.register (some "world") none {} false,
   .array ⟨[3], fun idx => if idx = [0] then 1 else 0⟩,
   .array ⟨[4], fun idx => if idx = [0] then 1 else 0⟩]

theorem exProg_occurs (sq : SquadFn) : Occurs sq (HState.init.run sq exProg) := by
  refine ⟨exProg, ⟨⟨?_, ?_, ?_⟩, trivial, trivial, trivial⟩, rfl⟩ <;> simp

theorem exProg_args (sq : SquadFn) : ArgsExist (HState.init.run sq exProg).mem exArgsH := by
  refine ⟨fun x hx => ?_, fun x hx => ?_, fun x hx => by cases hx⟩
  · cases hx; exact (by decide : 0 < 2)
  · cases hx; exact (by decide : 1 < 2)

theorem exProg_register (sq : SquadFn) : ((HState.init.run sq exProg).registerFrame (some "b") (some (.byName "world")) exArgsH false).2 = .ok () := by
  rfl

/-- `register_frame("b", parent="world", translation=t, rotation=q); t[...] = [2, 0, 0]`: the
translation of the frame is now `(2, 0, 0)`. -/
example (sq : SquadFn) : ∃ s', (HState.init.run sq exProg).registerFrame (some "b") (some (.byName "world")) exArgsH false = (s', .ok ()) ∧
    (s'.run sq [.write exTrA fun idx => if idx = [0] then 2 else 0]).view.data 1 =
      some ⟨some (.one ![2, 0, 0], .one 1), none, false⟩ := by
  refine ⟨_, rfl, ?_⟩
  have h := C87_current (sq := sq) (s := HState.init.run sq exProg) (some "b") (.byName "world") (t := exTrA) (r := exRotA) (ts := none) false false rfl
    [.write exTrA fun idx => if idx = [0] then 2 else 0]
  refine h.trans ?_
  let c0 : ND ℝ := ⟨[3], fun idx => if idx = [0] then 1 else 0⟩
  let c1 : ND ℝ := ⟨[4], fun idx => if idx = [0] then 1 else 0⟩
  have hq : (((⟨[c0.get, c1.get]⟩ : Mem).write exTrA fun idx => if idx = [0] then 2 else 0).read exRotA) = c1 := by
    simp only [Mem.read]
    rw [write_other (by decide)]
    rfl
  have ht : vecsOf (((⟨[c0.get, c1.get]⟩ : Mem).write exTrA fun idx => if idx = [0] then 2 else 0).read exTrA) = .one ![2, 0, 0] := by
    have key := fun (i : ℕ) (hi : i < 3) => write_whole (m := ⟨[c0.get, c1.get]⟩) (b := 0) (sh := [3]) (by simp [Mem.size])
      (fun idx => if idx = [0] then 2 else 0) (idx := [i]) ⟨hi, trivial⟩
    refine congrArg Arr.one (funext fun i => ?_)
    refine (key i i.2).trans ?_
    fin_cases i <;> simp
  have hq2 : quatsOf c1 = .one 1 := by
    simp only [quatsOf, c1]
    congr 1
  change some (⟨some (vecsOf (((⟨[c0.get, c1.get]⟩ : Mem).write exTrA fun idx => if idx = [0] then 2 else 0).read exTrA),
    quatsOf (((⟨[c0.get, c1.get]⟩ : Mem).write exTrA fun idx => if idx = [0] then 2 else 0).read exRotA)), none, false⟩ : FrameData) = _
  rw [hq, ht, hq2]

/-- The same with `inverse=True`: the registration succeeds (the hypotheses of `C87_inverse`). -/
example (sq : SquadFn) : ∃ s', (HState.init.run sq exProg).registerFrame (some "b") (some (.byName "world"))
    ⟨some (.array exTrA), some (.array exRotA), (none : Option NdRef).map .array, true, false⟩ false = (s', .ok ()) := by
  have hq : quatsOf ((HState.init.run sq exProg).mem.read exRotA) = .one 1 := by
    change quatsOf (⟨[4], fun idx => if idx = [0] then 1 else 0⟩ : ND ℝ) = .one 1
    simp only [quatsOf]
    congr 1
  have hi : initArrays (argValues (HState.init.run sq exProg).mem ⟨some (.array exTrA), some (.array exRotA), none, true, false⟩) =
      .ok (.one (-rotateMatrixForm 1⁻¹ fun i => ((HState.init.run sq exProg).mem.read exTrA).get [(i : ℕ)]), .one 1⁻¹, none) := by
    have h1 : initRotationArg none (some ((HState.init.run sq exProg).mem.read exRotA)) = .ok (.one 1) := by
      rw [← hq]; rfl
    have h2 : initTranslationArg none (some ((HState.init.run sq exProg).mem.read exTrA)) =
      .ok (.one fun i => ((HState.init.run sq exProg).mem.read exTrA).get [(i : ℕ)]) := rfl
    simp only [initArrays, argValues, valueOf, Option.map_some, Option.map_none, initTimestamps, bind, Except.bind, h1, h2]
    simp [qinvArr, rotateVectors, Arr.map, Pure.pure, Except.pure]
  obtain ⟨m', _, ⟨⟨t, r, ts⟩, y, e1, e2, _⟩ | ⟨e, e1, e2⟩⟩ := runs_initArrays (args := ⟨some (.array exTrA), some (.array exRotA), none, true, false⟩)
    (m := (HState.init.run sq exProg).mem) (argsExist_known (exProg_args sq))
  · have hs : (HState.init.run sq exProg).registerFrame (some "b") (some (.byName "world")) ⟨some (.array exTrA), some (.array exRotA), none, true, false⟩ false =
        match initArraysH ⟨some (.array exTrA), some (.array exRotA), none, true, false⟩ (HState.init.run sq exProg).mem with
        | (.error e, m) => (⟨m, (((HState.init.run sq exProg).st.alloc (some "b")).setParent 1 (some 0)).1,
            Function.update (HState.init.run sq exProg).obj 1 none⟩, .error e)
        | (.ok (t, r, ts), m) => (⟨m, ((((HState.init.run sq exProg).st.alloc (some "b")).setParent 1 (some 0)).1.register 1 false).1,
            Function.update (HState.init.run sq exProg).obj 1 (some ⟨some (t, r), ts, false⟩)⟩, .ok ()) := by
      simp only [HState.registerFrame, HState.construct]
      rw [e1]
      rfl
    rw [e1] at hs
    exact ⟨_, hs⟩
  · rw [← argValues_read, hi] at e2
    cases e2

/-- The program above meets the hypotheses of `C87_values`. -/
example (sq : SquadFn) : Runnable sq HState.init exProg ∧ NoWrites sq HState.init exProg := by
  refine ⟨⟨⟨?_, ?_, ?_⟩, trivial, trivial, trivial⟩, ⟨fun _ => id, fun op h => ?_, fun _ => id, fun op h => ?_, fun _ => id, fun op h => ?_, trivial⟩⟩
  · simp
  · simp
  · simp
  · cases h; trivial
  · cases h
  · cases h

end RBM.Props
