import Verif.Lemmas.HeapVelTransform
import Verif.Spec.MemoryVelocity
import Verif.Props.Heap
import Verif.Props.VelocityTransform

namespace RBM.Props

open RBM.Spec RBM.Heap

/-! ### lookups -/

/-- `lookup_linear_velocity` changes no array and returns new arrays. -/
theorem C87_linear_lookup {ext : Ext} {sq : SquadFn} {s : HState} (h : Occurs sq s) (a : ℕ) (reference representIn : Option FrameRef) (o : VelArgs) :
    Unchanged s.mem (lookupLinearVelocityH ext s a reference representIn o s.mem).2 ∧
    ReturnsArray s.mem (lookupLinearVelocityH ext s a reference representIn o s.mem)
      (s.view.lookupLinearVelocity ext a reference representIn o) :=
  returnsArray_of (runs_lookupLinear ext (occurs_sound h) (.refl _) a reference representIn o)

/-- `lookup_angular_velocity` changes no array and returns new arrays. -/
theorem C87_angular_lookup {ext : Ext} {sq : SquadFn} {s : HState} (h : Occurs sq s) (a : ℕ) (reference representIn : Option FrameRef) (o : VelArgs) :
    Unchanged s.mem (lookupAngularVelocityH ext s a reference representIn o s.mem).2 ∧
    ReturnsArray s.mem (lookupAngularVelocityH ext s a reference representIn o s.mem)
      (s.view.lookupAngularVelocity ext a reference representIn o) :=
  returnsArray_of (runs_lookupAngular ext (occurs_sound h) (.refl _) a reference representIn o)

/-- `lookup_twist` changes no array and returns new arrays. -/
theorem C87_twist_lookup {ext : Ext} {sq : SquadFn} {s : HState} (h : Occurs sq s) (a : ℕ) (reference representIn : Option FrameRef) (o : VelArgs) :
    Unchanged s.mem (lookupTwistH ext s a reference representIn o s.mem).2 ∧
    ReturnsTwist s.mem (lookupTwistH ext s a reference representIn o s.mem) (s.view.lookupTwist ext a reference representIn o) := by
  have h := runs_lookupTwist ext (occurs_sound h) (.refl _) a reference representIn o
  refine ⟨unchanged_of h.keeps, ?_⟩
  obtain ⟨m', hk, ⟨x, y, e1, e2, hn⟩ | ⟨e, e1, e2⟩⟩ := h
  · rw [e1, e2]
    refine ⟨fun e he => (by cases he), fun l g hc => ?_, fun l g ts hc => ?_⟩
    · cases hc
      cases x with
      | pair rl rg => exact ⟨rl, rg, rfl, hn.1.value, hn.2.1.value, ⟨hn.1.fresh, hn.1.known⟩, ⟨hn.2.1.fresh, hn.2.1.known⟩, by simpa [Spec.Disjoint] using hn.2.2⟩
      | triple rl rg rts => exact absurd hn id
    · cases hc
      cases x with
      | pair rl rg => exact absurd hn id
      | triple rl rg rts =>
        obtain ⟨n1, n2, n3, n4, n5, n6⟩ := hn
        exact ⟨rl, rg, rts, rfl, n1.value, n2.value, (newStamps_map n3).1, ⟨n1.fresh, n1.known⟩, ⟨n2.fresh, n2.known⟩, (newStamps_map n3).2, disjoint_two n4 n5 n6⟩
  · rw [e1, e2]
    exact ⟨fun e' he => by cases he; rfl, fun l g hc => (by cases hc), fun l g ts hc => by cases hc⟩

/-! ### transforms -/

/-- `transform_linear_velocity` does not change its arguments, and its result shares no memory with
them. -/
theorem C87_linear_velocity {ext : Ext} {sq : SquadFn} {s : HState} (h : Occurs sq s) (a : ℕ) {arr : ArrayLike} (ha : Exists s.mem arr)
    (dst : FrameRef) (what : String) (mf rf : Option FrameRef) {o : HTArgs} (ho : ∀ x, o.timestamps = some x → Exists s.mem x)
    (outlier cutoff : Option ℝ) :
    Unchanged s.mem (transformLinearVelocityH ext s a arr dst what mf rf o outlier cutoff s.mem).2 ∧
    ReturnsArray s.mem (transformLinearVelocityH ext s a arr dst what mf rf o outlier cutoff s.mem)
      (s.view.transformLinearVelocity ext a (valueOf s.mem arr) dst what mf rf (optionValues s.mem o) outlier cutoff) := by
  rw [optionValues_read, valueOf_read]
  exact returnsArray_of (runs_transformLinear ext (occurs_sound h) a (exists_known.mp ha) dst what mf rf (fun x hx => exists_known.mp (ho x hx)) outlier cutoff)

theorem entryRet_same {m m' : Mem} {r : NdRef} {c : ND ℝ}
    (h : r.shape = c.shape ∧ (∀ idx, Valid c.shape idx → (m'.read r).get idx = c.get idx) ∧ m.size ≤ r.buf ∧ r.buf < m'.size) :
    SameEntries (m'.read r) c ∧ Separate m r m' :=
  ⟨⟨h.1, fun idx hv => h.2.1 idx (by rw [← h.1]; exact hv)⟩, h.2.2⟩

/-- `transform_angular_velocity` does not change its arguments either, although it adds in place:
the array it adds to is not the one it was given. The result shares no memory with the arguments. -/
theorem C87_angular_velocity {ext : Ext} {sq : SquadFn} {s : HState} (h : Occurs sq s) (a : ℕ) {arr : ArrayLike} (ha : Exists s.mem arr)
    (dst : FrameRef) (what : String) {o : HTArgs} (ho : ∀ x, o.timestamps = some x → Exists s.mem x) (cutoff : Option ℝ) :
    Unchanged s.mem (transformAngularVelocityH ext s a arr dst what o cutoff s.mem).2 ∧
    ReturnsEntries s.mem (transformAngularVelocityH ext s a arr dst what o cutoff s.mem)
      (s.view.transformAngularVelocity ext a (valueOf s.mem arr) dst what (optionValues s.mem o) cutoff) := by
  rw [optionValues_read, valueOf_read]
  have h := runs_transformAngular ext (occurs_sound h) a (exists_known.mp ha) dst what (fun x hx => exists_known.mp (ho x hx)) cutoff
  obtain ⟨m', hk, ⟨x, y, e1, e2, hn⟩ | ⟨e, e1, e2⟩⟩ := h
  · rw [e1, e2]
    refine ⟨unchanged_of hk, fun e he => (by cases he), fun c hc => ?_, fun c ts hc => ?_⟩
    · cases hc
      cases x with
      | single r => exact ⟨r, rfl, (entryRet_same hn).1, (entryRet_same hn).2⟩
      | withTs r ts => exact absurd hn id
    · cases hc
      cases x with
      | single r => exact absurd hn id
      | withTs r rts =>
        obtain ⟨n1, n2, n3⟩ := hn
        exact ⟨r, rts, rfl, (entryRet_same n1).1, (newStamps_map n2).1, (entryRet_same n1).2, (newStamps_map n2).2, disjoint_one n3⟩
  · rw [e1, e2]
    exact ⟨unchanged_of hk, fun e' he => by cases he; rfl, fun c hc => (by cases hc), fun c ts hc => by cases hc⟩

/-! ### afterwards -/

theorem run_arrays (sq : SquadFn) (s : HState) (cs : List (List ℕ → ℝ)) :
    s.run sq (cs.map fun c => .array ⟨[], c⟩) = { s with mem := ⟨s.mem.cells ++ cs⟩ } := by
  induction cs generalizing s with
  | nil => simp [HState.run]
  | cons c cs ih =>
    simp only [List.map_cons, HState.run, ih, HState.step, new, List.append_assoc, List.singleton_append]

theorem runnable_append {sq : SquadFn} {s : HState} {a b : List HOp} (h1 : Runnable sq s a) (h2 : Runnable sq (s.run sq a) b) : Runnable sq s (a ++ b) := by
  induction a generalizing s with
  | nil => exact h2
  | cons o os ih => exact ⟨h1.1, ih h1.2 h2⟩

theorem run_append' (sq : SquadFn) (s : HState) (a b : List HOp) : s.run sq (a ++ b) = (s.run sq a).run sq b := by
  induction a generalizing s with
  | nil => rfl
  | cons o os ih => exact ih _

/-- After a function that leaves all arrays unchanged, the process is in a state in which all of the
above applies again, with the same frames. So nothing changes for programs that also call the
velocity functions. -/
theorem C87_continues {sq : SquadFn} {s : HState} (h : Occurs sq s) {m' : Mem} (hm : Unchanged s.mem m') (hsz : s.mem.size ≤ m'.size) :
    Occurs sq { s with mem := m' } ∧ ({ s with mem := m' } : HState).view = s.view := by
  have hk : Keeps s.mem m' := ⟨hsz, fun b hb => by
    have h1 := (hm ⟨b, [], id⟩ hb).2
    have h2 : ∀ idx, (m'.read ⟨b, [], id⟩).get idx = (s.mem.read ⟨b, [], id⟩).get idx := fun idx => by rw [h1]
    funext idx
    exact h2 idx⟩
  refine ⟨?_, view_keeps (occurs_sound h) hk s.st⟩
  have e : m'.cells = s.mem.cells ++ m'.cells.drop s.mem.size := by
    apply List.ext_getElem?
    intro i
    by_cases hi : i < s.mem.size
    · have hi' : i < m'.cells.length := hi.trans_le hsz
      have hi2 : i < s.mem.cells.length := hi
      rw [List.getElem?_append_left hi]
      have := hk.same i hi
      simp only [Mem.buffer, List.getD_eq_getElem?_getD, List.getElem?_eq_getElem hi', List.getElem?_eq_getElem hi2, Option.getD_some] at this
      rw [List.getElem?_eq_getElem hi', List.getElem?_eq_getElem hi2, this]
    · have hi2 : s.mem.cells.length ≤ i := Nat.le_of_not_lt hi
      rw [List.getElem?_append_right hi2, List.getElem?_drop]
      congr 1
      simp only [Mem.size]
      omega
  obtain ⟨ops, h1, rfl⟩ := h
  have hr : ∀ (cs : List (List ℕ → ℝ)) (s : HState), Runnable sq s (cs.map fun c => .array ⟨[], c⟩) := by
    intro cs
    induction cs with
    | nil => exact fun _ => trivial
    | cons c cs ih => exact fun s => ⟨trivial, ih _⟩
  refine ⟨ops ++ (m'.cells.drop (HState.init.run sq ops).mem.size).map fun c => .array ⟨[], c⟩, runnable_append h1 (hr _ _), ?_⟩
  rw [run_append', run_arrays, ← e]

/-! ### a concrete program -/

/-- An array that exists: the hypotheses of `C87_angular_velocity` and `C87_linear_velocity`. -/
example (sq : SquadFn) : Occurs sq (HState.init.run sq exProg) ∧ Exists (HState.init.run sq exProg).mem (.array exTrA) :=
  ⟨exProg_occurs sq, (by decide : 0 < 2)⟩

/-- `get_frame("world").transform_angular_velocity(t, "world")`: the result is a new array, `t` is
as before. -/
example {ext : Ext} (hsq : SquadLaw ext.squad) :
    ∃ r, (transformAngularVelocityH ext (HState.init.run ext.squad exProg) 0 (.array exTrA) (.byObj 0) "reference_frame" {} none
        (HState.init.run ext.squad exProg).mem).1 = .ok (.single r) ∧ r.shape = [3] ∧ r.buf ≠ exTrA.buf := by
  obtain ⟨es, hr⟩ := C87_values (sq := ext.squad) (ops := exProg) ⟨⟨by simp, by simp, by simp⟩, trivial, trivial, trivial⟩
    ⟨fun _ => id, fun op h => (by cases h; trivial), fun _ => id, fun op h => (by cases h), fun _ => id, fun op h => (by cases h), trivial⟩
  have hlt : 0 < (HState.init.run ext.squad exProg).view.size := (by decide : 0 < 1)
  obtain ⟨out, ots, h1, h2, h3, _⟩ := C37_static_path hsq hr hlt hlt pathAll_self route_self
    (arr := valueOf (HState.init.run ext.squad exProg).mem (.array exTrA)) (ats := none) rfl (C11_self_lookup ext.squad hr hlt)
    (by intro y hy; simp [arrayStamps, sharedStamps] at hy) none false
  obtain ⟨_, _, h4, _⟩ := C87_angular_velocity (ext := ext) (exProg_occurs ext.squad) 0 (arr := .array exTrA) (by exact (by decide : 0 < 2)) (.byObj 0)
    "reference_frame" (o := {}) (by simp) none
  obtain ⟨r, r1, r2, r3⟩ := h4 out h1
  refine ⟨r, r1, ?_, ?_⟩
  · have e : ots = none := by rw [h2]; simp [arrayStamps, sharedStamps]
    rw [e] at h3
    exact r2.1.trans h3
  · have := r3.1
    have e : (HState.init.run ext.squad exProg).mem.size = 2 := rfl
    rw [e] at this
    change r.buf ≠ 0
    omega

end RBM.Props
