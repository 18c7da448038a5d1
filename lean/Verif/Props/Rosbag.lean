import Verif.Spec.RosIo
import Verif.Props.RosMsg
import Verif.Props.NetCdf

/-!
C61: writing transforms to a bag and loading motions from a bag.
-/

namespace RBM.Props

open RBM RBM.Ros RBM.Spec

/-! ### Stamps -/

theorem hasStamp_fromSec {τ : ℝ} (h : -(1 / 1000000000) < τ) : fromSec τ = .ok (cutNs τ) := by
  by_cases h0 : 0 ≤ τ
  · exact fromSec_floor h0
  · have h1 : τ < 0 := not_le.mp h0
    have e1 : pyInt τ = 0 := by
      rw [pyInt, if_neg h0, Int.ceil_eq_zero_iff]
      exact ⟨by linarith, h1.le⟩
    have e2 : pyInt ((τ - (0 : ℤ)) * 1000000000) = 0 := by
      rw [pyInt, if_neg (by push_cast; nlinarith), Int.ceil_eq_zero_iff]
      push_cast
      exact ⟨by linarith, by linarith⟩
    have e3 : ⌊τ * 1000000000⌋ ≤ 0 := Int.floor_le_iff.mpr (by push_cast; linarith)
    rw [cutNs, Int.toNat_eq_zero.mpr e3]
    simp only [fromSec, e1]
    rw [e2]
    simp

theorem not_hasStamp_low {τ : ℝ} (h : ¬ -(1 / 1000000000) < τ) (t r : List ℝ) (f c : Option String) :
    makeTransformMsg t r f c τ = .error .typeError := (C49_negative_time (not_lt.mp h) t r f c).1

theorem cutNs_lt {τ : ℝ} (h : HasStamp τ) : cutNs τ < 4294967296 * 1000000000 := by
  unfold cutNs
  have : ⌊τ * 1000000000⌋ < 4294967296 * 1000000000 := Int.floor_lt.mpr (by push_cast; linarith [h.2])
  omega

theorem cutNs_ge {τ : ℝ} (h : ¬ τ < 4294967296) : 4294967296 * 1000000000 ≤ cutNs τ := by
  unfold cutNs
  have : (4294967296 * 1000000000 : ℤ) ≤ ⌊τ * 1000000000⌋ := Int.le_floor.mpr (by push_cast; linarith [not_lt.mp h])
  omega

/-! ### Writing -/

/-- The message of a row. -/
noncomputable def rowMsg (frame child : String) (r : Row) : TransformStamped :=
  { header := { stamp := cutNs r.ts, frameId := some frame }, childFrameId := some child,
    transform := { translation := xyz r.t, rotation := xyzw r.r } }

/-- The arguments of a row in the loop. -/
noncomputable def rowArgs (r : Row) : ℝ × List ℝ × List ℝ × ℕ := (r.ts, vecList r.t, quatList r.r, r.now)

theorem make_row {frame child : String} {r : Row} (h : -(1 / 1000000000) < r.ts) :
    makeTransformMsg (vecList r.t) (quatList r.r) (some frame) (some child) r.ts = .ok (rowMsg frame child r) := by
  simp [makeTransformMsg, mkHeader, hasStamp_fromSec h, mkXYZ, mkXYZW, at', vecList, quatList, bind, Except.bind, Pure.pure, Except.pure,
    rowMsg, xyz, xyzw]

/-- The connections after `n` messages on a topic. -/
def addConn (conns : List (String × String)) (topic : String) (n : ℕ) : List (String × String) :=
  if n = 0 ∨ (conns.map Prod.fst).contains topic then conns else conns ++ [(topic, "geometry_msgs/TransformStamped")]

open Classical in
theorem writeRows_spec (topic frame child : String) (rows : List Row) : ∀ b : Bag,
    (writeRows topic frame child (some b) (rows.map rowArgs)).1 =
      some ⟨addConn b.conns topic (rows.takeWhile fun r => decide (HasStamp r.ts)).length,
        b.records ++ (rows.takeWhile fun r => decide (HasStamp r.ts)).map fun r => ⟨topic, .transform (rowMsg frame child r), r.now⟩⟩ ∧
    ((∀ r ∈ rows, HasStamp r.ts) → (writeRows topic frame child (some b) (rows.map rowArgs)).2 = .ok ()) ∧
    (∀ pre r post, rows = pre ++ r :: post → (∀ x ∈ pre, HasStamp x.ts) →
      (r.ts ≤ -(1 / 1000000000) → (writeRows topic frame child (some b) (rows.map rowArgs)).2 = .error .typeError) ∧
      (4294967296 ≤ r.ts → (writeRows topic frame child (some b) (rows.map rowArgs)).2 = .error .serializationError)) := by
  induction rows with
  | nil => intro b; simp [writeRows, addConn]
  | cons r rows ih =>
    intro b
    simp only [List.map_cons, rowArgs, writeRows]
    by_cases h1 : -(1 / 1000000000) < r.ts
    · rw [make_row h1]
      by_cases h2 : r.ts < 4294967296
      · have hs : HasStamp r.ts := ⟨h1, h2⟩
        have hw : b.write topic (rowMsg frame child r) r.now =
            (⟨addConn b.conns topic 1, b.records ++ [⟨topic, .transform (rowMsg frame child r), r.now⟩]⟩, .ok ()) := by
          unfold Bag.write
          rw [if_neg (by simpa [rowMsg] using cutNs_lt hs)]
          simp [addConn]
        obtain ⟨i1, i2, i3⟩ := ih ⟨addConn b.conns topic 1, b.records ++ [⟨topic, .transform (rowMsg frame child r), r.now⟩]⟩
        simp only [hw]
        refine ⟨?_, ?_, ?_⟩
        · rw [i1, List.takeWhile_cons_of_pos (by simpa using hs)]
          simp only [List.map_cons, List.append_assoc, List.cons_append, List.nil_append, List.length_cons, Option.some.injEq, Bag.mk.injEq,
            and_true]
          unfold addConn
          by_cases hc : topic ∈ b.conns.map Prod.fst
          · simp [hc]
          · simp [hc]
        · intro h
          exact i2 fun x hx => h x (by simp [hx])
        · intro pre r' post he hp
          cases pre with
          | nil =>
            simp only [List.nil_append, List.cons.injEq] at he
            obtain ⟨rfl, rfl⟩ := he
            exact ⟨fun h => by linarith, fun h => by linarith⟩
          | cons x pre =>
            simp only [List.cons_append, List.cons.injEq] at he
            obtain ⟨rfl, rfl⟩ := he
            exact i3 pre r' post rfl fun y hy => hp y (by simp [hy])
      · have hs : ¬ HasStamp r.ts := fun h => h2 h.2
        have hw : b.write topic (rowMsg frame child r) r.now = (b, .error .serializationError) := by
          unfold Bag.write
          rw [if_pos (by simpa [rowMsg] using cutNs_ge h2)]
        simp only [hw]
        refine ⟨?_, fun h => absurd (h r (by simp)) hs, ?_⟩
        · rw [List.takeWhile_cons_of_neg (by simpa using hs)]; simp [addConn]
        · intro pre r' post he hp
          cases pre with
          | nil =>
            simp only [List.nil_append, List.cons.injEq] at he
            obtain ⟨rfl, rfl⟩ := he
            exact ⟨fun h => by linarith, fun _ => by simp⟩
          | cons x pre =>
            simp only [List.cons_append, List.cons.injEq] at he
            obtain ⟨rfl, rfl⟩ := he
            exact absurd (hp r (by simp)) hs
    · have hs : ¬ HasStamp r.ts := fun h => h1 h.1
      rw [not_hasStamp_low h1]
      refine ⟨?_, fun h => absurd (h r (by simp)) hs, ?_⟩
      · rw [List.takeWhile_cons_of_neg (by simpa using hs)]; simp [addConn]
      · intro pre r' post he hp
        cases pre with
        | nil =>
          simp only [List.nil_append, List.cons.injEq] at he
          obtain ⟨rfl, rfl⟩ := he
          exact ⟨fun _ => rfl, fun h => by linarith⟩
        | cons x pre =>
          simp only [List.cons_append, List.cons.injEq] at he
          obtain ⟨rfl, rfl⟩ := he
          exact absurd (hp r (by simp)) hs

/-- The result of one call. -/
noncomputable def WriteResult (b : Option Bag) (c : WriteCall) : Option Bag × Res Unit :=
  writeTransformStamped b c.clock c.timestamps c.translation c.rotation c.topic c.frame c.childFrame

theorem rows_args (c : WriteCall) (n : ℕ) : (c.rows n).map rowArgs =
    (List.range n).map fun k => (c.timestamps.get [k], ndRow c.translation 3 k, ndRow c.rotation 4 k, c.clock k) := by
  simp only [WriteCall.rows, List.map_map]
  refine List.map_congr_left fun k _ => ?_
  simp [rowArgs, vecList, quatList, ndRow, List.range_succ]

theorem write_shapes {c : WriteCall} {n : ℕ} (h : c.ShapesOk n) (b : Option Bag) :
    WriteResult b c = writeRows c.topic c.frame c.childFrame b ((c.rows n).map rowArgs) := by
  obtain ⟨h1, h2, h3⟩ := h
  rw [rows_args]
  simp only [WriteResult, writeTransformStamped, h1]
  rw [if_neg (by simpa using h2), if_neg (by simpa using h3)]

theorem write_bad {c : WriteCall} (h : ∀ n, ¬ c.ShapesOk n) (b : Option Bag) : WriteResult b c = (b, .error .valueError) := by
  unfold WriteResult writeTransformStamped
  split
  · rename_i n hn
    split_ifs with h2 h3
    · rfl
    · rfl
    · exact absurd ⟨hn, not_not.mp h2, not_not.mp h3⟩ (h n)
  · rfl

theorem accepted_shapes {c : WriteCall} {n : ℕ} (h : c.ShapesOk n) :
    c.accepted = by classical exact (c.rows n).takeWhile fun r => decide (HasStamp r.ts) := by
  unfold WriteCall.accepted
  have : c.timestamps.shape.headD 0 = n := by rw [h.1]; rfl
  rw [this, if_pos h]

theorem accepted_bad {c : WriteCall} (h : ∀ n, ¬ c.ShapesOk n) : c.accepted = [] := by
  unfold WriteCall.accepted
  rw [if_neg (h _)]

theorem write_bag (b : Bag) (c : WriteCall) : (WriteResult (some b) c).1 =
    some ⟨addConn b.conns c.topic c.accepted.length,
      b.records ++ c.accepted.map fun r => ⟨c.topic, .transform (rowMsg c.frame c.childFrame r), r.now⟩⟩ := by
  by_cases h : ∃ n, c.ShapesOk n
  · obtain ⟨n, h⟩ := h
    rw [write_shapes h, accepted_shapes h, (writeRows_spec _ _ _ _ _).1]
  · push Not at h
    rw [write_bad h, accepted_bad h]
    simp [addConn]

/-! ### Loading -/

theorem mapM_ok {α β : Type} {f : α → Res β} {g : α → β} {l : List α} (h : ∀ x ∈ l, f x = .ok (g x)) : l.mapM f = .ok (l.map g) := by
  induction l with
  | nil => rfl
  | cons a l ih =>
    rw [List.mapM_cons, h a (by simp), ih fun x hx => h x (by simp [hx])]
    rfl

theorem readMessages_sorted {b : Bag} (h : b.records.Pairwise fun r r' => r.time ≤ r'.time) (topic : String) :
    b.readMessages topic = (b.records.filter fun r => decide (r.topic = topic)).map Record.msg := by
  unfold Bag.readMessages
  rw [List.mergeSort_of_pairwise]
  exact (h.filter _).imp (by simp)

/-- All messages that a history wrote, with their topics. -/
noncomputable def allRecords (calls : List WriteCall) : List Record :=
  calls.flatMap fun c => c.accepted.map fun r => ⟨c.topic, .transform (rowMsg c.frame c.childFrame r), r.now⟩

theorem writeAll_bag (calls : List WriteCall) : ∃ b, writeAll calls = some b ∧ b.records = allRecords calls ∧
    (∀ t ty, (t, ty) ∈ b.conns → ty = "geometry_msgs/TransformStamped") ∧
    ∀ t, t ∈ b.conns.map Prod.fst ↔ acceptedOn calls t ≠ [] := by
  induction calls using List.reverseRecOn with
  | nil => exact ⟨Bag.empty, rfl, rfl, by simp [Bag.empty], by simp [Bag.empty, acceptedOn]⟩
  | append_singleton calls c ih =>
    obtain ⟨b, h1, h2, h3, h4⟩ := ih
    refine ⟨⟨addConn b.conns c.topic c.accepted.length,
      b.records ++ c.accepted.map fun r => ⟨c.topic, .transform (rowMsg c.frame c.childFrame r), r.now⟩⟩, ?_, ?_, ?_, ?_⟩
    · have : writeAll (calls ++ [c]) = (WriteResult (writeAll calls) c).1 := by simp [writeAll, WriteResult]
      rw [this, h1, write_bag]
    · simp [h2, allRecords]
    · intro t ty hm
      simp only [addConn] at hm
      split_ifs at hm
      · exact h3 t ty hm
      · rcases List.mem_append.mp hm with hm | hm
        · exact h3 t ty hm
        · simp only [List.mem_singleton, Prod.mk.injEq] at hm
          exact hm.2
    · intro t
      have e : acceptedOn (calls ++ [c]) t = acceptedOn calls t ++ if c.topic = t then c.accepted else [] := by
        simp only [acceptedOn, List.filter_append, List.flatMap_append]
        by_cases hc : c.topic = t <;> simp [hc]
      rw [e]
      simp only [addConn]
      by_cases hl : c.accepted = []
      · simp [hl, h4]
      · have hl' : c.accepted.length ≠ 0 := by simpa using hl
        by_cases hin : c.topic ∈ b.conns.map Prod.fst
        · rw [if_pos (Or.inr (by simpa using hin)), h4]
          by_cases hc : c.topic = t
          · subst hc
            simp [hl, (h4 c.topic).mp hin]
          · simp [hc]
        · rw [if_neg (by simp only [hl', List.contains_eq_mem, decide_eq_true_eq, hin, or_self, not_false_eq_true])]
          rw [List.map_append, List.mem_append, h4]
          by_cases hc : c.topic = t
          · subst hc; simp [hl]
          · simp [hc, Ne.symm hc]

theorem allRecords_topic (calls : List WriteCall) (topic : String) :
    ∃ fc : List (String × String × Row), fc.map (fun x => x.2.2) = acceptedOn calls topic ∧
      ((allRecords calls).filter fun r => decide (r.topic = topic)).map Record.msg = fc.map fun x => .transform (rowMsg x.1 x.2.1 x.2.2) := by
  induction calls with
  | nil => exact ⟨[], rfl, rfl⟩
  | cons c calls ih =>
    obtain ⟨fc, h1, h2⟩ := ih
    by_cases hc : c.topic = topic
    · refine ⟨c.accepted.map (fun r => (c.frame, c.childFrame, r)) ++ fc, ?_, ?_⟩
      · have e : acceptedOn (c :: calls) topic = c.accepted ++ acceptedOn calls topic := by simp [acceptedOn, hc]
        rw [e, ← h1]
        simp [Function.comp_def]
      · simp only [allRecords, List.flatMap_cons, List.filter_append, List.map_append]
        simp only [allRecords] at h2
        rw [h2]
        simp [List.filter_map, Function.comp_def, hc]
    · refine ⟨fc, ?_, ?_⟩
      · simpa [acceptedOn, hc] using h1
      · simp only [allRecords, List.flatMap_cons, List.filter_append, List.map_append]
        simp only [allRecords] at h2
        rw [h2]
        simp [List.filter_map, Function.comp_def, hc]

theorem lookup_some_of_mem {conns : List (String × String)} {t : String} (h : t ∈ conns.map Prod.fst) :
    ∃ ty, conns.lookup t = some ty ∧ (t, ty) ∈ conns := by
  induction conns with
  | nil => simp at h
  | cons c conns ih =>
    obtain ⟨a, b⟩ := c
    by_cases hc : t = a
    · subst hc; exact ⟨b, by simp, by simp⟩
    · obtain ⟨ty, h1, h2⟩ := ih (by simpa [hc] using h)
      refine ⟨ty, ?_, by simp [h2]⟩
      have hb : (t == a) = false := by simpa using hc
      rw [List.lookup_cons, hb, h1]

theorem lookup_none_of_not_mem {conns : List (String × String)} {t : String} (h : t ∉ conns.map Prod.fst) : conns.lookup t = none := by
  induction conns with
  | nil => rfl
  | cons c conns ih =>
    obtain ⟨a, b⟩ := c
    simp only [List.map_cons, List.mem_cons, not_or] at h
    have hb : (t == a) = false := by simpa using h.1
    rw [List.lookup_cons, hb, ih h.2]

/-- What was written to a bag is what is loaded from it: after any history of calls of `write_transform_stamped` (some of which may have failed),
`load_messages(topic)` returns the rows written to that topic, in order, with times cut to nanoseconds; other topics do not interfere. If nothing was
written to the topic, `KeyError` is raised. -/
theorem C61_roundtrip (calls : List WriteCall) (hclock : SteadyClock calls) (topic : String) (path : Path) :
    ((Reader.mk path (writeAll calls)).loadMessages topic) =
      if acceptedOn calls topic = [] then .error .keyError
      else .ok { timestamps := (acceptedOn calls topic).map fun r => (cutNs r.ts : ℝ) / 1000000000
                 position := (acceptedOn calls topic).map fun r => [r.t 0, r.t 1, r.t 2]
                 orientation := (acceptedOn calls topic).map fun r => [r.r.re, r.r.imI, r.r.imJ, r.r.imK]
                 velocity := none } := by
  obtain ⟨b, h1, h2, h3, h4⟩ := writeAll_bag calls
  have hs : b.records.Pairwise fun r r' => r.time ≤ r'.time := by
    rw [h2]
    have : (allRecords calls).map Record.time = (calls.flatMap WriteCall.accepted).map Row.now := by
      simp [allRecords, List.map_flatMap, Function.comp_def]
    have hp := hclock
    unfold SteadyClock at hp
    rw [← this, List.pairwise_map] at hp
    exact hp
  simp only [h1, Reader.loadMessages, Bag.msgType]
  by_cases he : acceptedOn calls topic = []
  · rw [if_pos he, lookup_none_of_not_mem (fun h => (h4 topic).mp h he)]
    rfl
  · rw [if_neg he]
    obtain ⟨ty, l1, l2⟩ := lookup_some_of_mem ((h4 topic).mpr he)
    rw [l1, h3 _ _ l2]
    obtain ⟨fc, f1, f2⟩ := allRecords_topic calls topic
    rw [readMessages_sorted hs, h2, f2]
    have hm : (fc.map fun x => Msg.transform (rowMsg x.1 x.2.1 x.2.2)).mapM transformRow =
        .ok (fc.map fun x => [(cutNs x.2.2.ts : ℝ) / 1000000000, x.2.2.t 0, x.2.2.t 1, x.2.2.t 2, x.2.2.r.re, x.2.2.r.imI, x.2.2.r.imJ, x.2.2.r.imK]) := by
      rw [mapM_ok (g := fun m => match m with
        | .transform m => [toSec m.header.stamp] ++ unpackPoint m.transform.translation ++ unpackQuaternion m.transform.rotation
        | _ => [])]
      · rw [List.map_map]; rfl
      · intro x hx
        obtain ⟨y, -, rfl⟩ := List.mem_map.mp hx
        rfl
    have hne : fc ≠ [] := by rintro rfl; exact he (by rw [← f1]; rfl)
    rw [hm, ← f1]
    simp [bind, Except.bind, Pure.pure, Except.pure, col, cols, hne, Function.comp_def]

/-- Arrays whose shapes do not match are refused with `ValueError` and nothing is written. -/
theorem C61_shapes (b : Option Bag) (c : WriteCall) (h : ∀ n, ¬ c.ShapesOk n) :
    writeTransformStamped b c.clock c.timestamps c.translation c.rotation c.topic c.frame c.childFrame = (b, .error .valueError) := write_bad h b

/-- With matching shapes and timestamps that have a stamp the call succeeds. -/
theorem C61_succeeds (b : Bag) (c : WriteCall) {n : ℕ} (h : c.ShapesOk n) (hts : ∀ k < n, HasStamp (c.timestamps.get [k])) :
    (writeTransformStamped (some b) c.clock c.timestamps c.translation c.rotation c.topic c.frame c.childFrame).2 = .ok () ∧
      c.accepted = c.rows n := by
  have hr : ∀ r ∈ c.rows n, HasStamp r.ts := by
    intro r hr
    obtain ⟨k, hk, rfl⟩ := List.mem_map.mp hr
    exact hts k (List.mem_range.mp hk)
  refine ⟨?_, ?_⟩
  · have := write_shapes h (some b)
    unfold WriteResult at this
    rw [this]
    exact (writeRows_spec _ _ _ _ b).2.1 hr
  · rw [accepted_shapes h]
    classical
    have := List.takeWhile_append_of_pos (p := fun r : Row => decide (HasStamp r.ts)) (l₁ := c.rows n) (l₂ := []) fun r hr' => by simpa using hr r hr'
    simpa using this

/-- The first timestamp without stamp ends the call with an error; the rows before it have been written. -/
theorem C61_bad_stamp (b : Bag) (c : WriteCall) {n k : ℕ} (h : c.ShapesOk n) (hk : k < n) (hts : ∀ j < k, HasStamp (c.timestamps.get [j])) :
    (c.timestamps.get [k] ≤ -(1 / 1000000000) →
      (writeTransformStamped (some b) c.clock c.timestamps c.translation c.rotation c.topic c.frame c.childFrame).2 = .error .typeError ∧
      c.accepted = c.rows k) ∧
    (4294967296 ≤ c.timestamps.get [k] →
      (writeTransformStamped (some b) c.clock c.timestamps c.translation c.rotation c.topic c.frame c.childFrame).2 = .error .serializationError ∧
      c.accepted = c.rows k) := by
  obtain ⟨m, rfl⟩ : ∃ m, n = k + (m + 1) := ⟨n - k - 1, by omega⟩
  have hsplit : c.rows (k + (m + 1)) = c.rows k ++ ⟨c.timestamps.get [k], fun i => c.translation.get [k, i],
      ⟨c.rotation.get [k, 0], c.rotation.get [k, 1], c.rotation.get [k, 2], c.rotation.get [k, 3]⟩, c.clock k⟩ ::
      (List.range m).map fun j => ⟨c.timestamps.get [k + (j + 1)], fun i => c.translation.get [k + (j + 1), i],
      ⟨c.rotation.get [k + (j + 1), 0], c.rotation.get [k + (j + 1), 1], c.rotation.get [k + (j + 1), 2], c.rotation.get [k + (j + 1), 3]⟩,
      c.clock (k + (j + 1))⟩ := by
    simp only [WriteCall.rows]
    rw [List.range_add, List.map_append, List.range_succ_eq_map]
    simp [Function.comp_def]
  have hpre : ∀ x ∈ c.rows k, HasStamp x.ts := by
    intro r hr
    obtain ⟨j, hj, rfl⟩ := List.mem_map.mp hr
    exact hts j (List.mem_range.mp hj)
  have hacc : ¬ HasStamp (c.timestamps.get [k]) → c.accepted = c.rows k := by
    intro hn
    classical
    rw [accepted_shapes h, hsplit, List.takeWhile_append_of_pos (fun r hr => by simpa using hpre r hr), List.takeWhile_cons_of_neg (by simpa using hn)]
    simp
  have hw := write_shapes h (some b)
  unfold WriteResult at hw
  rw [hw]
  obtain ⟨e1, e2⟩ := (writeRows_spec c.topic c.frame c.childFrame _ b).2.2 _ _ _ hsplit hpre
  exact ⟨fun hh => ⟨e1 hh, hacc fun hs => by linarith [hs.1]⟩, fun hh => ⟨e2 hh, hacc fun hs => by linarith [hs.2]⟩⟩

/-- The order of the loaded rows is that of the wall clock at recording, not that of writing: if the clock is set back, rows are swapped. -/
theorem C61_clock_is_false : ∃ c : WriteCall, c.ShapesOk 2 ∧ c.timestamps.get [0] = 1 ∧ c.timestamps.get [1] = 2 ∧
    ∃ m, (Reader.mk ⟨[], "x.bag"⟩ (writeAll [c])).loadMessages c.topic = .ok m ∧ m.timestamps = [2, 1] := by
  let c : WriteCall := ⟨⟨[2], fun i => if i = [0] then 1 else 2⟩, ⟨[2, 3], fun _ => 0⟩, ⟨[2, 4], fun _ => 0⟩, "/t", "a", "b", fun k => 1 - k⟩
  have hc : c.ShapesOk 2 := ⟨rfl, rfl, rfl⟩
  obtain ⟨b, h1, h2, h3, h4⟩ := writeAll_bag [c]
  have ha : c.accepted = c.rows 2 := (C61_succeeds Bag.empty c hc (by
    intro k hk
    interval_cases k <;> simp [c, HasStamp] <;> norm_num)).2
  have hr : acceptedOn [c] "/t" = c.rows 2 := by
    unfold acceptedOn
    rw [List.filter_cons_of_pos (by simp [c])]
    simp [ha]
  refine ⟨c, hc, rfl, by simp [c], ?_⟩
  have hm : b.readMessages "/t" = ((c.rows 2).map fun r => Msg.transform (rowMsg "a" "b" r)).reverse := by
    unfold Bag.readMessages
    rw [h2]
    simp only [allRecords, List.flatMap_cons, List.flatMap_nil, ha]
    simp [WriteCall.rows, List.range_succ, c, List.mergeSort, List.MergeSort.Internal.splitInTwo, List.merge]
  obtain ⟨ty, l1, l2⟩ := lookup_some_of_mem ((h4 "/t").mpr (by rw [hr]; simp [WriteCall.rows, List.range_succ]))
  have e1 : ⌊(1 : ℝ) * 1000000000⌋ = 1000000000 := by rw [Int.floor_eq_iff]; norm_num
  have e2 : ⌊(2 : ℝ) * 1000000000⌋ = 2000000000 := by rw [Int.floor_eq_iff]; norm_num
  rw [h3 _ _ l2] at l1
  have e : (Reader.mk ⟨[], "x.bag"⟩ (writeAll [c])).loadMessages c.topic =
      .ok ⟨[2, 1], [[0, 0, 0], [0, 0, 0]], [[0, 0, 0, 0], [0, 0, 0, 0]], none⟩ := by
    rw [h1]
    have ht : c.topic = "/t" := rfl
    simp only [Reader.loadMessages, Bag.msgType, ht, l1, hm]
    simp [WriteCall.rows, List.range_succ, bind, Except.bind, Pure.pure, Except.pure, transformRow, rowMsg, unpackPoint, unpackQuaternion, XYZ.tuple,
      XYZW.tuple, xyz, xyzw, col, cols, c, toSec, cutNs, e1, e2]
    norm_num
  exact ⟨_, e, rfl⟩

/-- Datasets: a dataset with datetime timestamps (nanoseconds since 1970) that is written to a fresh bag and loaded again with `load_dataset` comes back
exactly. -/
theorem C61_dataset (ds : String → Option DsVar) {ts t r : DsVar} (h1 : ds "time" = some ts) (h2 : ds "position" = some t)
    (h3 : ds "orientation" = some r) (hd : ts.datetime = true) {n : ℕ} (hn : n ≠ 0) (s1 : ts.data.shape = [n]) (s2 : t.data.shape = [n, 3])
    (s3 : r.data.shape = [n, 4]) (ns : ℕ → ℕ) (hns : ∀ k < n, ts.data.get [k] = ns k ∧ ns k < 4294967296 * 1000000000)
    {clock : ℕ → ℕ} (hc : Monotone clock) (topic frame child : String) (path : Path) :
    ∃ b, writeTransformStampedDataset (some Bag.empty) clock ds topic frame child = (some b, .ok ()) ∧
      (Reader.mk path (some b)).loadDatasetUncached topic = .ok
        { time := (List.range n).map fun k => (ns k : ℤ)
          position := (List.range n).map fun k => [some (t.data.get [k, 0]), some (t.data.get [k, 1]), some (t.data.get [k, 2])]
          orientation := (List.range n).map fun k =>
            [some (r.data.get [k, 0]), some (r.data.get [k, 1]), some (r.data.get [k, 2]), some (r.data.get [k, 3])]
          velocity := none } := by
  let c : WriteCall := ⟨ts.data.map fun τ => τ / 1000000000, t.data, r.data, topic, frame, child, clock⟩
  have hs : c.ShapesOk n := ⟨s1, s2, s3⟩
  have hst : ∀ k < n, HasStamp (c.timestamps.get [k]) := by
    intro k hk
    obtain ⟨e, hl⟩ := hns k hk
    have hl' : (ns k : ℝ) < 4294967296 * 1000000000 := by exact_mod_cast hl
    have h0 : (0 : ℝ) ≤ ns k := Nat.cast_nonneg _
    change HasStamp (ts.data.get [k] / 1000000000)
    rw [e]
    refine ⟨?_, by rw [div_lt_iff₀ (by norm_num)]; exact hl'⟩
    have : (0 : ℝ) ≤ (ns k : ℝ) / 1000000000 := by positivity
    linarith
  obtain ⟨w1, w2⟩ := C61_succeeds Bag.empty c hs hst
  have w3 := write_bag Bag.empty c
  unfold WriteResult at w3
  have hres : writeTransformStampedDataset (some Bag.empty) clock ds topic frame child =
      writeTransformStamped (some Bag.empty) c.clock c.timestamps c.translation c.rotation c.topic c.frame c.childFrame := by
    simp only [writeTransformStampedDataset, h1, h2, h3, hd, if_true, c]
  refine ⟨_, by rw [hres]; exact Prod.ext w3 w1, ?_⟩
  have hb : writeAll [c] = some _ := w3
  rw [← w3]
  have hclock : SteadyClock [c] := by
    unfold SteadyClock
    simp only [List.flatMap_cons, List.flatMap_nil, List.append_nil, w2, WriteCall.rows, List.map_map, Function.comp_def]
    rw [List.pairwise_map]
    exact (List.pairwise_lt_range (n := n)).imp fun h => hc h.le
  have hacc : acceptedOn [c] topic = c.rows n := by
    unfold acceptedOn
    rw [List.filter_cons_of_pos (by simp [c])]
    simp [w2]
  have hrt := C61_roundtrip [c] hclock topic path
  have hne : c.rows n ≠ [] := by simp [WriteCall.rows, hn]
  rw [hacc, if_neg hne] at hrt
  have hcut : ∀ k < n, cutNs (ts.data.get [k] / 1000000000) = ns k := by
    intro k hk
    rw [(hns k hk).1, cutNs, div_mul_cancel₀ _ (by norm_num), Int.floor_natCast]
    rfl
  change (Reader.mk path (writeAll [c])).loadDatasetUncached topic = _
  simp only [Reader.loadDatasetUncached, hrt, bind, Except.bind, Pure.pure, Except.pure, someRows, WriteCall.rows, List.map_map, Function.comp_def,
    Option.map_none, List.map_cons, List.map_nil]
  congr 2
  refine List.map_congr_left fun k hk => ?_
  have := hcut k (List.mem_range.mp hk)
  change rint (((cutNs (ts.data.get [k] / 1000000000) : ℕ) : ℝ) / 1000000000 * 1000000000) = _
  rw [this, div_mul_cancel₀ _ (by norm_num)]
  have : ((ns k : ℕ) : ℝ) = ((ns k : ℤ) : ℝ) := by push_cast; rfl
  rw [this, rint_int]

/-- A dataset without one of the three variables is refused. -/
theorem C61_dataset_missing (b : Option Bag) (clock : ℕ → ℕ) (ds : String → Option DsVar) (topic frame child : String)
    (h : ds "time" = none ∨ ds "position" = none ∨ ds "orientation" = none) :
    writeTransformStampedDataset b clock ds topic frame child = (b, .error .keyError) := by
  unfold writeTransformStampedDataset
  rcases h with h | h | h
  · rw [h]
  · rw [h]; split <;> simp_all
  · rw [h]; split <;> simp_all

/-- Odometry: the loaded arrays hold, in order of recording, stamps, positions, orientations (w, x, y, z) and linear and angular velocities. -/
theorem C61_odometry {b : Bag} {topic : String} (hty : b.conns.lookup topic = some "nav_msgs/Odometry") {ms : List Odometry} (hne : ms ≠ [])
    (hm : b.readMessages topic = ms.map Msg.odometry) (path : Path) :
    (Reader.mk path (some b)).loadMessages topic = .ok
      { timestamps := ms.map fun m => (m.header.stamp : ℝ) / 1000000000
        position := ms.map fun m => [m.pose.position.x, m.pose.position.y, m.pose.position.z]
        orientation := ms.map fun m => [m.pose.orientation.w, m.pose.orientation.x, m.pose.orientation.y, m.pose.orientation.z]
        velocity := some (ms.map fun m => [m.twist.linear.x, m.twist.linear.y, m.twist.linear.z],
          ms.map fun m => [m.twist.angular.x, m.twist.angular.y, m.twist.angular.z]) } := by
  have h : (ms.map Msg.odometry).mapM odometryRow = .ok (ms.map fun m => [(m.header.stamp : ℝ) / 1000000000, m.pose.position.x, m.pose.position.y,
      m.pose.position.z, m.pose.orientation.w, m.pose.orientation.x, m.pose.orientation.y, m.pose.orientation.z, m.twist.linear.x, m.twist.linear.y,
      m.twist.linear.z, m.twist.angular.x, m.twist.angular.y, m.twist.angular.z]) := by
    rw [mapM_ok (g := fun m => match m with
      | .odometry m => [toSec m.header.stamp] ++ unpackPoint m.pose.position ++ unpackQuaternion m.pose.orientation ++
          unpackVector m.twist.linear ++ unpackVector m.twist.angular
      | _ => [])]
    · rw [List.map_map]; rfl
    · intro x hx
      obtain ⟨y, -, rfl⟩ := List.mem_map.mp hx
      rfl
  simp only [Reader.loadMessages, Bag.msgType, hty, hm]
  simp [h, bind, Except.bind, Pure.pure, Except.pure, col, cols, hne, Function.comp_def]

/-- The dataset of an odometry topic: times to the nanosecond, and all four variables with the recorded values. -/
theorem C61_odometry_dataset {b : Bag} {topic : String} (hty : b.conns.lookup topic = some "nav_msgs/Odometry") {ms : List Odometry} (hne : ms ≠ [])
    (hm : b.readMessages topic = ms.map Msg.odometry) (path : Path) :
    (Reader.mk path (some b)).loadDatasetUncached topic = .ok
      { time := ms.map fun m => (m.header.stamp : ℤ)
        position := ms.map fun m => [some m.pose.position.x, some m.pose.position.y, some m.pose.position.z]
        orientation := ms.map fun m =>
          [some m.pose.orientation.w, some m.pose.orientation.x, some m.pose.orientation.y, some m.pose.orientation.z]
        velocity := some (ms.map fun m => [some m.twist.linear.x, some m.twist.linear.y, some m.twist.linear.z],
          ms.map fun m => [some m.twist.angular.x, some m.twist.angular.y, some m.twist.angular.z]) } := by
  have e : ∀ k : ℕ, rint ((k : ℝ) / 1000000000 * 1000000000) = (k : ℤ) := by
    intro k
    rw [div_mul_cancel₀ _ (by norm_num)]
    have : ((k : ℕ) : ℝ) = ((k : ℤ) : ℝ) := by push_cast; rfl
    rw [this, rint_int]
  simp [Reader.loadDatasetUncached, C61_odometry hty hne hm path, bind, Except.bind, Pure.pure, Except.pure, someRows, Function.comp_def]
  intro m _
  simpa using e m.header.stamp

/-- An odometry topic with two messages, recorded in the opposite order of writing, beside another topic. -/
example : ∃ b : Bag, b.conns.lookup "/odom" = some "nav_msgs/Odometry" ∧ ∃ m₁ m₂ : Odometry, m₁.header.stamp ≠ m₂.header.stamp ∧
    m₁.twist.linear.x ≠ m₂.twist.linear.x ∧ b.readMessages "/odom" = [m₁, m₂].map Msg.odometry := by
  let m (k : ℕ) : Odometry := ⟨⟨k, some "map"⟩, some "base", ⟨⟨k, 0, 0⟩, ⟨0, 0, 0, 1⟩⟩, ⟨⟨k, 0, 0⟩, ⟨0, 0, 1⟩⟩⟩
  refine ⟨⟨[("/tf", "geometry_msgs/TransformStamped"), ("/odom", "nav_msgs/Odometry")],
    [⟨"/odom", .odometry (m 2), 7⟩, ⟨"/x", .other "y", 6⟩, ⟨"/odom", .odometry (m 1), 5⟩]⟩, rfl, m 1, m 2, by simp [m], by simp [m], ?_⟩
  simp [Bag.readMessages, List.mergeSort, List.MergeSort.Internal.splitInTwo, List.merge]

/-- Loading fails outside of the context manager, for unknown topics, for other message types and for topics without messages. -/
theorem C61_errors (path : Path) (topic : String) :
    (Reader.mk path none).loadMessages topic = .error .runtimeError ∧
    (∀ b : Bag, topic ∉ b.conns.map Prod.fst → (Reader.mk path (some b)).loadMessages topic = .error .keyError) ∧
    (∀ (b : Bag) (ty : String), b.conns.lookup topic = some ty → ty ≠ "nav_msgs/Odometry" → ty ≠ "geometry_msgs/TransformStamped" →
      (Reader.mk path (some b)).loadMessages topic = .error .valueError) ∧
    (∀ (b : Bag) (ty : String), b.conns.lookup topic = some ty → (ty = "nav_msgs/Odometry" ∨ ty = "geometry_msgs/TransformStamped") →
      b.readMessages topic = [] → (Reader.mk path (some b)).loadMessages topic = .error .indexError) := by
  refine ⟨rfl, ?_, ?_, ?_⟩
  · intro b h
    simp only [Reader.loadMessages, Bag.msgType, lookup_none_of_not_mem h]
    rfl
  · intro b ty h1 h2 h3
    simp only [Reader.loadMessages, Bag.msgType, h1, bind, Except.bind]
    rw [if_neg h2, if_neg h3]
    rfl
  · intro b ty h1 h2 h3
    simp only [Reader.loadMessages, Bag.msgType, h1, h3, bind, Except.bind]
    rcases h2 with rfl | rfl
    · rw [if_pos rfl]; rfl
    · rw [if_neg (by decide), if_pos rfl]; rfl

/-- The hypotheses of C61_roundtrip are met by a history of two calls on different topics and a failed one. -/
example : ∃ calls : List WriteCall, calls.length = 3 ∧ SteadyClock calls ∧ (acceptedOn calls "/a").length = 2 ∧ (acceptedOn calls "/b").length = 1 := by
  let c₁ : WriteCall := ⟨⟨[2], fun i => if i = [0] then 1 else 2⟩, ⟨[2, 3], fun _ => 0⟩, ⟨[2, 4], fun _ => 0⟩, "/a", "a", "b", fun k => k⟩
  let c₂ : WriteCall := ⟨⟨[2], fun i => if i = [0] then 1 else -2⟩, ⟨[2, 3], fun _ => 0⟩, ⟨[2, 4], fun _ => 0⟩, "/b", "a", "c", fun k => k + 2⟩
  let c₃ : WriteCall := ⟨⟨[2], fun _ => 1⟩, ⟨[1, 3], fun _ => 0⟩, ⟨[2, 4], fun _ => 0⟩, "/b", "a", "c", fun k => k⟩
  have h1 : c₁.accepted = c₁.rows 2 := (C61_succeeds Bag.empty c₁ ⟨rfl, rfl, rfl⟩ (by
    intro k hk
    interval_cases k <;> simp [c₁, HasStamp] <;> norm_num)).2
  have h2 : c₂.accepted = c₂.rows 1 := ((C61_bad_stamp Bag.empty c₂ (n := 2) (k := 1) ⟨rfl, rfl, rfl⟩ (by norm_num) (by
    intro k hk
    interval_cases k
    simp [c₂, HasStamp]
    norm_num)).1 (by simp [c₂]; norm_num)).2
  have h3 : c₃.accepted = [] := accepted_bad fun n h => by
    obtain ⟨e1, e2, -⟩ := h
    simp only [c₃, List.cons.injEq, and_true] at e1 e2
    omega
  refine ⟨[c₁, c₂, c₃], rfl, ?_, ?_, ?_⟩
  · simp only [SteadyClock, List.flatMap_cons, List.flatMap_nil, h1, h2, h3]
    simp [WriteCall.rows, List.range_succ, c₁, c₂]
  · have : acceptedOn [c₁, c₂, c₃] "/a" = c₁.accepted := by
      unfold acceptedOn
      rw [List.filter_cons_of_pos (by simp [c₁]), List.filter_cons_of_neg (by simp [c₂]), List.filter_cons_of_neg (by simp [c₃])]
      simp
    rw [this, h1]
    simp [WriteCall.rows]
  · have : acceptedOn [c₁, c₂, c₃] "/b" = c₂.accepted := by
      unfold acceptedOn
      rw [List.filter_cons_of_neg (by simp [c₁]), List.filter_cons_of_pos (by simp [c₂]), List.filter_cons_of_pos (by simp [c₃])]
      simp [h3]
    rw [this, h2]
    simp [WriteCall.rows]

end RBM.Props
