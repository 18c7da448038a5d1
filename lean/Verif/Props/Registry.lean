import Verif.Lemmas.Example

/-!
C01–C09: the registry and the forest of frames, for every history of operations.
-/

set_option linter.unusedSimpArgs false

namespace RBM.Props

open RBM Spec

/-! ### C01 -/

/-- After any history, a name resolves to its owner (the object most recently registered under it
and not since deregistered, cleared or destroyed), and to `ValueError` if it has none. -/
theorem C01_registry_refines_history {s : State} {h : List Event} (hr : Reachable s h)
    (n : String) :
    s.resolve (.byName n) =
      match owner h n with
      | some i => .ok i
      | none => .error .valueError := by
  simp only [State.resolve, hr.owner n]
  cases owner h n <;> rfl

/-- Spelled out: `n` resolves to `i` iff the history contains a registration of `i` under `n`
after which nothing re-registered or removed `n`, cleared the registry or destroyed `i`. -/
theorem C01_owner_iff (h : List Event) (n : String) (i : ℕ) :
    owner h n = some i ↔ ∃ later earlier, h = later ++ .registered n i :: earlier ∧
      ∀ e ∈ later, (∀ j, e ≠ .registered n j) ∧ e ≠ .removed n ∧ e ≠ .cleared ∧
        e ≠ .destroyed i := by
  induction h with
  | nil => simp [owner]
  | cons e h ih =>
    have step : (∀ j, e ≠ .registered n j) → e ≠ .removed n → e ≠ .cleared → e ≠ .destroyed i →
        ((∃ later earlier, e :: h = later ++ .registered n i :: earlier ∧
          ∀ e ∈ later, (∀ j, e ≠ .registered n j) ∧ e ≠ .removed n ∧ e ≠ .cleared ∧
            e ≠ .destroyed i) ↔
        (∃ later earlier, h = later ++ .registered n i :: earlier ∧
          ∀ e ∈ later, (∀ j, e ≠ .registered n j) ∧ e ≠ .removed n ∧ e ≠ .cleared ∧
            e ≠ .destroyed i)) := by
      intro h1 h2 h3 h4
      constructor
      · rintro ⟨la, ea, he, hl⟩
        cases la with
        | nil => simp at he; exact absurd he.1 (h1 i)
        | cons x la =>
          simp at he
          exact ⟨la, ea, he.2, fun e he => hl e (List.mem_cons_of_mem _ he)⟩
      · rintro ⟨la, ea, he, hl⟩
        refine ⟨e :: la, ea, by simp [he], ?_⟩
        intro x hx
        rcases List.mem_cons.mp hx with rfl | hx
        · exact ⟨h1, h2, h3, h4⟩
        · exact hl x hx
    have no : (¬ ((∀ j, e ≠ .registered n j) ∧ e ≠ .removed n ∧ e ≠ .cleared ∧ e ≠ .destroyed i)) →
        e ≠ .registered n i →
        ¬ ∃ later earlier, e :: h = later ++ .registered n i :: earlier ∧
          ∀ e ∈ later, (∀ j, e ≠ .registered n j) ∧ e ≠ .removed n ∧ e ≠ .cleared ∧
            e ≠ .destroyed i := by
      rintro hne hni ⟨la, ea, he, hl⟩
      cases la with
      | nil => simp at he; exact hni he.1
      | cons x la => simp at he; exact hne (he.1 ▸ hl x (by simp))
    cases e with
    | registered m j =>
      simp only [owner]
      by_cases hm : m = n
      · subst hm
        simp only [if_true]
        by_cases hj : j = i
        · subst hj
          exact ⟨fun _ => ⟨[], h, rfl, by simp⟩, fun _ => rfl⟩
        · constructor
          · intro hc; cases hc; exact absurd rfl hj
          · intro hc
            refine absurd hc (no ?_ ?_)
            · intro hh; exact hh.1 j rfl
            · simpa using hj
      · simp only [hm, if_false]
        rw [ih, step] <;> simp [hm]
    | removed m =>
      simp only [owner]
      by_cases hm : m = n
      · subst hm
        simp only [if_true]
        exact ⟨fun hc => (nomatch hc), fun hc => absurd hc (no (by simp) (by simp))⟩
      · simp only [hm, if_false]
        rw [ih, step] <;> simp [hm]
    | cleared =>
      simp only [owner]
      exact ⟨fun hc => (nomatch hc), fun hc => absurd hc (no (by simp) (by simp))⟩
    | destroyed j =>
      simp only [owner]
      by_cases hj : j = i
      · subst hj
        constructor
        · intro hc
          split at hc
          · cases hc
          · rename_i hne; exact absurd hc hne
        · intro hc; exact absurd hc (no (by simp) (by simp))
      · rw [step (by simp) (by simp) (by simp) (by simpa using hj), ← ih]
        constructor
        · intro hc
          split at hc
          · cases hc
          · exact hc
        · intro hc
          rw [if_neg]
          · exact hc
          · rw [hc]; simpa using Ne.symm hj

/-- Non-vacuity: a reachable state with four registered frames. -/
example : Reachable Ex.s4 Ex.h4 ∧ owner Ex.h4 "b" = some 2 ∧ owner Ex.h4 "x" = none := by
  refine ⟨Ex.reach4, ?_, ?_⟩ <;> simp [Ex.h4, owner]

/-! ### C02 -/

/-- `rf.register(update)` succeeds iff the frame has a name that is free or `update` is set;
otherwise it raises `ValueError` and leaves the whole state unchanged. -/
theorem C02_register_outcome {s : State} {h : List Event} (hr : Reachable s h) {i : ℕ}
    (hi : i < s.size) (update : Bool) :
    ((s.register i update).2 = .ok () ↔
      ∃ n, s.name i = some n ∧ (owner h n = none ∨ update = true)) ∧
    ((s.register i update).2 ≠ .ok () →
      s.register i update = (s, .error .valueError)) := by
  rcases hc : s.register i update with ⟨s', res⟩
  rcases (register_spec hr.wf hi update hc).2.2.2.2 with ⟨rfl, rfl, h3⟩ | ⟨rfl, n, hn, _, h3⟩
  · refine ⟨⟨fun hh => by simp at hh, ?_⟩, fun _ => rfl⟩
    rintro ⟨n, hn, hh⟩
    rcases h3 with h3 | ⟨rfl, m, o, hm, ho⟩
    · rw [hn] at h3; cases h3
    · rw [hn] at hm; cases hm
      rw [hr.owner] at ho
      rcases hh with hh | hh
      · rw [ho] at hh; cases hh
      · cases hh
  · refine ⟨⟨fun _ => ⟨n, hn, ?_⟩, fun _ => rfl⟩, fun hh => absurd rfl hh⟩
    rcases h3 with ⟨h3, _⟩ | ⟨h3, _⟩
    · left; rw [← hr.owner]; exact h3
    · right; exact h3

/-- If `register_frame` raises, every name resolves as before; if the name is taken and `update`
is not set, or no name is given, it does raise. -/
theorem C02_register_frame_conflict {s : State} {h : List Event} (hr : Reachable s h)
    (n : Option String) (parent : Option FrameRef) (args : FrameArgs) (update : Bool)
    (href : (Op.registerFrame n parent args update).Refers s) :
    ((s.registerFrame n parent args update).2 ≠ .ok () →
      ∀ m, (s.registerFrame n parent args update).1.resolve (.byName m) = s.resolve (.byName m)) ∧
    ((n = none ∨ (update = false ∧ ∃ m o, n = some m ∧ owner h m = some o)) →
      ∃ e, (s.registerFrame n parent args update).2 = .error e) := by
  have hro := refOk_of_refers_registerFrame href
  rcases hc : s.construct n parent args with ⟨s', res⟩
  have hs := construct_spec hr.wf n parent args hro hc
  cases res with
  | error e =>
    simp only [State.registerFrame, hc]
    exact ⟨fun _ m => by simp only [State.resolve, hs.2.2.1], fun _ => ⟨e, rfl⟩⟩
  | ok i =>
    simp only [State.registerFrame, hc]
    have hi := hs.2.2.2.2.2.2 i rfl
    have hnm : s'.name i = n := by rw [hs.2.2.2.1, hi]; simp
    rcases hc2 : s'.register i update with ⟨s2, res2⟩
    rcases (register_spec hs.1 (i := i) (by omega) update hc2).2.2.2.2 with
      ⟨rfl, rfl, h3⟩ | ⟨rfl, k, hk, _, h3⟩
    · exact ⟨fun _ m => by simp only [State.resolve, hs.2.2.1], fun _ => ⟨_, rfl⟩⟩
    · refine ⟨fun hh => absurd rfl hh, ?_⟩
      rw [hnm] at hk
      rintro (hh | ⟨hu, m, o, hm, ho⟩)
      · rw [hh] at hk; cases hk
      · rw [hm] at hk; cases hk
        rw [hs.2.2.1, hr.owner] at h3
        rcases h3 with ⟨h3, _⟩ | ⟨h3, _⟩
        · rw [h3] at ho; cases ho
        · rw [hu] at h3; cases h3

/-- `deregister_frame(n)`: an unknown name raises `ValueError` and changes nothing; a known name is
removed and nothing else changes. -/
theorem C02_deregister {s : State} {h : List Event} (hr : Reachable s h) (n : String) :
    (owner h n = none → s.deregister (some n) = (s, .error .valueError)) ∧
    (owner h n ≠ none → (s.deregister (some n)).2 = .ok () ∧
      (s.deregister (some n)).1.resolve (.byName n) = .error .valueError ∧
      ∀ m, m ≠ n → (s.deregister (some n)).1.resolve (.byName m) = s.resolve (.byName m)) := by
  rw [← hr.owner]
  refine ⟨fun ho => by simp [State.deregister, ho], fun ho => ?_⟩
  obtain ⟨i, hi⟩ := Option.ne_none_iff_exists'.mp ho
  simp only [State.deregister, hi, true_and, State.resolve]
  refine ⟨by rw [dictGet_pop]; simp, fun m hm => ?_⟩
  rw [dictGet_pop, if_neg (Ne.symm hm)]

example : ∃ i, i < Ex.s4.size ∧ ∃ n, Ex.s4.name i = some n ∧ owner Ex.h4 n ≠ none := by
  rw [Ex.s4_eq]
  exact ⟨1, by norm_num, "a", by simp, by simp [Ex.h4, owner]⟩

/-! ### C03 -/

/-- After any history: parent and child links agree, every child is listed exactly once, and no
frame is its own ancestor. -/
theorem C03_forest_well_formed {s : State} {h : List Event} (hr : Reachable s h) :
    (∀ i p, s.parent i = some p ↔ (s.children p).count i = 1) ∧
    (∀ i p, s.parent i ≠ some p → i ∉ s.children p) ∧
    (∀ i, ¬ Ancestor s i i) := by
  have hw := hr.wf
  refine ⟨fun i p => ?_, fun i p hn hm => hn ((hw.child_iff i p).mp hm), hw.acyclic⟩
  constructor
  · intro hp; exact List.count_eq_one_of_mem (hw.nodup p) ((hw.child_iff i p).mpr hp)
  · intro hc
    exact (hw.child_iff i p).mp (List.count_pos_iff.mp (by omega))

example : Ancestor Ex.s4 2 0 ∧ Ex.s4.parent 3 = some 0 := by
  rw [Ex.s4_eq]
  refine ⟨.tail (.single (b := 1) ?_) ?_, ?_⟩ <;> simp [ParentOf]

/-! ### C04 -/

/-- Re-parenting below itself or a descendant raises `LoopError` and changes nothing; every other
re-parenting succeeds, changes exactly that parent link and no name, data or registration. -/
theorem C04_reparent {s : State} {h : List Event} (hr : Reachable s h) {i : ℕ} (hi : i < s.size)
    (v : Option ℕ) (hv : ∀ p, v = some p → p < s.size) :
    ((∃ p, v = some p ∧ AncestorOrSelf s p i) → s.setParent i v = (s, .error .loopError)) ∧
    ((∀ p, v = some p → ¬ AncestorOrSelf s p i) →
      (s.setParent i v).2 = .ok () ∧ (s.setParent i v).1.parent i = v ∧
      (∀ j, j ≠ i → (s.setParent i v).1.parent j = s.parent j) ∧
      (s.setParent i v).1.name = s.name ∧ (s.setParent i v).1.data = s.data ∧
      (s.setParent i v).1.reg = s.reg ∧ (s.setParent i v).1.size = s.size) := by
  rcases setParent_spec hr.wf hi hv with ⟨p, hp, _, ha, e⟩ | ⟨s', hn, e, _, e1, e2, e3, e4, e5⟩
  · exact ⟨fun _ => e, fun hh => absurd ha (hh p hp)⟩
  · refine ⟨fun ⟨p, hp, ha⟩ => absurd ha (hn p hp), fun _ => ?_⟩
    rw [e]
    refine ⟨rfl, by simp [e1], fun j hj => by simp [e1, Function.update_of_ne hj], e3, e4, e5, e2⟩

/-- Both cases occur: `b` cannot become parent of `a`, but `c` can. -/
example : AncestorOrSelf Ex.s4 2 1 ∧ ¬ AncestorOrSelf Ex.s4 3 1 := by
  have hw := Ex.reach4.wf
  constructor
  · rw [Ex.s4_eq]; exact .single (by simp [ParentOf])
  · rw [← RootPath.mem_iff (hw.pathReverse (i := 3) (by rw [Ex.s4_eq]; norm_num))]
    rw [Ex.s4_eq]; simp [State.pathReverse, chainUp]

/-! ### C05 -/

/-- The walk from `a` to `b` climbs from `a` to the nearest common ancestor (exclusive) and
descends to `b`; it raises `WalkError` exactly if there is no common ancestor. -/
theorem C05_walk {s : State} {h : List Event} (hr : Reachable s h) {a b : ℕ} (ha : a < s.size)
    (hb : b < s.size) :
    (s.walk a (.byObj b) = .error .walkError ↔
      ¬ ∃ c, AncestorOrSelf s a c ∧ AncestorOrSelf s b c) ∧
    ((∃ c, AncestorOrSelf s a c ∧ AncestorOrSelf s b c) →
      ∃ c up down, s.walk a (.byObj b) = .ok (up, down) ∧ NearestCommon s a b c ∧
        PathTo s.parent c a up ∧ PathTo s.parent c b down.reverse) := by
  simp only [State.walk, State.resolve]
  rcases walk_spec hr.wf ha hb with ⟨h1, h2⟩ | ⟨c, up, down, h1, h2, h3, h4⟩
  · exact ⟨⟨fun _ => h1, fun _ => h2⟩, fun hh => absurd hh h1⟩
  · refine ⟨⟨fun hh => ?_, fun hh => absurd ⟨c, h1.1, h1.2.1⟩ hh⟩,
      fun _ => ⟨c, up, down, h4, h1, h2, h3⟩⟩
    rw [h4] at hh; cases hh

/-- Paths to an ancestor are unique, so the walk is determined by the statement above. -/
theorem C05_path_unique {par : ℕ → Option ℕ} {c a : ℕ} {l l' : List ℕ} (h : PathTo par c a l)
    (h' : PathTo par c a l') : l = l' := by
  induction h generalizing l' with
  | here => cases h' with
    | here => rfl
    | up hne _ _ => exact absurd rfl hne
  | up hne hp _ ih => cases h' with
    | here => exact absurd rfl hne
    | up _ hp' h2 => rw [hp] at hp'; cases hp'; rw [ih h2]

/-- A frame given by name is walked to like the object registered under that name. -/
theorem C05_walk_by_name {s : State} {h : List Event} (hr : Reachable s h) (a : ℕ) {n : String}
    {b : ℕ} (hn : owner h n = some b) : s.walk a (.byName n) = s.walk a (.byObj b) := by
  simp only [State.walk, State.resolve, hr.owner, hn]

example : Ex.s4.walk 2 (.byName "c") = .ok ([2, 1], [3]) := by
  rw [Ex.s4_eq]
  simp [State.walk, State.resolve, dictGet, List.lookup, State.path, State.pathReverse, chainUp,
    walkPaths, calcCommon]

/-! ### C06 -/

/-- Destroying object `i` only removes a name that resolves to `i` itself, and it never fails. -/
theorem C06_destructor {s : State} {h : List Event} (hr : Reachable s h) {i : ℕ}
    (hi : i < s.size) (n : String) :
    (s.del i).2 = .ok () ∧
    (s.del i).1.resolve (.byName n) =
      (if s.resolve (.byName n) = .ok i then .error .valueError else s.resolve (.byName n)) ∧
    (s.del i).1.parent = s.parent ∧ (s.del i).1.data = s.data := by
  have hres : (s.del i).2 = .ok () ∧ (s.del i).1.parent = s.parent ∧ (s.del i).1.data = s.data := by
    simp only [State.del]
    cases hn : s.name i with
    | none => exact ⟨rfl, rfl, rfl⟩
    | some m =>
      simp only
      split
      · rename_i hd; simp [State.deregister, hd]
      · exact ⟨rfl, rfl, rfl⟩
  refine ⟨hres.1, ?_, hres.2⟩
  have hnew := Reachable.step (.del i) hr hi
  have e1 := C01_registry_refines_history hnew n
  have e2 := C01_registry_refines_history hr n
  simp only [State.step, hres.1, eventOf, List.cons_append, List.nil_append, owner] at e1
  rw [e1, e2]
  cases ho : owner h n with
  | none => simp
  | some j =>
    by_cases hj : j = i
    · simp [hj]
    · simp [hj]

/-- An object that lost its name to an update is destroyed without effect: here `a` (object 1) is
replaced by a new object 4, then destroyed; the name still resolves to object 4. -/
example : ∃ s h, Reachable s h ∧ 1 < s.size ∧ s.name 1 = some "a" ∧
    s.resolve (.byName "a") = .ok 4 := by
  have r := Reachable.step (.registerFrame (some "a") none {} true) Ex.reach4 trivial
  refine ⟨_, _, r, ?_⟩
  rw [Ex.s4_eq]
  simp [State.step, State.registerFrame, State.construct, verifyRoot,
    State.register, State.resolve, State.alloc, State.setData, State.setParent, State.checkLoop,
    State.detach, State.attach, dictGet, dictSet, List.lookup, Function.update_apply]

/-! ### C07 -/

/-- Deregistering, clearing the registry (successful or not) does not change the path, the matched
frames or the transform between any two frame objects. -/
theorem C07_names_do_not_matter (s : State) (sq : SquadFn) (op : Op)
    (hop : (∃ n, op = .deregisterFrame n) ∨ (∃ i, op = .deregister i) ∨ op = .clear)
    (a b : ℕ) (arrays : List MArray) :
    (s.step op).1.getMatcher a (.byObj b) arrays = s.getMatcher a (.byObj b) arrays ∧
    (s.step op).1.lookupTransform sq a (.byObj b) = s.lookupTransform sq a (.byObj b) := by
  have key : ∀ d, (∀ arrays, ({ s with reg := d } : State).getMatcher a (.byObj b) arrays =
      s.getMatcher a (.byObj b) arrays) := by
    intro d arrays
    have hadd : ∀ inv l m, ({ s with reg := d } : State).addFrames inv l m = s.addFrames inv l m := by
      intro inv l
      induction l with
      | nil => intro m; rfl
      | cons x l ih =>
        intro m
        simp only [State.addFrames, ih]
        rfl
    simp only [State.getMatcher, hadd]
    rfl
  have hd : ∃ d, (s.step op).1 = { s with reg := d } := by
    rcases hop with ⟨n, rfl⟩ | ⟨i, rfl⟩ | rfl
    · simp only [State.step, State.deregister]
      cases dictGet s.reg n with
      | none => exact ⟨s.reg, rfl⟩
      | some _ => exact ⟨_, rfl⟩
    · simp only [State.step]
      cases s.name i with
      | none => exact ⟨s.reg, rfl⟩
      | some n =>
        simp only [State.deregister]
        cases dictGet s.reg n with
        | none => exact ⟨s.reg, rfl⟩
        | some _ => exact ⟨_, rfl⟩
    · exact ⟨[], rfl⟩
  obtain ⟨d, hd⟩ := hd
  rw [hd]
  refine ⟨key d arrays, ?_⟩
  simp only [State.lookupTransform, key]

/-! ### C08 -/

/-- Registering an object under a taken name with `update=True`: the name resolves to the new
object, all other names are unchanged, and exactly the old object is cut off from its parent. -/
theorem C08_update {s : State} {h : List Event} (hr : Reachable s h) {i old : ℕ} (hi : i < s.size)
    {n : String} (hn : s.name i = some n) (ho : owner h n = some old) :
    (s.register i true).2 = .ok () ∧
    (s.register i true).1.resolve (.byName n) = .ok i ∧
    (∀ m, m ≠ n → (s.register i true).1.resolve (.byName m) = s.resolve (.byName m)) ∧
    (s.register i true).1.parent old = none ∧
    (∀ j, j ≠ old → (s.register i true).1.parent j = s.parent j) ∧
    (s.register i true).1.data = s.data := by
  rcases hc : s.register i true with ⟨s', res⟩
  have hsp := register_spec hr.wf hi true hc
  rcases hsp.2.2.2.2 with ⟨_, _, h3⟩ | ⟨rfl, k, hk, hreg, h3⟩
  · rcases h3 with h3 | ⟨h3, _⟩
    · rw [hn] at h3; cases h3
    · cases h3
  · rw [hn] at hk; cases hk
    rw [hr.owner, ho] at h3
    rcases h3 with ⟨h3, _⟩ | ⟨_, o, h3, hpar⟩
    · cases h3
    · cases h3
      refine ⟨rfl, ?_, ?_, by simp [hpar], fun j hj => by simp [hpar, Function.update_of_ne hj], hsp.2.2.2.1⟩
      · simp only [State.resolve, hreg, dictGet_set]; simp
      · intro m hm
        simp only [State.resolve, hreg, dictGet_set, if_neg (Ne.symm hm)]

/-- The surprising case: updating the registration of the very same object cuts it off from its
parent (reference_frames.py:23-25), so lookups that worked before fail. -/
theorem C08_self_update_detaches :
    ∃ s h i p, Reachable s h ∧ i < s.size ∧ s.parent i = some p ∧
      s.resolve (.byName "a") = .ok i ∧ s.name i = some "a" ∧
      (s.register i true).2 = .ok () ∧ (s.register i true).1.parent i = none ∧
      s.walk i (.byObj p) = .ok ([i], []) ∧
      (s.register i true).1.walk i (.byObj p) = .error .walkError := by
  refine ⟨Ex.s4, Ex.h4, 1, 0, Ex.reach4, ?_⟩
  rw [Ex.s4_eq]
  simp [State.register, State.resolve, State.setParent, State.checkLoop, State.detach,
    State.attach, dictGet, dictSet, List.lookup, Function.update_apply, State.walk, State.path,
    State.pathReverse, chainUp, walkPaths, calcCommon]

example : ∃ s h, ∃ i old n, Reachable s h ∧ i < s.size ∧ s.name i = some n ∧
    owner h n = some old ∧ i ≠ old := by
  have r := Reachable.step (.construct (some "a") (some (.byObj 0)) Ex.argsA) Ex.reach4
    (by show 0 < _; rw [Ex.s4_eq]; norm_num)
  refine ⟨_, _, 4, 1, "a", r, ?_⟩
  rw [Ex.s4_eq]
  simp [State.step, State.construct, State.resolve, State.alloc, State.setData, State.setParent,
    State.checkLoop, State.detach, State.attach, State.pathReverse, chainUp, initArrays, Ex.argsA,
    initTimestamps, initTranslationArg, initRotationArg, Ex.arr1, Function.update_apply, pure,
    bind, Except.bind, Except.pure, eventOf, Ex.h4, owner]

/-! ### C09 -/

/-- The full claim "a failing call changes nothing" is false: a `register_frame` call that raises
leaves a half-built frame among the parent's children. -/
theorem C09_failure_atomic_is_false :
    ∃ s h op, Reachable s h ∧ op.Refers s ∧ (s.step op).2 = .error .valueError ∧
      (s.step op).1.children 0 ≠ s.children 0 := by
  refine ⟨Ex.s4, Ex.h4, .registerFrame (some "z") (some (.byName "world"))
    { translation := some (Ex.arr1 [1, 2]) } false, Ex.reach4, trivial, ?_⟩
  rw [Ex.s4_eq]
  simp [State.step, State.registerFrame, State.construct, State.resolve, State.alloc,
    State.setData, State.setParent, State.checkLoop, State.detach, State.attach,
    State.pathReverse, chainUp, dictGet, List.lookup, initArrays,
    initTimestamps, initTranslationArg, Ex.arr1, Function.update_apply, pure,
    bind, Except.bind, Except.pure]

/-- Paths of existing frames survive a construction. -/
theorem construct_path {s s' : State} (h : WF s) (h' : WF s') (hsz : s'.size = s.size + 1)
    (hp : ∀ j, j ≠ s.size → s'.parent j = s.parent j) {a : ℕ} (ha : a < s.size) :
    s'.path a = s.path a := by
  have p := h.pathReverse ha
  have p' := h'.pathReverse (i := a) (by omega)
  have : RootPath s'.parent a (s.pathReverse a) := by
    have hlt := p.mem_lt (fun a b hab => (h.parent_lt a b hab).2) ha
    clear p'
    generalize s.pathReverse a = l at *
    induction p with
    | @root k hr => exact .root (by rw [hp k (by have := hlt k (by simp); omega), hr])
    | @step k q l hk _ ih =>
      exact .step (by rw [hp k (by have := hlt k (by simp); omega), hk])
        (ih (h.parent_lt _ _ hk).2 (fun j hj => hlt j (List.mem_cons_of_mem _ hj)))
  unfold State.path
  rw [RootPath.unique p' this]

/-- What does hold: if `ReferenceFrame(...)` or `register_frame(...)` raises, no name resolves
differently, no existing frame changes its parent or data, and every lookup between existing
frames gives what it gave before. (Missing from the full claim: the parent keeps the half-built
frame in its list of children.) -/
theorem C09_failure_harmless_partial {s : State} {h : List Event} (hr : Reachable s h) (op : Op)
    (href : op.Refers s)
    (hop : (∃ n p a, op = .construct n p a) ∨ (∃ n p a u, op = .registerFrame n p a u))
    (herr : (s.step op).2 ≠ .ok ()) :
    (∀ n, (s.step op).1.resolve (.byName n) = s.resolve (.byName n)) ∧
    (∀ j, j < s.size → (s.step op).1.parent j = s.parent j ∧ (s.step op).1.data j = s.data j) ∧
    (∀ sq a b, a < s.size → b < s.size →
      (s.step op).1.lookupTransform sq a (.byObj b) = s.lookupTransform sq a (.byObj b)) := by
  have hw := hr.wf
  have key : ∃ n p a s' res, RefOk s p ∧ s.construct n p a = (s', res) ∧ (s.step op).1 = s' := by
    rcases hop with ⟨n, p, a, rfl⟩ | ⟨n, p, a, u, rfl⟩
    · have hro := refOk_of_refers_construct href
      rcases hc : s.construct n p a with ⟨s', res⟩
      refine ⟨n, p, a, s', res, hro, hc, ?_⟩
      cases res <;> simp [State.step, hc]
    · have hro := refOk_of_refers_registerFrame href
      rcases hc : s.construct n p a with ⟨s', res⟩
      refine ⟨n, p, a, s', res, hro, hc, ?_⟩
      cases res with
      | error e => simp [State.step, State.registerFrame, hc]
      | ok i =>
        have hs := construct_spec hw n p a hro hc
        have hi := hs.2.2.2.2.2.2 i rfl
        rcases hc2 : s'.register i u with ⟨s2, res2⟩
        rcases (register_spec hs.1 (i := i) (by omega) u hc2).2.2.2.2 with
          ⟨rfl, rfl, h3⟩ | ⟨rfl, _⟩
        · simp [State.step, State.registerFrame, hc, hc2]
        · simp [State.step, State.registerFrame, hc, hc2] at herr
  obtain ⟨n, p, a, s', res, hro, hc, e⟩ := key
  rw [e]
  obtain ⟨hw', hsz, hreg, _, hpar, hdat, _⟩ := construct_spec hw n p a hro hc
  refine ⟨fun n => by simp only [State.resolve, hreg],
    fun j hj => ⟨hpar j (by omega), hdat j (by omega)⟩, ?_⟩
  intro sq x y hx hy
  have hpx := construct_path hw hw' hsz hpar hx
  have hpy := construct_path hw hw' hsz hpar hy
  have hadd : ∀ inv l m, (∀ j ∈ l, j < s.size) → s'.addFrames inv l m = s.addFrames inv l m := by
    intro inv l
    induction l with
    | nil => intro m _; rfl
    | cons k l ih =>
      intro m hl
      have hk := hdat k (by have := hl k (by simp); omega)
      simp only [State.addFrames, State.addFrame, hk]
      split
      · rfl
      · exact ih _ (fun j hj => hl j (List.mem_cons_of_mem _ hj))
  simp only [State.lookupTransform, State.getMatcher, State.walk, State.resolve, hpx, hpy]
  have hlt : ∀ z, z < s.size → ∀ j ∈ s.path z, j < s.size := by
    intro z hz j hj
    exact (hw.pathReverse hz).mem_lt (fun a b hab => (hw.parent_lt a b hab).2) hz j
      (List.mem_reverse.mp hj)
  cases hwk : walkPaths (s.path x) (s.path y) with
  | error e => rfl
  | ok ud =>
    obtain ⟨up, down⟩ := ud
    have hup : ∀ j ∈ up, j < s.size := by
      intro j hj
      simp only [walkPaths] at hwk
      split at hwk
      · cases hwk
      · cases hwk
        exact hlt x hx j (List.mem_of_mem_drop (List.mem_reverse.mp hj))
    have hdown : ∀ j ∈ down, j < s.size := by
      intro j hj
      simp only [walkPaths] at hwk
      split at hwk
      · cases hwk
      · cases hwk
        exact hlt y hy j (List.mem_of_mem_drop hj)
    simp only [bind, Except.bind, hadd false up _ hup]
    cases s.addFrames false up Matcher.empty with
    | error e => rfl
    | ok m => simp only [hadd true down _ hdown]

example : ∃ s h op, Reachable s h ∧ op.Refers s ∧ (∃ n p a u, op = .registerFrame n p a u) ∧
    (s.step op).2 ≠ .ok () := by
  obtain ⟨n, p, a, h1⟩ : ∃ n p a, (Ex.s4.step (.registerFrame n p a false)).2 = .error .valueError ∧
      (Op.registerFrame n p a false).Refers Ex.s4 := by
    refine ⟨none, none, { translation := some (Ex.arr1 [1]) }, ?_, trivial⟩
    simp [State.step, State.registerFrame, State.construct, verifyRoot]
  exact ⟨Ex.s4, Ex.h4, _, Ex.reach4, h1.2, ⟨n, p, a, false, rfl⟩, by simp [h1.1]⟩

end RBM.Props
