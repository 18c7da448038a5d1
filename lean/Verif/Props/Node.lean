import Verif.Model.RosNode
import Mathlib.Tactic

/-!
C74: `init_node`; C76: example data.
-/

namespace RBM.Props

open RBM RBM.Ros

/-! ### C74 -/

/-- If a master is running, `init_node` uses it: none is started, the node is registered, and what it returns can only warn. -/
theorem C74_running (w : World) {o : Owner} (h : w.master = some o) (name : String) (sm : Bool) (start : Res Unit) :
    w.initNode name sm start (.ok ()) = ({ w with nodes := name :: w.nodes }, .ok .stub) ∧
    w.shutdown .stub = { w with warnings := w.warnings + 1 } := by
  simp [World.initNode, World.ensureMaster, h, World.shutdown]

/-- If there is no master and none is to be started, RuntimeError is raised and nothing happens. -/
theorem C74_not_running (w : World) (h : w.master = none) (name : String) (start reg : Res Unit) :
    w.initNode name false start reg = (w, .error .runtimeError) := by
  simp [World.initNode, World.ensureMaster, h]

/-- If there is no master and one is to be started, it is started, registered for shutdown at exit, and can be shut down with the
returned handle. -/
theorem C74_started (w : World) (h : w.master = none) (name : String) :
    ∃ w' k, w.initNode name true (.ok ()) (.ok ()) = (w', .ok (.launched k)) ∧ w'.master = some (.mine k) ∧ w'.nodes = name :: w.nodes ∧
      k ∈ w'.exits ∧ (w'.shutdown (.launched k)).master = none := by
  refine ⟨{ master := some (.mine w.started), started := w.started + 1, exits := w.started :: w.exits, nodes := name :: w.nodes,
            warnings := w.warnings }, w.started, ?_, rfl, rfl, by simp, ?_⟩
  · simp [World.initNode, World.ensureMaster, h]
  · simp [World.shutdown, World.shutdownMine]

/-- If the master cannot be started the error is passed on, and neither is a node registered nor a shutdown function. -/
theorem C74_start_fails (w : World) (h : w.master = none) (name : String) (e : PyErr) (reg : Res Unit) :
    w.initNode name true (.error e) reg = (w, .error e) := by
  simp [World.initNode, World.ensureMaster, h]

private theorem shutdownMine_elsewhere (w : World) (k : ℕ) : (w.shutdownMine k).master = some .elsewhere ↔ w.master = some .elsewhere := by
  simp only [World.shutdownMine]
  split_ifs with h
  · simp [h]
  · rfl

private theorem shutdownMine_rest (w : World) (k : ℕ) : (w.shutdownMine k).exits = w.exits ∧ (w.shutdownMine k).started = w.started := by
  simp only [World.shutdownMine]
  split_ifs <;> simp

private theorem shutdownMine_mine (w : World) (k j : ℕ) : (w.shutdownMine k).master = some (.mine j) ↔ w.master = some (.mine j) ∧ j ≠ k := by
  simp only [World.shutdownMine]
  split_ifs with h
  · simp only [h, reduceCtorEq, Option.some.injEq, Owner.mine.injEq, false_iff]; rintro ⟨h1, h2⟩; exact h2 h1.symm
  · constructor
    · intro hj; exact ⟨hj, by rintro rfl; exact h hj⟩
    · exact fun hj => hj.1

private theorem exit_fold (l : List ℕ) (w : World) :
    ((l.foldl World.shutdownMine w).master = some .elsewhere ↔ w.master = some .elsewhere) ∧
    (∀ j, (l.foldl World.shutdownMine w).master = some (.mine j) ↔ w.master = some (.mine j) ∧ j ∉ l) := by
  induction l generalizing w with
  | nil => simp
  | cons k l ih =>
    obtain ⟨i1, i2⟩ := ih (w.shutdownMine k)
    simp only [List.foldl_cons]
    refine ⟨i1.trans (shutdownMine_elsewhere w k), fun j => ?_⟩
    rw [i2 j, shutdownMine_mine]
    simp only [List.mem_cons, not_or]
    tauto

/-- A master that another process started keeps running, whatever this process does, until the other process stops it. -/
theorem C74_foreign (w : World) (h : w.master = some .elsewhere) (evs : List NEv) (he : NEv.stopElsewhere ∉ evs) :
    (w.exec evs).master = some .elsewhere ∧ (w.exec evs).exit.master = some .elsewhere := by
  have key : (w.exec evs).master = some .elsewhere := by
    induction evs generalizing w with
    | nil => exact h
    | cons e evs ih =>
      simp only [List.mem_cons, not_or] at he
      show ((w.step e).exec evs).master = _
      refine ih _ ?_ he.2
      cases e with
      | startElsewhere => simp [World.step, h]
      | stopElsewhere => exact absurd rfl he.1
      | init name sm start reg =>
        simp only [World.step, World.initNode, World.ensureMaster, h]
        cases reg <;> simp [h]
      | shutdown x =>
        cases x with
        | stub => exact h
        | launched k => exact (shutdownMine_elsewhere w k).mpr h
  exact ⟨key, (exit_fold _ _).1.mpr key⟩

/-- In every history, no master that this process started is left running after it exits (also if the registration of the node failed). -/
theorem C74_exit (master : Bool) (evs : List NEv) (k : ℕ) : ((World.fresh master).exec evs).exit.master ≠ some (.mine k) := by
  have key : ∀ (evs : List NEv) (w : World), (∀ j, w.master = some (.mine j) → j ∈ w.exits) →
      ∀ j, (w.exec evs).master = some (.mine j) → j ∈ (w.exec evs).exits := by
    intro evs
    induction evs with
    | nil => intro w h; exact h
    | cons e evs ih =>
      intro w h
      refine ih (w.step e) ?_
      cases e with
      | startElsewhere =>
        simp only [World.step]
        split_ifs
        · simp
        · exact h
      | stopElsewhere =>
        simp only [World.step]
        split_ifs
        · simp
        · exact h
      | init name sm start reg =>
        simp only [World.step, World.initNode, World.ensureMaster]
        cases hm : w.master with
        | some o => cases reg <;> (simp only [hm]; rw [hm] at h; exact h)
        | none =>
          cases sm with
          | false => simp [hm]
          | true =>
            cases start with
            | error e => simp [hm]
            | ok u => cases reg <;> simp
      | shutdown x =>
        cases x with
        | stub => exact h
        | launched k =>
          intro j hj
          have := (shutdownMine_mine w k j).mp hj
          show j ∈ (w.shutdownMine k).exits
          rw [(shutdownMine_rest w k).1]
          exact h j this.1
  intro hk
  have := (exit_fold _ _).2 k |>.mp hk
  exact this.2 (key evs _ (by intro j; cases master <;> simp [World.fresh]) k this.1)

/-- What `init_node` returns tells who started the master: the launcher if and only if this call did. -/
theorem C74_result (w : World) (name : String) (sm : Bool) (start reg : Res Unit) {w' : World} {x : Handle}
    (h : w.initNode name sm start reg = (w', .ok x)) :
    w'.nodes = name :: w.nodes ∧ w'.master ≠ none ∧ ((∃ k, x = .launched k) ↔ w.master = none) ∧ (x = .stub ↔ w'.started = w.started) := by
  simp only [World.initNode, World.ensureMaster] at h
  cases hm : w.master with
  | some o =>
    cases reg <;> simp [hm] at h
    obtain ⟨rfl, rfl⟩ := h
    simp [hm]
  | none =>
    cases sm with
    | false => simp [hm] at h
    | true =>
      cases start with
      | error e => simp [hm] at h
      | ok u =>
        cases reg <;> simp [hm] at h
        obtain ⟨rfl, rfl⟩ := h
        simp

/-- A concrete history: a master is started, shut down, another process starts one, which survives the exit. -/
example : ((World.fresh false).exec [.init "a" true (.ok ()) (.ok ()), .shutdown (.launched 0), .startElsewhere,
      .init "b" true (.ok ()) (.ok ()), .shutdown .stub]).exit = ⟨some .elsewhere, 1, [0], ["b", "a"], 1⟩ := by
  decide

/-- The node could not be registered: the master runs until the process exits. -/
example : ((World.fresh false).exec [.init "a" true (.ok ()) (.error .valueError)]).master = some (.mine 0) ∧
    ((World.fresh false).exec [.init "a" true (.ok ()) (.error .valueError)]).exit.master = none := by
  decide

/-! ### C76 -/

/-- The pinned files: name, file and SHA-256. -/
def pinned : List (String × String × String) :=
  [("head", "https://github.com/phausamann/rbm-data/raw/main/head.nc", "874eddaa51bf775c7311f0046613c6f969adef6e34fe4aea2e1248a75ed3fee3"),
   ("left_eye", "https://github.com/phausamann/rbm-data/raw/main/left_eye.nc", "56d5488fb8d3ff08450663ed0136ac659c1d51eb5340a7e3ed52f5ecf019139c"),
   ("right_eye", "https://github.com/phausamann/rbm-data/raw/main/right_eye.nc", "b038c4cb2f6932e4334f135cdf7e24ff9c3b5789977b2ae0206ba80acf54c647"),
   ("rosbag", "https://github.com/phausamann/rbm-data/raw/main/example.bag", "8d27f5e554f5a0e02e0bec59b60424e582f6104380f96c3f226b4d85c107f2bc")]

/-- Contract of `pooch.retrieve`: what it returns has the given hash, whatever the server sends. -/
def RetrieveLaw {P : Type} (sha : P → String) (retrieve : String → String → Except DataErr P) : Prop :=
  ∀ url hash p, retrieve url hash = .ok p → sha p = hash

/-- What is returned is always the pinned content of the named data set, whatever the server sends. -/
theorem C76_pinned {P : Type} (sha : P → String) (retrieve : String → String → Except DataErr P) (hr : RetrieveLaw sha retrieve)
    {item : String} {p : P} (h : exampleData (some retrieve) item = .ok p) :
    ∃ url hash, (item, url, hash) ∈ pinned ∧ retrieve url hash = .ok p ∧ sha p = hash := by
  simp only [exampleData] at h
  split at h
  · simp at h
  · rename_i file hash hl
    refine ⟨_, _, ?_, h, hr _ _ _ h⟩
    simp only [exampleRegistry, List.lookup_cons, List.lookup_nil] at hl
    by_cases h1 : item = "head"
    · subst h1; simp at hl; obtain ⟨rfl, rfl⟩ := hl; decide
    · by_cases h2 : item = "left_eye"
      · subst h2; simp at hl; obtain ⟨rfl, rfl⟩ := hl; decide
      · by_cases h3 : item = "right_eye"
        · subst h3; simp at hl; obtain ⟨rfl, rfl⟩ := hl; decide
        · by_cases h4 : item = "rosbag"
          · subst h4; simp at hl; obtain ⟨rfl, rfl⟩ := hl; decide
          · have e : ∀ a : String, ¬ item = a → (item == a) = false := by
              intro a ha; simpa using ha
            rw [e _ h1, e _ h2, e _ h3, e _ h4] at hl
            simp at hl

/-- Every one of the four names is retrieved from its address with its hash. -/
theorem C76_known {P : Type} (retrieve : String → String → Except DataErr P) {item url hash : String} (h : (item, url, hash) ∈ pinned) :
    exampleData (some retrieve) item = retrieve url hash := by
  simp only [pinned, List.mem_cons, Prod.mk.injEq, List.not_mem_nil, or_false] at h
  rcases h with ⟨rfl, rfl, rfl⟩ | ⟨rfl, rfl, rfl⟩ | ⟨rfl, rfl, rfl⟩ | ⟨rfl, rfl, rfl⟩ <;> rfl

/-- Any other name raises KeyError without a download, and without `pooch` there is a ModuleNotFoundError for any name. -/
theorem C76_refused {P : Type} (retrieve : String → String → Except DataErr P) (item : String) :
    ((∀ e ∈ pinned, e.1 ≠ item) → exampleData (some retrieve) item = .error .keyError) ∧
    exampleData (P := P) none item = .error .moduleNotFoundError := by
  refine ⟨fun h => ?_, rfl⟩
  simp only [pinned, List.mem_cons, List.not_mem_nil, or_false, forall_eq_or_imp, forall_eq, ne_eq] at h
  obtain ⟨h1, h2, h3, h4⟩ := h
  simp only [exampleData]
  have : exampleRegistry.lookup item = none := by
    simp only [exampleRegistry, List.lookup_cons, List.lookup_nil]
    have e : ∀ a : String, a ≠ item → (item == a) = false := by
      intro a ha; simpa using fun h => ha h.symm
    rw [e _ h1, e _ h2, e _ h3, e _ h4]
  rw [this]

/-- The contract can be met: a server that sends the hash itself; and a server that sends something else. -/
example : RetrieveLaw (P := String) id (fun _ hash => .ok hash) ∧ RetrieveLaw (P := String) id (fun _ _ => .error .valueError) :=
  ⟨fun _ _ _ h => by simpa using h.symm, fun _ _ _ h => by simp at h⟩

end RBM.Props
