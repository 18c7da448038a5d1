import Verif.Lemmas.Units
import Verif.Spec.Locality

/-!
Building a tree of frames commutes with a change of units.
-/

namespace RBM

open Spec

theorem initTimestamps_units (k c : ℝ) (a : Option (ND ℝ)) : initTimestamps (a.map (ND.map (reclock k c))) = (initTimestamps a).map (Option.map (rcL k c)) := by
  cases a with
  | none => rfl
  | some a =>
    obtain ⟨sh, get⟩ := a
    match sh with
    | [] => rfl
    | [n] => simp [initTimestamps, ND.map, Except.map, rcL]
    | _ :: _ :: _ => rfl

theorem initTranslationArg_units (k c u : ℝ) (ts : Option (List ℝ)) (a : Option (ND ℝ)) :
    initTranslationArg (ts.map (rcL k c)) (a.map (ND.map (u * ·))) = (initTranslationArg ts a).map (Arr.map (u • ·)) := by
  cases a with
  | none =>
    cases ts with
    | none => simp [initTranslationArg, Except.map, Arr.map]
    | some l => simp [initTranslationArg, Except.map, Arr.map, rcL_length]
  | some a =>
    cases ts with
    | none =>
      simp only [initTranslationArg, Option.map_some, Option.map_none, show (ND.map (u * ·) a).shape = a.shape from rfl]
      split <;> rfl
    | some l =>
      simp only [initTranslationArg, Option.map_some, show (ND.map (u * ·) a).shape = a.shape from rfl, rcL_length]
      split
      · simp only [Except.map, Arr.map, vecRows, List.map_map]; rfl
      · rfl

theorem initRotationArg_units (k c : ℝ) (ts : Option (List ℝ)) (a : Option (ND ℝ)) : initRotationArg (ts.map (rcL k c)) a = initRotationArg ts a := by
  cases a <;> cases ts <;> simp [initRotationArg, rcL_length]

theorem initArrays_units (k c u : ℝ) (a : FrameArgs) :
    initArrays (unitsFrame k c u a) = (initArrays a).map fun p => (p.1.map (u • ·), p.2.1, p.2.2.map (rcL k c)) := by
  simp only [initArrays, unitsFrame, initTimestamps_units, bind, Except.bind]
  cases initTimestamps a.timestamps with
  | error e => rfl
  | ok ts =>
    simp only [Except.map, initTranslationArg_units, initRotationArg_units]
    cases initTranslationArg ts a.translation with
    | error e => rfl
    | ok t =>
      simp only [Except.map]
      cases initRotationArg ts a.rotation with
      | error e => rfl
      | ok r =>
        simp only
        by_cases hi : a.inverse = true
        · simp only [hi, if_true]
          cases qinvArr r with
          | error e => rfl
          | ok r' =>
            simp only [rotateVectors_units]
            cases rotateVectors r' t with
            | error e => rfl
            | ok t' =>
              simp only [Except.map, Pure.pure, Except.pure]
              cases t' <;> simp [Arr.map]
        · simp only [hi]; rfl

theorem verifyRoot_units (k c u : ℝ) (a : FrameArgs) : verifyRoot (unitsFrame k c u a) = verifyRoot a := by
  simp [verifyRoot, unitsFrame]

theorem resolve_units (k c u : ℝ) (s : State) (r : FrameRef) : (unitsState k c u s).resolve r = s.resolve r := by cases r <;> rfl

theorem alloc_units (k c u : ℝ) (s : State) (n : Option String) : (unitsState k c u s).alloc n = unitsState k c u (s.alloc n) := by
  simp only [State.alloc, unitsState, State.mk.injEq, true_and, and_true]
  funext i
  simp only [Function.update_apply]
  split <;> rfl

theorem setData_units (k c u : ℝ) (s : State) (i : ℕ) (d : FrameData) : (unitsState k c u s).setData i (unitsData k c u d) = unitsState k c u (s.setData i d) := by
  simp only [State.setData, unitsState, State.mk.injEq, true_and, and_true]
  funext i
  simp only [Function.update_apply]
  split <;> rfl

theorem detach_units (k c u : ℝ) (s : State) (i : ℕ) : (unitsState k c u s).detach i = (unitsState k c u (s.detach i).1, (s.detach i).2) := by
  simp only [State.detach, unitsState]
  cases s.parent i with
  | none => rfl
  | some p =>
    simp only
    by_cases h : i ∈ s.children p
    · simp only [if_pos h]; exact if_pos h
    · simp only [if_neg h]; exact if_neg h

theorem attach_units (k c u : ℝ) (s : State) (i : ℕ) (v : Option ℕ) : (unitsState k c u s).attach i v = (unitsState k c u (s.attach i v).1, (s.attach i v).2) := by
  cases v with
  | none => rfl
  | some p =>
    simp only [State.attach, unitsState]
    by_cases h : i ∈ s.children p
    · simp only [if_pos h]; exact if_pos h
    · simp only [if_neg h]; exact if_neg h

theorem setParent_units (k c u : ℝ) (s : State) (i : ℕ) (v : Option ℕ) :
    (unitsState k c u s).setParent i v = (unitsState k c u (s.setParent i v).1, (s.setParent i v).2) := by
  have hl : (unitsState k c u s).checkLoop i v = s.checkLoop i v := rfl
  simp only [State.setParent, detach_units, hl, show (unitsState k c u s).parent = s.parent from rfl]
  by_cases h : s.parent i = v
  · simp only [if_pos h]
  · simp only [if_neg h]
    cases s.checkLoop i v with
    | error e => rfl
    | ok _ =>
      simp only
      obtain ⟨s', r⟩ := s.detach i
      cases r with
      | error e => rfl
      | ok _ => exact attach_units k c u s' i v

theorem construct_units (k c u : ℝ) (s : State) (n : Option String) (p : Option FrameRef) (a : FrameArgs) :
    (unitsState k c u s).construct n p (unitsFrame k c u a) = (unitsState k c u (s.construct n p a).1, (s.construct n p a).2) := by
  cases p with
  | none =>
    simp only [State.construct, verifyRoot_units, alloc_units, show (unitsFrame k c u a).discrete = a.discrete from rfl,
      show (unitsState k c u s).size = s.size from rfl]
    cases verifyRoot a with
    | error e => rfl
    | ok _ =>
      simp only
      by_cases h : a.discrete = true
      · simp only [if_pos h]
      · simp only [if_neg h]
        have := setData_units k c u (s.alloc n) s.size ⟨none, none, false⟩
        simp only [unitsData, Option.map_none] at this
        rw [this]
  | some r =>
    simp only [State.construct, resolve_units, alloc_units, setParent_units, initArrays_units, show (unitsFrame k c u a).discrete = a.discrete from rfl,
      show (unitsState k c u s).size = s.size from rfl]
    cases s.resolve r with
    | error e => rfl
    | ok p =>
      simp only
      obtain ⟨s2, r2⟩ := (s.alloc n).setParent s.size (some p)
      cases r2 with
      | error e => rfl
      | ok _ =>
        simp only
        cases initArrays a with
        | error e => rfl
        | ok x =>
          obtain ⟨t, q, ts⟩ := x
          simp only [Except.map, Option.map_eq_none_iff]
          by_cases h : a.discrete = true ∧ ts = none
          · simp only [if_pos h]
          · simp only [if_neg h]
            have := setData_units k c u s2 s.size ⟨some (t, q), ts, a.discrete⟩
            simp only [unitsData, Option.map_some] at this
            rw [← this]

theorem register_units (k c u : ℝ) (s : State) (i : ℕ) (b : Bool) :
    (unitsState k c u s).register i b = (unitsState k c u (s.register i b).1, (s.register i b).2) := by
  simp only [State.register, setParent_units, show (unitsState k c u s).name = s.name from rfl, show (unitsState k c u s).reg = s.reg from rfl]
  cases s.name i with
  | none => rfl
  | some n =>
    simp only
    cases dictGet s.reg n with
    | none => rfl
    | some old =>
      simp only
      by_cases h : b = true
      · simp only [if_pos h]
        obtain ⟨s', r⟩ := s.setParent old none
        cases r <;> rfl
      · simp only [if_neg h]

theorem deregister_units (k c u : ℝ) (s : State) (n : Option String) :
    (unitsState k c u s).deregister n = (unitsState k c u (s.deregister n).1, (s.deregister n).2) := by
  cases n with
  | none => rfl
  | some n =>
    simp only [State.deregister, show (unitsState k c u s).reg = s.reg from rfl]
    cases dictGet s.reg n <;> rfl

theorem step_units (k c u : ℝ) (s : State) (op : Op) : (unitsState k c u s).step (unitsOp k c u op) = (unitsState k c u (s.step op).1, (s.step op).2) := by
  cases op with
  | construct n p a =>
    simp only [unitsOp, State.step, construct_units]
    obtain ⟨s', r⟩ := s.construct n p a
    cases r <;> rfl
  | registerFrame n p a b =>
    simp only [unitsOp, State.step, State.registerFrame, construct_units]
    obtain ⟨s', r⟩ := s.construct n p a
    cases r with
    | error e => rfl
    | ok i => exact register_units k c u s' i b
  | register i b => exact register_units k c u s i b
  | deregisterFrame n => exact deregister_units k c u s (some n)
  | deregister i => exact deregister_units k c u s _
  | clear => rfl
  | setParent i v => exact setParent_units k c u s i v
  | del i =>
    simp only [unitsOp, State.step, State.del, deregister_units, show (unitsState k c u s).name = s.name from rfl, show (unitsState k c u s).reg = s.reg from rfl]
    cases s.name i with
    | none => rfl
    | some n =>
      simp only
      by_cases h : dictGet s.reg n = some i
      · simp only [if_pos h]
      · simp only [if_neg h]

end RBM
