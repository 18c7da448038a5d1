import Verif.Model.RosThreads
import Verif.Spec.Ros

/-!
What the threads of a broadcaster are expected to send.
-/

namespace RBM.Spec

open RBM RBM.Ros

/-- What thread `i` sent, in order of time. -/
def sentBy (i : ℕ) (log : List (ℕ × OutMsg)) : List OutMsg := (log.reverse.filter fun e => decide (e.1 = i)).map fun e => e.2

/-- How long thread `i` slept, in order of time. -/
def sleptBy (i : ℕ) (log : List (ℕ × ℝ)) : List ℝ := (log.reverse.filter fun e => decide (e.1 = i)).map fun e => e.2

/-- `ms` are the messages of the samples with the indices `ks`, in this order, all messages of each sample together. -/
def Publishes (b : Broadcaster) (ns : List ℕ) (tl : List Vec) (rl : List Quat) (ks : List ℕ) (ms : List OutMsg) : Prop :=
  ∃ groups : List (List OutMsg), List.Forall₂ (fun k g => ShowsSample b ns tl rl k g) ks groups ∧ ms = groups.flatten

/-- `ms` are the messages of the samples with the indices `ks`, except that the last messages of the last sample may still be missing. -/
def Publishing (b : Broadcaster) (ns : List ℕ) (tl : List Vec) (rl : List Quat) (ks : List ℕ) (ms : List OutMsg) : Prop :=
  ∃ missing : List OutMsg, Publishes b ns tl rl ks (ms ++ missing) ∧
    (missing = [] ∨ ∃ k g, ks.getLast? = some k ∧ ShowsSample b ns tl rl k g ∧ missing <:+ g)

/-- How often a thread makes a step in a history. -/
def stepsOf (i : ℕ) (evs : List TEv) : ℕ := (evs.filter fun e => match e with
  | .run j => decide (j = i)
  | _ => false).length

end RBM.Spec
