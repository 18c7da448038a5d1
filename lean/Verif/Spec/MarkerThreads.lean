import Verif.Model.MarkerThreads

/-!
Vocabulary for marker publishers with several threads.
-/

namespace RBM.Spec

open RBM RBM.Ros

/-- The values that the marker has in a history, the initial one first. -/
def values {M : Type} (m : M) (evs : List (KEv M)) : List M := m :: evs.filterMap fun e => match e with
  | .set m' => some m'
  | _ => none

/-- How often thread `i` makes a step in a history. -/
def turns {M : Type} (i : ℕ) (evs : List (KEv M)) : ℕ := (evs.filter fun e => match e with
  | .run j => decide (j = i)
  | _ => false).length

/-- What was published last. -/
def shown {M B : Type} (σ : MarkerThreads M B) : Option M := σ.log.head?.map fun e => e.2

/-- How many messages thread `i` has published. -/
def sentCount {M B : Type} (i : ℕ) (σ : MarkerThreads M B) : ℕ := (σ.log.filter fun e => decide (e.1 = i)).length

/-- At most one thread has not finished. -/
def AtMostOne {M B : Type} (σ : MarkerThreads M B) : Prop :=
  ∀ (j k : ℕ) (t u : KThr B), σ.threads[j]? = some t → σ.threads[k]? = some u → t.pc ≠ .done → u.pc ≠ .done → j = k

end RBM.Spec
