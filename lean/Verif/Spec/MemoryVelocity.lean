import Verif.Model.HeapVelocity
import Verif.Spec.Memory

/-!
Vocabulary for statements about the arrays that the velocity functions return.
-/

namespace RBM.Spec

open RBM.Heap

/-- The same shape and the same entries. -/
def SameEntries (a b : ND ℝ) : Prop := a.shape = b.shape ∧ ∀ idx, Valid a.shape idx → a.get idx = b.get idx

/-- What a function returns: new arrays with these entries. -/
def ReturnsEntries (m : Mem) (out : Res HRet × Mem) (v : Res PyRet) : Prop :=
  (∀ e, v = .error e → out.1 = .error e) ∧
  (∀ c, v = .ok (.single c) → ∃ r, out.1 = .ok (.single r) ∧ SameEntries (out.2.read r) c ∧ Separate m r out.2) ∧
  ∀ c ts, v = .ok (.withTs c ts) → ∃ r rts, out.1 = .ok (.withTs r rts) ∧ SameEntries (out.2.read r) c ∧
    rts.map (fun x => out.2.read x) = ts.map stampArray ∧ Separate m r out.2 ∧ (∀ x, rts = some x → Separate m x out.2) ∧
    Disjoint (r :: rts.toList)

/-- What `lookup_twist` returns: new arrays with these values. -/
def ReturnsTwist (m : Mem) (out : Res HTwist × Mem) (v : Res TwistRet) : Prop :=
  (∀ e, v = .error e → out.1 = .error e) ∧
  (∀ l g, v = .ok (.pair l g) → ∃ rl rg, out.1 = .ok (.pair rl rg) ∧ out.2.read rl = l ∧ out.2.read rg = g ∧
    Separate m rl out.2 ∧ Separate m rg out.2 ∧ Disjoint [rl, rg]) ∧
  ∀ l g ts, v = .ok (.triple l g ts) → ∃ rl rg rts, out.1 = .ok (.triple rl rg rts) ∧ out.2.read rl = l ∧ out.2.read rg = g ∧
    rts.map (fun x => out.2.read x) = ts.map stampArray ∧ Separate m rl out.2 ∧ Separate m rg out.2 ∧
    (∀ x, rts = some x → Separate m x out.2) ∧ Disjoint (rl :: rg :: rts.toList)

end RBM.Spec
