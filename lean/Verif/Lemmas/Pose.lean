import Verif.Lemmas.Rigid
import Verif.Spec.Motion

namespace RBM

open Spec

namespace Spec.Pose

@[ext] theorem ext' {A B : Pose} (h1 : A.t = B.t) (h2 : A.r = B.r) : A = B := by
  cases A; cases B; simp_all

def id : Pose := ⟨0, 1⟩
/-- `A ∘ B`: first `B`, then `A`. -/
noncomputable def comp (A B : Pose) : Pose := ⟨rot A.r B.t + A.t, A.r * B.r⟩
noncomputable def inv (A : Pose) : Pose := ⟨rot A.r⁻¹ (-A.t), A.r⁻¹⟩

theorem comp_act {A B : Pose} (hA : A.r ≠ 0) (hB : B.r ≠ 0) (p : Vec) :
    (A.comp B).act p = A.act (B.act p) := by
  simp only [comp, act, rot_mul _ _ hA hB, rot_add]
  abel

theorem comp_assoc {A B C : Pose} (hA : A.r ≠ 0) (hB : B.r ≠ 0) :
    (A.comp B).comp C = A.comp (B.comp C) := by
  ext1
  · simp only [comp, rot_mul _ _ hA hB, rot_add]; abel
  · simp only [comp, mul_assoc]

@[simp] theorem comp_id (A : Pose) : A.comp id = A := by
  ext1 <;> simp [comp, id]

@[simp] theorem id_comp (A : Pose) : id.comp A = A := by
  ext1 <;> simp [comp, id]

theorem inv_comp {A : Pose} (hA : A.r ≠ 0) : A.inv.comp A = id := by
  ext1
  · simp only [comp, inv, id, rot_neg]; abel
  · simp [comp, inv, id, hA]

theorem comp_inv {A : Pose} (hA : A.r ≠ 0) : A.comp A.inv = id := by
  ext1
  · simp only [comp, inv, id, rot_rot_inv _ hA]; abel
  · simp [comp, inv, id, hA]

theorem inv_r_ne {A : Pose} (hA : A.r ≠ 0) : A.inv.r ≠ 0 := inv_ne_zero hA
theorem comp_r_ne {A B : Pose} (hA : A.r ≠ 0) (hB : B.r ≠ 0) : (A.comp B).r ≠ 0 := mul_ne_zero hA hB
theorem id_r_ne : id.r ≠ 0 := one_ne_zero

theorem inv_inv {A : Pose} (hA : A.r ≠ 0) : A.inv.inv = A := by
  ext1
  · simp only [inv, _root_.inv_inv, rot_neg, rot_rot_inv _ hA, neg_neg]
  · simp [inv]

theorem comp_inv_rev {A B : Pose} (hA : A.r ≠ 0) (hB : B.r ≠ 0) :
    (A.comp B).inv = B.inv.comp A.inv := by
  ext1
  · simp only [inv, comp, _root_.mul_inv_rev]
    rw [rot_mul _ _ (inv_ne_zero hB) (inv_ne_zero hA), neg_add, rot_add, rot_add, ← rot_neg, rot_inv_rot _ hA]
    abel
  · simp [inv, comp]

theorem inv_act {A : Pose} (p : Vec) : A.inv.act p = rot A.r⁻¹ (p - A.t) := by
  simp only [inv, act, rot_sub, rot_neg]; abel

end Spec.Pose

/-- The pose in the ancestor of the innermost frame, for poses listed from the inside out. -/
noncomputable def chain : List Pose → Pose
  | [] => Pose.id
  | Q :: l => (chain l).comp Q

theorem chain_r_ne {l : List Pose} (h : ∀ Q ∈ l, Q.r ≠ 0) : (chain l).r ≠ 0 := by
  induction l with
  | nil => exact Pose.id_r_ne
  | cons Q l ih =>
    exact Pose.comp_r_ne (ih fun P hP => h P (List.mem_cons_of_mem _ hP)) (h Q (by simp))

theorem chain_append {l m : List Pose} (hl : ∀ Q ∈ l, Q.r ≠ 0) (hm : ∀ Q ∈ m, Q.r ≠ 0) :
    chain (l ++ m) = (chain m).comp (chain l) := by
  induction l with
  | nil => simp [chain]
  | cons Q l ih =>
    have h1 := ih fun P hP => hl P (List.mem_cons_of_mem _ hP)
    simp only [List.cons_append, chain, h1]
    rw [Pose.comp_assoc (chain_r_ne hm) (chain_r_ne fun P hP => hl P (List.mem_cons_of_mem _ hP))]

theorem chain_unit {l : List Pose} (h : ∀ Q ∈ l, IsUnitQ Q.r) : IsUnitQ (chain l).r := by
  induction l with
  | nil => exact isUnitQ_one
  | cons Q l ih =>
    exact (ih fun P hP => h P (List.mem_cons_of_mem _ hP)).mul (h Q (by simp))

/-- One step of the loop in `get_transformation`, with exact rotations. -/
noncomputable def stepP (bQ : Bool × Pose) (acc : Pose) : Pose :=
  if bQ.1 then bQ.2.inv.comp acc else bQ.2.comp acc

noncomputable def foldP (l : List (Bool × Pose)) (acc : Pose) : Pose := l.foldl (fun a b => stepP b a) acc

theorem foldP_up {l : List Pose} (h : ∀ Q ∈ l, Q.r ≠ 0) {acc : Pose} :
    foldP (l.map fun Q => (false, Q)) acc = (chain l).comp acc := by
  induction l generalizing acc with
  | nil => simp [foldP, chain]
  | cons Q l ih =>
    have h1 := ih (fun P hP => h P (List.mem_cons_of_mem _ hP)) (acc := stepP (false, Q) acc)
    simp only [foldP, List.map_cons, List.foldl_cons] at h1 ⊢
    rw [h1]
    simp only [stepP, chain, Bool.false_eq_true, if_false]
    rw [Pose.comp_assoc (chain_r_ne fun P hP => h P (List.mem_cons_of_mem _ hP)) (h Q (by simp))]

theorem foldP_down {l : List Pose} (h : ∀ Q ∈ l, Q.r ≠ 0) {acc : Pose} :
    foldP (l.map fun Q => (true, Q)) acc = (chain l.reverse).inv.comp acc := by
  induction l generalizing acc with
  | nil => simp [foldP, chain, Pose.inv, Pose.id]; exact (Pose.id_comp acc).symm
  | cons Q l ih =>
    have h1 := ih (fun P hP => h P (List.mem_cons_of_mem _ hP)) (acc := stepP (true, Q) acc)
    simp only [foldP, List.map_cons, List.foldl_cons] at h1 ⊢
    rw [h1]
    have hl : ∀ P ∈ l.reverse, P.r ≠ 0 := fun P hP => h P (List.mem_cons_of_mem _ (List.mem_reverse.mp hP))
    have hQ : Q.r ≠ 0 := h Q (by simp)
    simp only [stepP, if_true, List.reverse_cons]
    rw [chain_append hl (by simpa using hQ)]
    simp only [chain, Pose.id_comp]
    rw [Pose.comp_inv_rev hQ (chain_r_ne hl), Pose.comp_assoc (Pose.inv_r_ne (chain_r_ne hl)) (Pose.inv_r_ne hQ)]

theorem foldP_append (l m : List (Bool × Pose)) (acc : Pose) :
    foldP (l ++ m) acc = foldP m (foldP l acc) := by
  simp [foldP]

end RBM
