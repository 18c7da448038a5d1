import Verif.Props.EquivalentTransforms
import Verif.Lemmas.Example5
import Verif.Lemmas.Example3
import Verif.Props.StaticArrays
import Verif.Props.Plotting

/-!
Concrete trees that meet the hypotheses of C90.
-/

namespace RBM.Props

open RBM.Spec

/-- The stand-in interpolation turns with its samples. -/
theorem holdSquad_turns : SquadTurns Ex.holdSquad := by
  intro g qs xs τ _ hl h2 _ _ _
  simp only [Ex.holdSquad]
  have hz : xs.zip (qs.map fun q => g * q) = (xs.zip qs).map fun p => (p.1, g * p.2) := by
    rw [List.zip_map_right]; rfl
  rw [hz, List.find?_map]
  have hd : (qs.map fun q => g * q).headD 1 = g * qs.headD 1 := by
    cases qs with
    | nil => simp at hl; omega
    | cons q qs => rfl
  rw [hd]
  have : ((fun p : ℝ × Quat => decide (p.1 = τ)) ∘ fun p : ℝ × Quat => (p.1, g * p.2)) = fun p => decide (p.1 = τ) := by
    funext p; rfl
  rw [this]
  cases (xs.zip qs).find? (fun p => decide (p.1 = τ)) <;> rfl

/-- Half a turn about the third axis and a shift. -/
def exMount : Pose := ⟨![1, 2, 3], ⟨0, 0, 0, 1⟩⟩

theorem exMount_unit : IsUnitQ exMount.r := by simp [exMount, IsUnitQ, nsq]

theorem exMount_act (v : Vec) : exMount.act v = ![1 - v 0, 2 - v 1, 3 + v 2] := by
  have h : rot exMount.r v = ![-v 0, -v 1, v 2] := ex_half_turn v
  simp only [Pose.act, h]
  simp only [exMount]
  funext k; fin_cases k <;> simp <;> ring

theorem exMount_mul (q : Quat) : exMount.r * q = (⟨-q.imK, -q.imJ, q.imI, q.re⟩ : Quat) := by
  have h0 : exMount.r.re = 0 := rfl
  have h1 : exMount.r.imI = 0 := rfl
  have h2 : exMount.r.imJ = 0 := rfl
  have h3 : exMount.r.imK = 1 := rfl
  apply Quaternion.ext
  · rw [Quaternion.re_mul, h0, h1, h2, h3]; ring
  · rw [Quaternion.imI_mul, h0, h1, h2, h3]; ring
  · rw [Quaternion.imJ_mul, h0, h1, h2, h3]; ring
  · rw [Quaternion.imK_mul, h0, h1, h2, h3]; ring

theorem exMount_one : exMount.r * (1 : Quat) = (⟨0, 0, 0, 1⟩ : Quat) := mul_one _

theorem exMount_turn (q : Quat) (hq : q = ⟨0, 0, 0, 1⟩) : exMount.r * q = (⟨-1, 0, 0, 0⟩ : Quat) := by
  rw [exMount_mul]
  have h0 : q.re = 0 := by rw [hq]
  have h1 : q.imI = 0 := by rw [hq]
  have h2 : q.imJ = 0 := by rw [hq]
  have h3 : q.imK = 1 := by rw [hq]
  rw [h0, h1, h2, h3, neg_zero]

theorem exMount_at (x y z : ℝ) : exMount.act ![x, y, z] = ![1 - x, 2 - y, 3 + z] := exMount_act _

theorem map_three {α β : Type} (f : α → β) (a b c : α) : [a, b, c].map f = [f a, f b, f c] := rfl
theorem map_two {α β : Type} (f : α → β) (a b : α) : [a, b].map f = [f a, f b] := rfl

theorem ex_movedM : MovedBy exMount Ex.dataM Ex.dataM' := by
  have h : ∀ q : Quat, q = ⟨0, 0, 0, 1⟩ → Ex.dataM' = ⟨some (.many [![1, 2, 3], ![0, 2, 3], ![-3, 2, 3]],
      .many [q, q, q]), some [0, 1, 2], false⟩ := by rintro _ rfl; rfl
  have e2 : ([![0, 0, 0], ![1, 0, 0], ![4, 0, 0]] : List Vec).map exMount.act = [![1, 2, 3], ![0, 2, 3], ![-3, 2, 3]] := by
    rw [map_three, exMount_at, exMount_at, exMount_at]
    norm_num
  rw [h _ exMount_one, ← e2]
  exact MovedBy.timed

theorem ex_movedD : MovedBy exMount Ex.dataD Ex.dataD' := by
  have h : ∀ q p : Quat, q = ⟨0, 0, 0, 1⟩ → p = ⟨-1, 0, 0, 0⟩ → Ex.dataD' = ⟨some (.many [![1, 2, 3], ![1, 2, 3]],
      .many [q, p]), some [1, 2], true⟩ := by rintro _ _ rfl rfl; rfl
  have e2 : ([0, 0] : List Vec).map exMount.act = [![1, 2, 3], ![1, 2, 3]] := by
    rw [map_two, exMount_act]
    simp
  rw [h _ _ exMount_one (exMount_turn _ rfl), ← e2]
  exact MovedBy.timed

/-- `qm` is `pm` with the mount merged into what it carries. -/
theorem ex_merged : Merged Ex.pm Ex.qm (fun i => i - 1) 1 0 exMount := by
  have e := Ex.pm_eq
  have e' := Ex.qm_eq
  refine ⟨by rw [e]; rfl, ⟨false, by rw [e]; rfl⟩, exMount_unit, ?_, ?_, ?_, ?_⟩
  · intro i hi _; rw [e] at hi; rw [e']; simp only at hi ⊢; omega
  · intro i j _ _ hi hj h; omega
  · intro i hi
    have : i = 2 := by
      rw [e] at hi; simp only at hi; split_ifs at hi <;> simp_all
    subst this
    exact ⟨by rw [e']; rfl, Ex.dataM, Ex.dataM', by rw [e]; rfl, by rw [e']; rfl, ex_movedM⟩
  · intro i hi h1 hp
    rw [e] at hi; simp only at hi
    have : i = 0 ∨ i = 3 := by
      rcases Nat.lt_or_ge i 1 with h | h
      · left; omega
      · right
        have : i ≠ 2 := by rintro rfl; apply hp; rw [e]; rfl
        omega
    rcases this with rfl | rfl <;> rw [e, e'] <;> simp

/-- `rm` is the moving example with other coordinates in the world frame. -/
theorem ex_recoordinated : Recoordinated Ex.m3 Ex.rm 0 exMount := by
  have e := Ex.m3_eq
  have e' := Ex.rm_eq
  refine ⟨exMount_unit, by rw [e, e'], by rw [e, e'], ?_, ?_⟩
  · intro i hi
    have : i = 1 ∨ i = 2 := by
      rw [e] at hi; simp only at hi; split_ifs at hi <;> simp_all
    rcases this with rfl | rfl
    · exact ⟨Ex.dataM, Ex.dataM', by rw [e]; rfl, by rw [e']; rfl, ex_movedM⟩
    · exact ⟨Ex.dataD, Ex.dataD', by rw [e]; rfl, by rw [e']; rfl, ex_movedD⟩
  · intro i hi
    have h1 : i ≠ 1 := by rintro rfl; apply hi; rw [e]; rfl
    have h2 : i ≠ 2 := by rintro rfl; apply hi; rw [e]; rfl
    rw [e, e']; simp [h1, h2]

theorem ex_pathAll_mount : PathAll Ex.pm 2 3 (FrameOk true Ex.pm) := by
  have e := Ex.pm_eq
  have p2 : Ex.pm.parent 2 = some 1 := by rw [e]; rfl
  have p1 : Ex.pm.parent 1 = some 0 := by rw [e]; rfl
  have p3 : Ex.pm.parent 3 = some 0 := by rw [e]; rfl
  obtain ⟨h, hr⟩ := Ex.reachPm
  have hw := hr.wf
  refine ⟨0, [2, 1], [3], ⟨.head p2 (.single p1), .single p3, ?_⟩, .up (by norm_num) p2 (.up (by norm_num) p1 .here), .up (by norm_num) p3 .here, ?_⟩
  · intro d h1 h2
    rcases Relation.ReflTransGen.cases_head h2 with rfl | ⟨x, hx, h3⟩
    · exfalso
      rcases Relation.ReflTransGen.cases_head h1 with h | ⟨x, hx, h3⟩
      · omega
      · rw [ParentOf, p2] at hx; cases hx
        rcases Relation.ReflTransGen.cases_head h3 with h | ⟨x, hx, h3⟩
        · omega
        · rw [ParentOf, p1] at hx; cases hx
          rcases Relation.ReflTransGen.cases_head h3 with h | ⟨x, hx, h3⟩
          · omega
          · rw [ParentOf, e] at hx; simp at hx
    · rw [ParentOf, p3] at hx; cases hx; exact h3
  · intro i hi
    simp at hi
    rw [frameOk_true]
    rcases hi with rfl | rfl | rfl
    · exact ⟨Ex.dataM, by rw [e]; rfl, Ex.goodM⟩
    · exact ⟨_, by rw [e]; rfl, .static exMount_unit⟩
    · exact ⟨Ex.dataD, by rw [e]; rfl, Ex.goodD⟩

/-- From the moving body on the mount to the discrete frame, with and without the mount. -/
example : Ex.qm.lookupTransform Ex.holdSquad 1 (.byObj 2) = Ex.pm.lookupTransform Ex.holdSquad 2 (.byObj 3) := by
  obtain ⟨h, hr⟩ := Ex.reachPm
  obtain ⟨h', hr'⟩ := Ex.reachQm
  exact C90_merged Ex.holdSquad Ex.holdSquad_law holdSquad_turns hr hr' ex_merged (a := 2) (b := 3) (by rw [Ex.pm_eq]; norm_num)
    (by rw [Ex.pm_eq]; norm_num) (by norm_num) (by norm_num) ex_pathAll_mount

example (v : ND ℝ) (o : TArgs) : Ex.qm.transformPoints Ex.holdSquad 1 v (.byObj 2) o = Ex.pm.transformPoints Ex.holdSquad 2 v (.byObj 3) o := by
  obtain ⟨h, hr⟩ := Ex.reachPm
  obtain ⟨h', hr'⟩ := Ex.reachQm
  exact (C90_merged_transforms Ex.holdSquad Ex.holdSquad_law holdSquad_turns hr hr' ex_merged (a := 2) (b := 3)
    ⟨by rw [Ex.pm_eq]; norm_num, by norm_num⟩ ⟨by rw [Ex.pm_eq]; norm_num, by norm_num⟩ ex_pathAll_mount v o).1

example (o : VelArgs) : Ex.qm.lookupTwist Ex.ext 1 (some (.byObj 2)) (some (.byObj 2)) o =
    Ex.pm.lookupTwist Ex.ext 2 (some (.byObj 3)) (some (.byObj 3)) o := by
  obtain ⟨h, hr⟩ := Ex.reachPm
  obtain ⟨h', hr'⟩ := Ex.reachQm
  have h2 : (2 : ℕ) < Ex.pm.size ∧ (2 : ℕ) ≠ 1 := ⟨by rw [Ex.pm_eq]; norm_num, by norm_num⟩
  have h3 : (3 : ℕ) < Ex.pm.size ∧ (3 : ℕ) ≠ 1 := ⟨by rw [Ex.pm_eq]; norm_num, by norm_num⟩
  exact (C90_merged_velocities Ex.ext Ex.holdSquad_law holdSquad_turns hr hr' ex_merged (a := 2) (b := 3) (c := 3)
    h2 h3 h3 ex_pathAll_mount pathAll_self ex_pathAll_mount o).1

example (v : ND ℝ) (what : String) (o : TArgs) : Ex.qm.transformAngularVelocity Ex.ext 1 v (.byObj 2) what o none =
    Ex.pm.transformAngularVelocity Ex.ext 2 v (.byObj 3) what o none := by
  obtain ⟨h, hr⟩ := Ex.reachPm
  obtain ⟨h', hr'⟩ := Ex.reachQm
  have h2 : (2 : ℕ) < Ex.pm.size ∧ (2 : ℕ) ≠ 1 := ⟨by rw [Ex.pm_eq]; norm_num, by norm_num⟩
  have h3 : (3 : ℕ) < Ex.pm.size ∧ (3 : ℕ) ≠ 1 := ⟨by rw [Ex.pm_eq]; norm_num, by norm_num⟩
  exact (C90_merged_velocity_transforms Ex.ext Ex.holdSquad_law holdSquad_turns hr hr' ex_merged (a := 2) (b := 3) (m := 3) (r := 3)
    h2 h3 h3 h3 ex_pathAll_mount (pathAll_symm ex_pathAll_mount) ex_pathAll_mount v what o none none).1

theorem ex_below1 : Ancestor Ex.m3 1 0 := .single (show Ex.m3.parent 1 = some 0 by rw [Ex.m3_eq]; rfl)
theorem ex_below2 : Ancestor Ex.m3 2 0 := .single (show Ex.m3.parent 2 = some 0 by rw [Ex.m3_eq]; rfl)

/-- Other coordinates in the world frame. -/
example : Ex.rm.lookupTransform Ex.holdSquad 1 (.byObj 2) = Ex.m3.lookupTransform Ex.holdSquad 1 (.byObj 2) := by
  obtain ⟨h', hr'⟩ := Ex.reachRm
  exact C90_world_between Ex.holdSquad Ex.holdSquad_law holdSquad_turns Ex.reachM hr' ex_recoordinated ex_below1 ex_below2 ex_pathAll_moving

example (v : ND ℝ) (o : TArgs) : Ex.rm.transformPoints Ex.holdSquad 1 v (.byObj 2) o = Ex.m3.transformPoints Ex.holdSquad 1 v (.byObj 2) o := by
  obtain ⟨h', hr'⟩ := Ex.reachRm
  exact (C90_world_transforms Ex.holdSquad Ex.holdSquad_law holdSquad_turns Ex.reachM hr' ex_recoordinated ex_below1 ex_below2 ex_pathAll_moving v o).1

example (o : VelArgs) : Ex.rm.lookupTwist Ex.ext 1 (some (.byObj 2)) (some (.byObj 2)) o =
    Ex.m3.lookupTwist Ex.ext 1 (some (.byObj 2)) (some (.byObj 2)) o := by
  obtain ⟨h', hr'⟩ := Ex.reachRm
  exact (C90_world_velocities Ex.ext Ex.holdSquad_law holdSquad_turns Ex.reachM hr' ex_recoordinated ex_below1 ex_below2 ex_below2
    ex_pathAll_moving pathAll_self ex_pathAll_moving o).1

example : MappedBy (fun A => ⟨exMount.act A.t, exMount.r * A.r⟩) (Ex.m3.lookupTransform Ex.holdSquad 2 (.byObj 0))
    (Ex.rm.lookupTransform Ex.holdSquad 2 (.byObj 0)) := by
  obtain ⟨h', hr'⟩ := Ex.reachRm
  exact C90_world_into Ex.holdSquad Ex.holdSquad_law holdSquad_turns Ex.reachM hr' ex_recoordinated ex_below2 ex_pathAll_d

example (v : ND ℝ) (what : String) (o : TArgs) : Ex.rm.transformLinearVelocity Ex.ext 1 v (.byObj 2) what (some (.byObj 1)) (some (.byObj 2)) o none none =
    Ex.m3.transformLinearVelocity Ex.ext 1 v (.byObj 2) what (some (.byObj 1)) (some (.byObj 2)) o none none := by
  obtain ⟨h', hr'⟩ := Ex.reachRm
  exact (C90_world_velocity_transforms Ex.ext Ex.holdSquad_law holdSquad_turns Ex.reachM hr' ex_recoordinated ex_below1 ex_below2 ex_below1 ex_below2
    ex_pathAll_moving pathAll_self ex_pathAll_moving v what o none none).2

end RBM.Props
