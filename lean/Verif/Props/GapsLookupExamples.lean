import Verif.Props.GapsLookup
import Verif.Props.NearbyExamples

/-!
Examples for C98: an interpolation that satisfies the contract, and a tree with a missing position.
-/

namespace RBM.Props

open RBM.Spec

open Classical in
/-- `stepSquad` with missing samples. -/
noncomputable def stepSquadGaps : SquadGapsFn := fun qs xs τ =>
  if h : ∃ k x, xs[k]? = some x ∧ x ≤ τ ∧ ∀ y, xs[k + 1]? = some y → τ < y then qs.getD h.choose (some 1) else some 1

theorem stepSquadGaps_law : SquadGapsLaw stepSquad stepSquadGaps := by
  constructor
  · intro gs qs xs τ hf _ _ _ _ _
    unfold stepSquad stepSquadGaps
    by_cases h : ∃ k x, xs[k]? = some x ∧ x ≤ τ ∧ ∀ y, xs[k + 1]? = some y → τ < y
    · rw [dif_pos h, dif_pos h]
      exact getD_rel hf (fun x hx => by cases hx; rfl) _
    · rw [dif_neg h, dif_neg h]
      intro x hx; cases hx; rfl
  · intro gs xs τ hl _ hs _ hn
    unfold stepSquadGaps
    by_cases h : ∃ k x, xs[k]? = some x ∧ x ≤ τ ∧ ∀ y, xs[k + 1]? = some y → τ < y
    · rw [dif_pos h]
      obtain ⟨x, hx, hle, hlt⟩ := h.choose_spec
      obtain ⟨bx, hbx⟩ := List.getElem?_eq_some_iff.mp hx
      have hm := List.pairwise_iff_getElem.mp hs
      have hc : Close xs 2 τ h.choose := by
        refine ⟨⟨x, hx⟩, fun y hy => ?_, fun j y hj hy => ?_⟩
        · obtain ⟨b, hb⟩ := List.getElem?_eq_some_iff.mp hy
          have h1 := hlt _ (List.getElem?_eq_getElem (by omega))
          have h2 := hm (h.choose + 1) (h.choose + 2) (by omega) b (by omega)
          rw [hb] at h2
          linarith
        · obtain ⟨b, hb⟩ := List.getElem?_eq_some_iff.mp hy
          have h2 := hm j h.choose b bx (by omega)
          rw [hb, hbx] at h2
          linarith
      have hk : gs[h.choose]? = some gs[h.choose] := List.getElem?_eq_getElem (by omega)
      have := hn _ hc
      rw [hk] at this
      rw [List.getD_eq_getElem?_getD, hk]
      exact fun e => this (by rw [← e]; rfl)
    · rw [dif_neg h]; simp

/-- A known row. -/
def gv (x y z : ℝ) : GVec := fun k => some ((![x, y, z] : Vec) k)

theorem fits_gv (x y z : ℝ) : Fits (gv x y z) ![x, y, z] := fun k a h => by cases h; rfl

/-- The recordings of the example tree, except that the position of frame `m` in its first sample is missing (the first coordinate, the
others are known). -/
def gapsM : ℕ → Option GapData := fun i =>
  if i = 2 then some ⟨some (.many [gv 0 0 0, gv 0 0 0], .many [some ⟨1, 0, 0, 0⟩, some ⟨0, 0, 0, 1⟩]), some [1, 2], true⟩
  else if i = 1 then some ⟨some (.many [fun k => if k = 0 then none else some 0, gv 1 0 0, gv 4 0 0], .many [some 1, some 1, some 1]), some [0, 1, 2], false⟩
  else if i = 0 then some ⟨none, none, false⟩ else none

theorem completesM : CompletesTree Ex.m3 gapsM Ex.m3 := by
  refine ⟨⟨Ex.m3.data, rfl⟩, fun i => ?_⟩
  rw [Ex.m3_eq]
  simp only [gapsM]
  have hq : ∀ q : Quat, FitsQ (some q) q := fun q x hx => by cases hx; rfl
  split_ifs with h1 h2 h3
  · refine .inr ⟨_, _, rfl, rfl, .some (.many (.cons ?_ (.cons ?_ .nil))) (.many (.cons (hq _) (.cons (hq _) .nil)))⟩
    · intro k x hx; cases hx; fin_cases k <;> rfl
    · intro k x hx; cases hx; fin_cases k <;> rfl
  · refine .inr ⟨_, _, rfl, rfl, .some (.many (.cons ?_ (.cons (fits_gv _ _ _) (.cons (fits_gv _ _ _) .nil))))
      (.many (.cons (hq _) (.cons (hq _) (.cons (hq _) .nil))))⟩
    intro k x hx
    fin_cases k
    · simp at hx
    · simpa using hx
    · simpa using hx
  · exact .inr ⟨_, _, rfl, rfl, .none⟩
  · exact .inl ⟨rfl, rfl⟩

theorem exM_gives2 : ∃ A, GivesAt (Ex.m3.lookupTransform stepSquad 1 (.byObj 2)) 2 A := by
  have hsz : Ex.m3.size = 3 := by rw [Ex.m3_eq]
  have hc : [1, 2].filterMap (stampsOf Ex.m3 false) = [[0, 1, 2]] := by rw [Ex.m3_eq]; simp [stampsOf, Ex.dataM, Ex.dataD]
  rcases C22_static_iff stepSquad stepSquad_law Ex.reachM (by rw [hsz]; omega) (by rw [hsz]; omega) ex_pathAll_moving ex_route_moving with
    ⟨h, _⟩ | ⟨_, tl, rl, ts, e, _⟩
  · have := h 1 (by simp) false
    rw [Ex.m3_eq] at this
    simp [stampsOf, Ex.dataM] at this
  · obtain ⟨out, h1, _, h2⟩ := C20_timestamps stepSquad stepSquad_law Ex.reachM (by rw [hsz]; omega) (by rw [hsz]; omega) ex_pathAll_moving
      ex_route_moving e hc
    cases h1
    refine C24_rows_covered stepSquad stepSquad_law Ex.reachM (by rw [hsz]; omega) (by rw [hsz]; omega) ex_pathAll_moving e 2 ?_
    rw [h2]
    simp [InRange]

/-- The result for time 2 is complete. -/
example : ∃ A, GivesAt (Ex.m3.lookupTransform stepSquad 1 (.byObj 2)) 2 A ∧ GapsGiveAt (Ex.m3.lookupTransformGaps stepSquadGaps gapsM 1 (.byObj 2)) 2 A := by
  have hsz : Ex.m3.size = 3 := by rw [Ex.m3_eq]
  obtain ⟨A, hA⟩ := exM_gives2
  refine ⟨A, hA, C98_near stepSquad_law stepSquadGaps_law Ex.reachM (by rw [hsz]; omega) (by rw [hsz]; omega) completesM ex_pathAll_moving
    ex_route_moving (fun i hi g hg => ?_) hA⟩
  have hgv : ∀ x y z, Complete (gv x y z) := fun x y z k h => by cases h
  simp only [List.mem_cons, List.not_mem_nil, or_false] at hi
  rcases hi with rfl | rfl
  · simp only [gapsM] at hg
    cases hg
    refine .continuous (fun k hk g hg => ?_) fun k _ => ?_
    · rcases k with _ | _ | _ | k
      · exact absurd (hk.2.1 1 rfl) (by norm_num)
      · cases hg; exact hgv _ _ _
      · cases hg; exact hgv _ _ _
      · simp at hg
    · rcases k with _ | _ | _ | k <;> simp
  · simp only [gapsM] at hg
    cases hg
    refine .discrete (fun k _ g hg => ?_) fun k _ => ?_
    · rcases k with _ | _ | k
      · cases hg; exact hgv _ _ _
      · cases hg; exact hgv _ _ _
      · simp at hg
    · rcases k with _ | _ | k <;> simp

/-- Every number returned is the one of the complete tree. -/
example {t : Arr Vec} {r : Arr Quat} {ts : Option (List ℝ)} (e : Ex.m3.lookupTransform stepSquad 1 (.byObj 2) = .ok (t, r, ts)) :
    ∃ tg rg, Ex.m3.lookupTransformGaps stepSquadGaps gapsM 1 (.byObj 2) = .ok (tg, rg, ts) ∧ Rows Fits tg t ∧ Rows FitsQ rg r := by
  have hsz : Ex.m3.size = 3 := by rw [Ex.m3_eq]
  exact C98_sound stepSquad_law stepSquadGaps_law Ex.reachM (by rw [hsz]; omega) (by rw [hsz]; omega) completesM ex_pathAll_moving e

end RBM.Props
