import Verif.Props.Nearby

/-!
Examples for C97: an interpolation that satisfies the contracts, and a tree in which one position is replaced.
-/

namespace RBM.Props

open RBM.Spec

/-! ### an instance of the contracts -/

open Classical in
/-- Hold the last sample. -/
noncomputable def stepSquad : SquadFn := fun qs xs τ =>
  if h : ∃ k x, xs[k]? = some x ∧ x ≤ τ ∧ ∀ y, xs[k + 1]? = some y → τ < y then qs.getD h.choose 1 else 1

theorem stepSquad_near : SquadNear stepSquad := by
  intro qs qs' xs τ _ _ _ hs _ _ _ hτ hag
  unfold stepSquad
  by_cases h : ∃ k x, xs[k]? = some x ∧ x ≤ τ ∧ ∀ y, xs[k + 1]? = some y → τ < y
  · rw [dif_pos h, dif_pos h, List.getD_eq_getElem?_getD, List.getD_eq_getElem?_getD]
    obtain ⟨x, hx, hle, hlt⟩ := h.choose_spec
    rw [hag]
    refine ⟨x, hx, .inr ⟨hτ, .inl ⟨lt_of_le_of_ne hle fun e => hτ (e ▸ List.mem_of_getElem? hx), fun y hy => ?_⟩⟩⟩
    obtain ⟨b, hb⟩ := List.getElem?_eq_some_iff.mp hy
    have hz : xs[h.choose + 1]? = some xs[h.choose + 1] := List.getElem?_eq_getElem (by omega)
    have := List.pairwise_iff_getElem.mp hs (h.choose + 1) (h.choose + 2) (by omega) b (by omega)
    rw [hb] at this
    exact (hlt _ hz).trans this
  · rw [dif_neg h, dif_neg h]

theorem stepSquad_law : SquadLaw stepSquad := by
  constructor
  · intro qs xs τ _ _ _ hu _ _
    unfold stepSquad
    split
    · rename_i h
      rw [List.getD_eq_getElem?_getD]
      cases hq : qs[h.choose]? with
      | none => exact isUnitQ_one
      | some q => exact hu q (List.mem_of_getElem? hq)
    · exact isUnitQ_one
  · intro qs xs k q x hl _ hs _ hq hx
    obtain ⟨bk, hbk⟩ := List.getElem?_eq_some_iff.mp hx
    have hm := List.pairwise_iff_getElem.mp hs
    have h : ∃ k y, xs[k]? = some y ∧ y ≤ x ∧ ∀ z, xs[k + 1]? = some z → x < z := by
      refine ⟨k, x, hx, le_refl _, fun z hz => ?_⟩
      obtain ⟨b, hb⟩ := List.getElem?_eq_some_iff.mp hz
      have := hm k (k + 1) bk b (by omega)
      rwa [hb, hbk] at this
    unfold stepSquad
    rw [dif_pos h]
    obtain ⟨y, hy, hle, hlt⟩ := h.choose_spec
    have hk : h.choose = k := by
      obtain ⟨c, hc⟩ := List.getElem?_eq_some_iff.mp hy
      rcases lt_trichotomy h.choose k with hlt' | e | hgt
      · have h1 := hlt _ (List.getElem?_eq_getElem (by omega))
        rcases Nat.lt_or_ge (h.choose + 1) k with h2 | h2
        · have := hm (h.choose + 1) k (by omega) bk h2
          rw [hbk] at this; linarith
        · have e : h.choose + 1 = k := by omega
          have h3 : xs[h.choose + 1]? = some x := by rw [e]; exact hx
          exact absurd (hlt x h3) (lt_irrefl _)
      · exact e
      · have := hm k h.choose bk c hgt
        rw [hc, hbk] at this; linarith
    rw [hk, List.getD_eq_getElem?_getD, hq]; rfl

/-! ### one position replaced -/

/-- The example tree with another position in the second sample of frame `m`. -/
def argsN : FrameArgs := { translation := some (Ex.arr2 3 [[0, 0, 0], [9, 9, 9], [4, 0, 0]]), timestamps := some (Ex.arr1 [0, 1, 2]) }
noncomputable def n2 : State := (Ex.m1.step (.registerFrame (some "m") (some (.byName "world")) argsN false)).1
noncomputable def n3 : State := (n2.step (.registerFrame (some "d") (some (.byName "world")) Ex.argsD false)).1
def dataN : FrameData := ⟨some (.many [![0, 0, 0], ![9, 9, 9], ![4, 0, 0]], .many [1, 1, 1]), some [0, 1, 2], false⟩

def dataN3 (i : ℕ) : Option FrameData :=
  if i = 2 then some Ex.dataD else if i = 1 then some dataN else if i = 0 then some ⟨none, none, false⟩ else none

set_option linter.unusedSimpArgs false in
theorem n3_eq : n3 = { Ex.m3 with data := dataN3 } := by
  rw [Ex.m3_eq]
  simp [n3, n2, Ex.m1, State.step, State.registerFrame, State.construct, verifyRoot,
    State.register, State.resolve, State.alloc, State.setData, State.setParent, State.checkLoop,
    State.detach, State.attach, State.pathReverse, chainUp, dictGet, dictSet, State.init,
    initArrays, argsN, Ex.argsD, initTimestamps, initTranslationArg, initRotationArg, Ex.arr1, Ex.arr2,
    List.lookup, Function.update_apply, Pure.pure, bind, Except.bind, Except.pure, vecRows, quatRows,
    List.range_succ]
  refine ⟨?_, ?_, ?_, ?_⟩
  · funext i; simp only [Function.update_apply]
  · funext i; simp only [Function.update_apply]
  · funext i; simp only [Function.update_apply]; split_ifs <;> simp_all
  · funext i; simp only [dataN3, Function.update_apply, Ex.dataD, dataN, List.replicate]; split_ifs <;> simp_all
    · rfl
    · refine ⟨?_, ?_, ?_⟩ <;> funext k <;> fin_cases k <;> simp

theorem reachN : ∃ h, Reachable n3 h :=
  ⟨_, .step (.registerFrame (some "d") (some (.byName "world")) Ex.argsD false)
    (.step (.registerFrame (some "m") (some (.byName "world")) argsN false)
      (.step (.registerFrame (some "world") none {} false) .init trivial) trivial) trivial⟩

theorem goodN : GoodData dataN := by
  refine .continuous rfl rfl (by simp) ?_ ?_
  · simp [StrictlyIncreasing]
  · intro q hq; simp at hq; subst hq; exact isUnitQ_one

theorem rerecordedN : Rerecorded Ex.m3 n3 := by
  refine ⟨by rw [n3_eq], by rw [n3_eq], fun i disc => ?_⟩
  rw [n3_eq, Ex.m3_eq]
  simp only [stampsOf, dataN3, Ex.dataM, dataN]
  split_ifs <;> rfl

theorem ex_pathAll_N : PathAll n3 1 2 (FrameOk true n3) := by
  obtain ⟨c, la, lb, hc, hla, hlb, hok⟩ := ex_pathAll_moving
  refine ⟨c, la, lb, rerecordedN.nearest hc, by rw [rerecordedN.parent]; exact hla, by rw [rerecordedN.parent]; exact hlb, fun i hi => ?_⟩
  rw [frameOk_true]
  obtain ⟨d, hd, hg⟩ := frameOk_true.mp (hok i hi)
  rw [n3_eq]
  rw [Ex.m3_eq] at hd
  simp only [dataN3] at hd ⊢
  split_ifs at hd ⊢ with h1 h2 h3
  · exact ⟨_, rfl, Ex.goodD⟩
  · exact ⟨_, rfl, goodN⟩
  · exact ⟨_, hd, hg⟩

/-- The position replaced at time 1 does not influence the results at times 0 and 2. -/
example (τ : ℝ) (hτ : τ = 0 ∨ τ = 2) (A : Pose) :
    GivesAt (Ex.m3.lookupTransform stepSquad 1 (.byObj 2)) τ A ↔ GivesAt (n3.lookupTransform stepSquad 1 (.byObj 2)) τ A := by
  obtain ⟨h', hr'⟩ := reachN
  have hsz : Ex.m3.size = 3 := by rw [Ex.m3_eq]
  have hd : Ex.m3.data 1 = some Ex.dataM := by rw [Ex.m3_eq]; rfl
  have hd' : n3.data 1 = some dataN := by rw [n3_eq]; rfl
  refine C97_position stepSquad_law stepSquad_near Ex.reachM hr' (by rw [hsz]; omega) (by rw [hsz]; omega) rerecordedN ex_pathAll_moving
    ex_pathAll_N ex_route_moving (f := 1) (j := 1) (ev := [0, 1, 2]) hd hd' (.mk ![9, 9, 9]) (fun i hi => ?_) ?_ A
  · rw [n3_eq, Ex.m3_eq]; simp [dataN3, hi]
  · rcases hτ with rfl | rfl
    · exact .inl ⟨0, 0, by omega, rfl, le_refl _⟩
    · exact .inr ⟨2, 2, by omega, rfl, le_refl _⟩

/-- There are results at these times. -/
example : ∀ τ : ℝ, τ = 0 ∨ τ = 2 → ∃ A, GivesAt (Ex.m3.lookupTransform stepSquad 1 (.byObj 2)) τ A := by
  have hsz : Ex.m3.size = 3 := by rw [Ex.m3_eq]
  have hc : [1, 2].filterMap (stampsOf Ex.m3 false) = [[0, 1, 2]] := by rw [Ex.m3_eq]; simp [stampsOf, Ex.dataM, Ex.dataD]
  rcases C22_static_iff stepSquad stepSquad_law Ex.reachM (by rw [hsz]; omega) (by rw [hsz]; omega) ex_pathAll_moving ex_route_moving with
    ⟨h, _⟩ | ⟨_, tl, rl, ts, e, _⟩
  · have := h 1 (by simp) false
    rw [Ex.m3_eq] at this
    simp [stampsOf, Ex.dataM] at this
  · obtain ⟨out, h1, _, h2⟩ := C20_timestamps stepSquad stepSquad_law Ex.reachM (by rw [hsz]; omega) (by rw [hsz]; omega) ex_pathAll_moving
      ex_route_moving e hc
    cases h1
    intro τ hτ
    refine C24_rows_covered stepSquad stepSquad_law Ex.reachM (by rw [hsz]; omega) (by rw [hsz]; omega) ex_pathAll_moving e τ ?_
    rw [h2]
    rcases hτ with rfl | rfl <;> simp [InRange]

/-- Points at times -1, 0 and 1: the first result (for time 0) is not influenced by the position replaced at time 1, nor by the
other points. -/
example (v v' : ND ℝ) (hv : v.shape = [3, 3]) (hv' : v'.shape = [3, 3]) (hs : ∀ k, v'.get [1, k] = v.get [1, k]) :
    ∃ out out', Ex.m3.transformPoints stepSquad 1 v (.byObj 2) { timestamps := some (ofList [-1, 0, 1]) } =
        .ok (returned false out (some [0, 1])) ∧
      n3.transformPoints stepSquad 1 v' (.byObj 2) { timestamps := some (ofList [-1, 0, 1]) } = .ok (returned false out' (some [0, 1])) ∧
      vec3 out' 1 [0, 0] = vec3 out 1 [0, 0] := by
  obtain ⟨h', hr'⟩ := reachN
  have hsz : Ex.m3.size = 3 := by rw [Ex.m3_eq]
  have hnd : v.ndim = 2 := by simp [ND.ndim, hv]
  obtain ⟨out, out', e1, e2, _, e3⟩ := C97_points (sq := stepSquad) (τ := 0) (v := v) (v' := v') (p := 1) (q := 0) (i := 0) (k := 1)
    (ats := [-1, 0, 1]) (o := { timestamps := some (ofList [-1, 0, 1]) }) stepSquad_law stepSquad_near Ex.reachM hr' (by rw [hsz]; omega)
    (by rw [hsz]; omega) rerecordedN ex_pathAll_moving ex_pathAll_N ex_route_moving (fun i hi d d' hd hd' => by
      rw [Ex.m3_eq] at hd
      rw [n3_eq] at hd'
      simp only [List.mem_cons, List.not_mem_nil, or_false] at hi
      rcases hi with rfl | rfl
      · simp [dataN3] at hd hd'
        subst hd; subst hd'
        refine .continuous (fun k hk => ?_) fun k _ => rfl
        have hne : k ≠ 1 := by
          rintro rfl
          exact not_matters (ev := [0, 1, 2]) (by simp [StrictlyIncreasing]) (le_refl 1) (.inl ⟨0, 0, by omega, rfl, le_refl _⟩) hk
        rcases k with _ | _ | _ | k
        · rfl
        · exact absurd rfl hne
        · rfl
        · rfl
      · simp [dataN3] at hd hd'
        subst hd; subst hd'
        exact agreeNear_refl Ex.goodD) (ta := 0) (by rw [hnd]; exact ⟨by omega, .inr (by norm_num)⟩) (by simp [hv]) rfl
    (by rw [hnd]; exact ⟨by omega, .inl rfl⟩) rfl
    ⟨by rw [hnd]; omega, by simp [hv], by simp, by simp [StrictlyIncreasing]⟩ (by omega) (by omega) (by rw [hnd]) (by rw [hv, hv'])
    (by rw [ex_outStamps]; rfl) rfl (fun idx hidx => by
      rw [hv] at hidx
      rcases idx with _ | ⟨i, _ | ⟨j, _ | _⟩⟩
      · exact hidx.elim
      · exact hidx.2.elim
      · funext k
        fin_cases k
        · exact hs 0
        · exact hs 1
        · exact hs 2
      · exact hidx.2.2.elim)
  rw [ex_outStamps] at e1 e2
  refine ⟨out, out', e1, e2, e3 [0, 0] ?_⟩
  rw [hv]
  exact ⟨by omega, by omega, trivial⟩

end RBM.Props
