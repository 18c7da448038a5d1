import Verif.Model.HeapVelocity
import Verif.Lemmas.HeapTransform

namespace RBM.Heap

open RBM

/-! ### running programs -/

theorem hp_bind {α β : Type} {p : HP α} {f : α → HP β} {m m' : Mem} {b : β} (h : (p >>= f) m = (.ok b, m')) :
    ∃ a m1, p m = (.ok a, m1) ∧ f a m1 = (.ok b, m') := by
  simp only [Bind.bind] at h
  rcases hp : p m with ⟨e | a, m1⟩
  · rw [hp] at h; cases h
  · rw [hp] at h; exact ⟨a, m1, rfl, h⟩

theorem hp_lift {α : Type} {x : Res α} {m m' : Mem} {a : α} (h : lift x m = (.ok a, m')) : x = .ok a ∧ m' = m := by
  cases h; exact ⟨rfl, rfl⟩

theorem hp_pure {α : Type} {x : α} {m m' : Mem} {a : α} (h : (Pure.pure x : HP α) m = (.ok a, m')) : a = x ∧ m' = m := by
  cases h; exact ⟨rfl, rfl⟩

/-- Facts about the run added to the relation. -/
theorem Runs.also {α : Type} {β : Type _} {p : HP α} {m : Mem} {v : Res β} {R : α → β → Mem → Prop} {Q : α → Mem → Prop} (h : Runs p m v R)
    (hq : ∀ a m', p m = (.ok a, m') → Q a m') : Runs p m v (fun a x m' => R a x m' ∧ Q a m') := by
  obtain ⟨m', hk, ⟨a, x, e, hv, hr⟩ | h⟩ := h
  · exact ⟨m', hk, .inl ⟨a, x, e, hv, hr, hq a m' e⟩⟩
  · exact ⟨m', hk, .inr h⟩

/-- As `Runs`, but only what existed in `m0` is kept. -/
def RunsFrom {α : Type} {β : Type _} (m0 : Mem) (p : HP α) (m : Mem) (v : Res β) (R : α → β → Mem → Prop) : Prop :=
  ∃ m', Keeps m0 m' ∧ ((∃ a x, p m = (.ok a, m') ∧ v = .ok x ∧ R a x m') ∨ ∃ e, p m = (.error e, m') ∧ v = .error e)

theorem Runs.from {α : Type} {β : Type _} {m0 : Mem} {p : HP α} {m : Mem} {v : Res β} {R : α → β → Mem → Prop} (h : Runs p m v R)
    (hk : Keeps m0 m) : RunsFrom m0 p m v R := by
  obtain ⟨m', k, h⟩ := h
  exact ⟨m', hk.trans k, h⟩

theorem RunsFrom.bind {α γ : Type} {β δ : Type _} {m0 : Mem} {p : HP α} {f : α → HP γ} {m : Mem} {v : Res β} {g : β → Res δ}
    {R : α → β → Mem → Prop} {S : γ → δ → Mem → Prop} (h0 : Keeps m0 m) (h : Runs p m v R)
    (hf : ∀ a x m', Keeps m m' → R a x m' → RunsFrom m0 (f a) m' (g x) S) : RunsFrom m0 (p >>= f) m (v.bind g) S := by
  obtain ⟨m', hk, ⟨a, x, e, rfl, hr⟩ | ⟨e, he, rfl⟩⟩ := h
  · obtain ⟨m2, hk2, h2⟩ := hf a x m' hk hr
    have e1 : (p >>= f) m = f a m' := by simp only [Bind.bind, e]
    refine ⟨m2, hk2, ?_⟩
    rw [e1]; exact h2
  · refine ⟨m', h0.trans hk, .inr ⟨e, ?_, rfl⟩⟩
    simp only [Bind.bind, he]

theorem RunsFrom.congr {α : Type} {β : Type _} {m0 : Mem} {p p' : HP α} {m : Mem} {v v' : Res β} {R : α → β → Mem → Prop} (h : RunsFrom m0 p' m v' R)
    (e : p m = p' m) (ev : v = v') : RunsFrom m0 p m v R := by
  subst ev
  obtain ⟨m', hk, h⟩ := h
  exact ⟨m', hk, by rw [e]; exact h⟩

theorem RunsFrom.mono {α : Type} {β : Type _} {m0 : Mem} {p : HP α} {m : Mem} {v : Res β} {R S : α → β → Mem → Prop} (h : RunsFrom m0 p m v R)
    (hi : ∀ a x m', R a x m' → S a x m') : RunsFrom m0 p m v S := by
  obtain ⟨m', hk, ⟨a, x, e, hv, hr⟩ | h⟩ := h
  · exact ⟨m', hk, .inl ⟨a, x, e, hv, hi a x m' hr⟩⟩
  · exact ⟨m', hk, .inr h⟩

/-! ### arrays whose entries are stored in different cells -/

/-- Different entries are stored in different cells. -/
def NdRef.Whole (r : NdRef) : Prop := ∀ i j, Valid r.shape i → Valid r.shape j → r.index i = r.index j → i = j

theorem whole_new {c : ND ℝ} {m m' : Mem} {r : NdRef} (h : new c m = (.ok r, m')) : r.Whole ∧ r.buf = m.size := by
  simp only [new, Prod.mk.injEq, Except.ok.injEq] at h
  obtain ⟨rfl, _⟩ := h
  exact ⟨fun i j _ _ h => h, rfl⟩

theorem whole_swap {r r' : NdRef} {i j : ℤ} {m m' : Mem} (hr : r.Whole) (h : swapRef r i j m = (.ok r', m')) : r'.Whole := by
  simp only [swapRef] at h
  cases hi : normAxis i r.shape.length with
  | none => rw [hi] at h; cases h
  | some i =>
    cases hj : normAxis j r.shape.length with
    | none => rw [hi, hj] at h; cases h
    | some j =>
      rw [hi, hj] at h
      obtain ⟨rfl, _⟩ := hp_pure h
      have li := normAxis_lt hi
      have lj := normAxis_lt hj
      intro a b ha hb hab
      have ha' := (valid_swapL_iff li lj).mp ha
      have hb' := (valid_swapL_iff li lj).mp hb
      have e := hr _ _ ha' hb' hab
      have la : a.length = r.shape.length := by have := ha'.length; simpa using this
      have lb : b.length = r.shape.length := by have := hb'.length; simpa using this
      have := congrArg (swapL i j) e
      rwa [swapL_swapL (by omega) (by omega), swapL_swapL (by omega) (by omega)] at this

theorem write_entries {m : Mem} {r : NdRef} (hr : r.Whole) (hb : r.buf < m.size) (c : List ℕ → ℝ) {idx : List ℕ} (hv : Valid r.shape idx) :
    ((m.write r c).read r).get idx = c idx := by
  classical
  simp only [Mem.read, Mem.write, Mem.buffer]
  simp only [Mem.size] at hb
  rw [List.getD_eq_getElem?_getD, List.getElem?_set, if_pos rfl]
  simp only [hb, if_true, Option.getD_some]
  have h : ∃ x, Valid r.shape x ∧ r.index x = r.index idx := ⟨idx, hv, rfl⟩
  rw [dif_pos h, hr _ _ h.choose_spec.1 hv h.choose_spec.2]

theorem whole_finish {o : HTArgs} {arr : NdRef} {ts : Option NdRef} {m m' : Mem} {x : NdRef × Option NdRef} (ha : arr.Whole)
    (h : finishH o arr ts m = (.ok (.withTs x.1 x.2), m')) : x.1.Whole := by
  unfold finishH at h
  have key : ∀ r m1, (Pure.pure (if !o.returnTimestamps then HRet.single r else .withTs r ts) : HP HRet) m1 = (.ok (.withTs x.1 x.2), m') → x.1 = r := by
    intro r m1 h2
    have h2 := (hp_pure h2).1
    cases hb : o.returnTimestamps with
    | false => rw [hb] at h2; cases h2
    | true =>
      rw [hb] at h2
      simp only [Bool.not_true, Bool.false_eq_true, if_false, HRet.withTs.injEq] at h2
      exact h2.1
  cases hta : o.timeAxis with
  | none =>
    rw [hta] at h
    obtain ⟨r, m1, h1, h2⟩ := hp_bind h
    obtain ⟨rfl, _⟩ := hp_pure h1
    rw [key _ _ h2]; exact ha
  | some ta =>
    rw [hta] at h
    obtain ⟨r, m1, h1, h2⟩ := hp_bind h
    rw [key _ _ h2]; exact whole_swap ha h1

theorem whole_vectors {sq : SquadFn} {s : HState} {a : ℕ} {arr : ArrayLike} {dst : FrameRef} {o : HTArgs} {m m' : Mem} {x : NdRef × Option NdRef}
    (h : unpackPairH (transformVectorsH sq s a arr dst o) m = (.ok x, m')) : x.1.Whole := by
  obtain ⟨r, m1, h1, h2⟩ := hp_bind h
  cases r with
  | single r => cases h2
  | withTs r ts =>
    obtain ⟨rfl, _⟩ := hp_pure h2
    obtain ⟨_, _, _, h1⟩ := hp_bind h1
    obtain ⟨_, _, _, h1⟩ := hp_bind h1
    obtain ⟨⟨_, _, _⟩, _, _, h1⟩ := hp_bind h1
    obtain ⟨_, _, _, h1⟩ := hp_bind h1
    obtain ⟨_, _, _, h1⟩ := hp_bind h1
    obtain ⟨_, _, _, h1⟩ := hp_bind h1
    obtain ⟨_, _, _, h1⟩ := hp_bind h1
    obtain ⟨out, _, hn, h1⟩ := hp_bind h1
    exact whole_finish (x := (r, ts)) (whole_new hn).1 h1

/-! ### matching -/

theorem resample_first {sq : SquadFn} {a : HMArray} {ts : Option (List ℝ)} {m m' : Mem} {r : NdRef}
    (h : resampleArrayH sq a ts m = (.ok r, m')) : (r = a.data ∧ ts = none) ∨ (r.Whole ∧ r.buf = m.size) := by
  simp only [resampleArrayH] at h
  cases hT : a.timestamps with
  | none =>
    rw [hT] at h
    cases ts with
    | none => simp only at h; cases h; exact .inl ⟨rfl, rfl⟩
    | some ts =>
      obtain ⟨c, m1, h1, h2⟩ := hp_bind h
      obtain ⟨_, rfl⟩ := hp_lift h1
      exact .inr (whole_new h2)
  | some x =>
    rw [hT] at h
    obtain ⟨c, m1, h1, h2⟩ := hp_bind h
    obtain ⟨_, rfl⟩ := hp_lift h1
    exact .inr (whole_new h2)

theorem runs_resampleAll (sq : SquadFn) (ts : Option (List ℝ)) {m0 : Mem} (as : List HMArray) {m : Mem} (h0 : Keeps m0 m)
    (ha : ∀ a ∈ as, a.Known m) (hf : ∀ a ∈ as, m0.size ≤ a.data.buf) :
    Runs (resampleAllH sq ts as) m (collect ((as.map (HMArray.read m)).map fun a => resampleArray sq a ts))
      (fun rs cs m' => List.Forall₂ (fun r c => IsNew m0 r c m') rs cs) := by
  induction as generalizing m with
  | nil => exact Runs.pure .nil
  | cons a as ih =>
    have e : collect (((a :: as).map (HMArray.read m)).map fun a => resampleArray sq a ts) =
        (resampleArray sq (a.read m) ts).bind fun c =>
          (collect ((as.map (HMArray.read m)).map fun a => resampleArray sq a ts)).bind fun cs => .ok (c :: cs) := by
      simp only [List.map_cons, collect]
      cases resampleArray sq (a.read m) ts with
      | error e => rfl
      | ok c =>
        simp only [Except.bind]
        cases collect ((as.map (HMArray.read m)).map fun a => resampleArray sq a ts) <;> rfl
    rw [e]
    refine Runs.bind ((runs_resample sq (ha a (by simp)) ts).also fun r m' h => resample_first h) ?_
    rintro r c m1 k1 ⟨⟨r1, r2⟩, r3⟩
    have hk : as.map (HMArray.read m) = as.map (HMArray.read m1) :=
      List.map_congr_left fun x hx => ((ha x (by simp [hx])).keeps k1).2.symm
    rw [hk]
    refine Runs.bind (ih (h0.trans k1) (fun x hx => ((ha x (by simp [hx])).keeps k1).1) fun x hx => hf x (by simp [hx])) ?_
    intro rs cs m2 k2 h2
    refine Runs.pure (.cons ?_ h2)
    refine (IsNew.mk (m := m0) r1 ?_ r2 : IsNew m0 r c m1).keeps k2
    rcases r3 with ⟨rfl, _⟩ | ⟨_, hb⟩
    · exact hf a (by simp)
    · rw [hb]; exact h0.size

/-- Matched arrays are new if the given ones were. -/
theorem runs_matchArrays (sq : SquadFn) {m0 m : Mem} (h0 : Keeps m0 m) (as : List HMArray) (ha : ∀ a ∈ as, a.Known m)
    (hf : ∀ a ∈ as, m0.size ≤ a.data.buf) :
    Runs (matchArraysH sq as) m (matchArrays sq (as.map (HMArray.read m)))
      (fun x y m' => List.Forall₂ (fun r c => IsNew m0 r c m') x.1 y.1 ∧ NewStamps m0 x.2 y.2 m') := by
  unfold matchArraysH
  have e : matchArrays sq (as.map (HMArray.read m)) = (addArrays (as.map (HMArray.read m)) ((⟨[], []⟩ : HMatcher).read m)).bind fun x =>
      (x.getTimestamps true).bind fun ts => (collect (x.arrays.map fun a => resampleArray sq a ts)).bind fun arrs => .ok (arrs, ts) := by
    rfl
  rw [e]
  refine Runs.bind (runs_addArrays as ha ⟨by simp, by simp⟩) ?_
  rintro x _ m1 _ ⟨rfl, x1, rfl, x3⟩
  refine Runs.bind (runs_getTimestamps x m1) ?_
  intro r l m2 k2 n2
  refine Runs.step rfl ?_
  rw [n2.list]
  have hx : x.arrays = as := by simpa using x3
  have e2 : (x.read m1).arrays = x.arrays.map (HMArray.read m2) := by
    rw [← (x1.keeps k2).2]; rfl
  rw [e2, hx]
  refine Runs.bind (runs_resampleAll sq l as (h0.trans k2) (fun a h => ((ha a h).keeps k2).1) hf) ?_
  intro rs cs m3 k3 h3
  exact Runs.pure ⟨h3, (n2.keeps k3).before h0⟩

theorem matched_first {sq : SquadFn} {a : HMArray} {as : List HMArray} {m m' : Mem} {r : NdRef} {rs : List NdRef} {ts : Option NdRef}
    (h : matchArraysH sq (a :: as) m = (.ok (r :: rs, ts), m')) (hk : ∀ b ∈ a :: as, b.Known m) (hw : a.data.Whole) :
    r.Whole ∧ ∀ x, ts = some x → x.buf ≠ r.buf := by
  unfold matchArraysH at h
  obtain ⟨x, m1, h1, g1⟩ := hp_bind h
  clear h
  have hx : m1 = m ∧ x.arrays = a :: as := by
    obtain ⟨m2, _, ⟨x', y, e1, _, e2⟩ | ⟨e, e1, _⟩⟩ := runs_addArrays (a :: as) hk (x := ⟨[], []⟩) ⟨by simp, by simp⟩
    · rw [h1] at e1; cases e1; exact ⟨e2.1, by simpa using e2.2.2.2⟩
    · rw [h1] at e1; cases e1
  obtain ⟨rfl, hx⟩ := hx
  obtain ⟨ts', m2, h2, g2⟩ := hp_bind g1
  obtain ⟨tl, m2', h3, g3⟩ := hp_bind g2
  cases h3
  obtain ⟨rs', m3, h4, g4⟩ := hp_bind g3
  obtain ⟨e, _⟩ := hp_pure g4
  simp only [Prod.mk.injEq] at e
  obtain ⟨rfl, rfl⟩ := e
  rw [hx] at h4
  obtain ⟨r', m4, h5, h4⟩ := hp_bind h4
  obtain ⟨rs'', m5, h6, h4⟩ := hp_bind h4
  obtain ⟨e, _⟩ := hp_pure h4
  simp only [List.cons.injEq] at e
  obtain ⟨rfl, rfl⟩ := e
  rcases resample_first h5 with ⟨rfl, hn⟩ | ⟨hw', hb⟩
  · refine ⟨hw, fun x hx => ?_⟩
    subst hx
    cases hn
  · refine ⟨hw', fun y hy => ?_⟩
    subst hy
    obtain ⟨m6, _, ⟨x', y, e1, _, e2⟩ | ⟨e, e1, _⟩⟩ := runs_getTimestamps x m1
    · rw [h2] at e1
      cases e1
      have := e2.has.2 _ rfl
      omega
    · rw [h2] at e1; cases e1

theorem resampleAll_apart {sq : SquadFn} {ts : Option (List ℝ)} {as : List HMArray} {m m' : Mem} {rs : List NdRef}
    (h : resampleAllH sq ts as m = (.ok rs, m')) (hk : ∀ b ∈ as, b.Known m) (hp : as.Pairwise fun a b => a.data.buf ≠ b.data.buf) :
    rs.Pairwise (fun r r' => r.buf ≠ r'.buf) ∧ ∀ r ∈ rs, (ts = none ∧ ∃ a ∈ as, r = a.data) ∨ m.size ≤ r.buf := by
  induction as generalizing m m' rs with
  | nil =>
    obtain ⟨rfl, _⟩ := hp_pure h
    exact ⟨.nil, by simp⟩
  | cons a as ih =>
    obtain ⟨r, m1, h1, h2⟩ := hp_bind h
    obtain ⟨rs', m2, h3, h4⟩ := hp_bind h2
    obtain ⟨rfl, _⟩ := hp_pure h4
    have k1 : Keeps m m1 := by
      have := (runs_resample sq (hk a (by simp)) ts).keeps
      rw [h1] at this
      exact this
    have hr : r.buf < m1.size := by
      obtain ⟨m3, _, ⟨x, y, e1, _, e2⟩ | ⟨e, e1, _⟩⟩ := runs_resample sq (hk a (by simp)) ts
      · rw [h1] at e1; cases e1; exact e2.2
      · rw [h1] at e1; cases e1
    obtain ⟨i1, i2⟩ := ih h3 (fun b hb => ((hk b (by simp [hb])).keeps k1).1) (List.pairwise_cons.mp hp).2
    refine ⟨List.pairwise_cons.mpr ⟨fun r' hr' => ?_, i1⟩, fun r' hr' => ?_⟩
    · rcases i2 r' hr' with ⟨_, b, hb, rfl⟩ | hs
      · rcases resample_first h1 with ⟨rfl, _⟩ | ⟨_, e⟩
        · exact (List.pairwise_cons.mp hp).1 b hb
        · have : b.data.buf < m.size := (hk b (by simp [hb])).1
          omega
      · omega
    · rcases List.mem_cons.mp hr' with rfl | hr'
      · rcases resample_first h1 with ⟨rfl, e⟩ | ⟨_, e⟩
        · exact .inl ⟨e, a, by simp, rfl⟩
        · exact .inr e.ge
      · rcases i2 r' hr' with ⟨e, b, hb, rfl⟩ | hs
        · exact .inl ⟨e, b, by simp [hb], rfl⟩
        · exact .inr (k1.size.trans hs)

/-- Matched arrays share no memory with each other if the given ones did not, and none with the
timestamps. -/
theorem matched_apart {sq : SquadFn} {as : List HMArray} {m m' : Mem} {rs : List NdRef} {ts : Option NdRef}
    (h : matchArraysH sq as m = (.ok (rs, ts), m')) (hk : ∀ b ∈ as, b.Known m) (hp : as.Pairwise fun a b => a.data.buf ≠ b.data.buf) :
    rs.Pairwise (fun r r' => r.buf ≠ r'.buf) ∧ ∀ r ∈ rs, Apart r ts := by
  unfold matchArraysH at h
  obtain ⟨x, m1, h1, g1⟩ := hp_bind h
  clear h
  have hx : m1 = m ∧ x.arrays = as := by
    obtain ⟨m2, _, ⟨x', y, e1, _, e2⟩ | ⟨e, e1, _⟩⟩ := runs_addArrays as hk (x := ⟨[], []⟩) ⟨by simp, by simp⟩
    · rw [h1] at e1; cases e1; exact ⟨e2.1, by simpa using e2.2.2.2⟩
    · rw [h1] at e1; cases e1
  obtain ⟨rfl, hx⟩ := hx
  obtain ⟨ts', m2, h2, g2⟩ := hp_bind g1
  obtain ⟨tl, m2', h3, g3⟩ := hp_bind g2
  cases h3
  obtain ⟨rs', m3, h4, g4⟩ := hp_bind g3
  obtain ⟨e, _⟩ := hp_pure g4
  simp only [Prod.mk.injEq] at e
  obtain ⟨rfl, rfl⟩ := e
  rw [hx] at h4
  obtain ⟨m6, k6, ⟨x', y, e1, _, e2⟩ | ⟨e, e1, _⟩⟩ := runs_getTimestamps x m1
  · rw [h2] at e1
    cases e1
    obtain ⟨i1, i2⟩ := resampleAll_apart h4 (fun b hb => ((hk b hb).keeps k6).1) hp
    refine ⟨i1, fun r hr z hz => ?_⟩
    subst hz
    rcases i2 r hr with ⟨hn, _⟩ | hs
    · cases hn
    · have := e2.has.2 _ rfl
      omega
  · rw [h2] at e1; cases e1

/-! ### lookups -/

theorem addFrames_mem (s : HState) (m : Mem) (inverse : Bool) (is : List ℕ) (x : HMatcher) :
    addFramesH ⟨m, s.st, s.obj⟩ inverse is x = addFramesH s inverse is x := by
  induction is generalizing x with
  | nil => rfl
  | cons i is ih =>
    simp only [addFramesH, ih]
    rfl

theorem getMatcher_mem (s : HState) (m : Mem) (a : ℕ) (dst : FrameRef) (as : List HMArray) :
    getMatcherH ⟨m, s.st, s.obj⟩ a dst as = getMatcherH s a dst as := by
  simp only [getMatcherH, addFrames_mem]

theorem runs_vectors_at (sq : SquadFn) {s : HState} (hs : s.Sound) {m : Mem} (hm : Keeps s.mem m) (a : ℕ) {arr : ArrayLike} (ha : arr.Known m)
    (dst : FrameRef) {o : HTArgs} (ho : o.Known m) :
    Runs (transformVectorsH sq s a arr dst o) m (s.view.transformVectors sq a (arr.read m) dst (o.read m)) (NewRet m) := by
  have h := runs_vectors sq (s := ⟨m, s.st, s.obj⟩) (hs.keeps hm s.st) a ha dst ho
  rw [view_keeps hs hm s.st] at h
  refine Runs.congr h ?_ rfl
  simp only [transformVectorsH, getMatcher_mem]

/-- A new array and new timestamps. -/
def NewPair (m : Mem) (x : NdRef × Option NdRef) (y : ND ℝ × Option (List ℝ)) (m' : Mem) : Prop :=
  IsNew m x.1 y.1 m' ∧ NewStamps m x.2 y.2 m' ∧ Apart x.1 x.2

theorem runs_unpack {p : HP HRet} {m : Mem} {v : Res PyRet} (h : Runs p m v (NewRet m)) : Runs (unpackPairH p) m (unpackPair v) (NewPair m) := by
  have e : unpackPair v = v.bind fun x => match x with
      | .withTs a ts => .ok (a, ts)
      | .single _ => .error .valueError := by
    rcases v with _ | ⟨_ | _⟩ <;> rfl
  rw [e]
  refine Runs.bind h ?_
  rintro (r | ⟨r, ts⟩) (c | ⟨c, l⟩) m' _ hn
  · exact Runs.error _ _ _
  · exact absurd hn id
  · exact absurd hn id
  · exact Runs.pure hn

theorem vectorsWithTs_unpack (sq : SquadFn) (s : State) (a : ℕ) (arr : ND ℝ) (dst : ℕ) (o : TArgs) :
    s.vectorsWithTs sq a arr dst o = unpackPair (s.transformVectors sq a arr (.byObj dst) { o with returnTimestamps := true }) := by
  unfold State.vectorsWithTs
  rcases s.transformVectors sq a arr (.byObj dst) { o with returnTimestamps := true } with _ | ⟨_ | _⟩ <;> rfl

theorem resolveOr_view (s : HState) (a : ℕ) (ref : Option FrameRef) : s.view.resolveOr a ref = s.st.resolveOr a ref := rfl

theorem returnH_new {m m' : Mem} {r : NdRef} {c : ND ℝ} {ts : Option NdRef} {l : Option (List ℝ)} (b : Bool) (h1 : IsNew m r c m')
    (h2 : NewStamps m ts l m') (h3 : Apart r ts) : NewRet m (returnH b r ts) (pyReturn b c l) m' := by
  cases b
  · exact h1
  · exact ⟨h1, h2, h3⟩

theorem runs_linearRows (ext : Ext) {m : Mem} {t ts : NdRef} {tv : Arr Vec} {l : List ℝ} (ht : m.read t = ND.ofVecs tv) (hl : m.read ts = stampArray l)
    (o : VelArgs) : Runs (linearRowsH ext t ts o) m (linearRows ext tv l o) (IsNew m) := by
  have e : linearRows ext tv l o = (linearRows ext tv l o).bind fun c => .ok c := by cases linearRows ext tv l o <;> rfl
  rw [e]
  refine Runs.step rfl (Runs.step rfl ?_)
  rw [ht, hl, vecsOf_ofVecs, stampList_stampArray]
  refine Runs.bind (Runs.lift _ m) ?_
  rintro c _ _ _ ⟨rfl, rfl⟩
  exact Runs.new c _

theorem runs_angularRows (ext : Ext) {m : Mem} {t ts : NdRef} {tv : Arr Quat} {l : List ℝ} (ht : m.read t = ND.ofQuats tv) (hl : m.read ts = stampArray l)
    (o : VelArgs) : Runs (angularRowsH ext t ts o) m (angularRows ext tv l o) (IsNew m) := by
  have e : angularRows ext tv l o = (angularRows ext tv l o).bind fun c => .ok c := by cases angularRows ext tv l o <;> rfl
  rw [e]
  refine Runs.step rfl (Runs.step rfl ?_)
  rw [ht, hl, quatsOf_ofQuats, stampList_stampArray]
  refine Runs.bind (Runs.lift _ m) ?_
  rintro c _ _ _ ⟨rfl, rfl⟩
  exact Runs.new c _

/-- `f.transform_vectors(arr, to, timestamps=ts, return_timestamps=True)` for arrays made by the library. -/
theorem runs_withTs (sq : SquadFn) {s : HState} (hs : s.Sound) {m : Mem} (hm : Keeps s.mem m) (a : ℕ) {arr : NdRef} {c : ND ℝ} (ha : m.read arr = c)
    (hk : arr.buf < m.size) (dst : FrameRef) {ts : Option NdRef} {l : Option (List ℝ)} (hl : ts.map m.read = l.map stampArray)
    (hts : ∀ x, ts = some x → x.buf < m.size) :
    Runs (unpackPairH (transformVectorsH sq s a (.array arr) dst { timestamps := ts.map .array, returnTimestamps := true })) m
      (unpackPair (s.view.transformVectors sq a c dst { timestamps := stampArg l, returnTimestamps := true })) (NewPair m) := by
  have h := runs_vectors_at sq hs hm a (arr := .array arr) hk dst (o := { timestamps := ts.map .array, returnTimestamps := true }) (by
    intro x hx
    cases ts with
    | none => cases hx
    | some y => cases hx; exact hts y rfl)
  have e : (({ timestamps := ts.map .array, returnTimestamps := true } : HTArgs).read m) = { timestamps := stampArg l, returnTimestamps := true } := by
    simp only [HTArgs.read, stampArg]
    congr 1
    rw [Option.map_map]
    exact hl
  rw [e] at h
  have e2 : (ArrayLike.array arr).read m = c := ha
  rw [e2] at h
  exact runs_unpack h

theorem NewStamps.known {m m' : Mem} {r : Option NdRef} {l : Option (List ℝ)} (h : NewStamps m r l m') : ∀ x, r = some x → x.buf < m'.size := h.has.2

theorem NewStamps.values {m m' : Mem} {r : Option NdRef} {l : Option (List ℝ)} (h : NewStamps m r l m') : r.map m'.read = l.map stampArray := by
  rcases h with ⟨rfl, rfl⟩ | ⟨x, ts, rfl, rfl, h⟩
  · rfl
  · simp [h.value]

theorem runs_lookupLinear (ext : Ext) {s : HState} (hs : s.Sound) {m : Mem} (hm : Keeps s.mem m) (a : ℕ) (reference representIn : Option FrameRef)
    (o : VelArgs) :
    Runs (lookupLinearVelocityH ext s a reference representIn o) m (s.view.lookupLinearVelocity ext a reference representIn o) (NewRet m) := by
  unfold lookupLinearVelocityH State.lookupLinearVelocity
  rw [resolveOr_view, resolveOr_view]
  refine Runs.bind (Runs.lift _ m) ?_
  rintro ref _ _ _ ⟨rfl, rfl⟩
  refine Runs.bind (Runs.lift _ _) ?_
  rintro rep _ m _ ⟨rfl, rfl⟩
  refine Runs.bind (runs_lookup ext.squad hs hm a (.byObj ref)) ?_
  rintro ⟨t, r, ts⟩ ⟨tv, rv, l⟩ m1 k1 ⟨n1, n2, n3, _⟩
  rcases n3 with ⟨rfl, rfl⟩ | ⟨x, ts, rfl, rfl, n3⟩
  · simp only
    cases o.allowStatic with
    | false => exact Runs.error _ _ _
    | true =>
      simp only [if_true]
      refine Runs.bindNew ?_
      intro z m2 k2 n
      exact Runs.pure ⟨n.before k1, .inl ⟨rfl, rfl⟩, fun _ h => nomatch h⟩
  · simp only [vectorsWithTs_unpack]
    refine Runs.bind (runs_linearRows ext n1.value n3.value o) ?_
    intro lin c m2 k2 n4
    refine Runs.bind (runs_withTs ext.squad hs (hm.trans (k1.trans k2)) ref n4.value n4.known (.byObj rep) (ts := some x) (l := some ts)
      (by simp [(n3.keeps k2).value]) (fun y hy => by cases hy; exact (n3.keeps k2).known)) ?_
    rintro ⟨r', ts'⟩ ⟨c', l'⟩ m3 k3 ⟨n5, n6, n7⟩
    exact Runs.pure (returnH_new _ (n5.before (k1.trans k2)) (n6.before (k1.trans k2)) n7)

theorem runs_lookupAngular (ext : Ext) {s : HState} (hs : s.Sound) {m : Mem} (hm : Keeps s.mem m) (a : ℕ) (reference representIn : Option FrameRef)
    (o : VelArgs) :
    Runs (lookupAngularVelocityH ext s a reference representIn o) m (s.view.lookupAngularVelocity ext a reference representIn o) (NewRet m) := by
  unfold lookupAngularVelocityH State.lookupAngularVelocity
  rw [resolveOr_view, resolveOr_view]
  refine Runs.bind (Runs.lift _ m) ?_
  rintro ref _ _ _ ⟨rfl, rfl⟩
  refine Runs.bind (Runs.lift _ _) ?_
  rintro rep _ m _ ⟨rfl, rfl⟩
  refine Runs.bind (runs_lookup ext.squad hs hm a (.byObj ref)) ?_
  rintro ⟨t, r, ts⟩ ⟨tv, rv, l⟩ m1 k1 ⟨n1, n2, n3, _⟩
  rcases n3 with ⟨rfl, rfl⟩ | ⟨x, ts, rfl, rfl, n3⟩
  · simp only
    cases o.allowStatic with
    | false => exact Runs.error _ _ _
    | true =>
      simp only [if_true]
      refine Runs.bindNew ?_
      intro z m2 k2 n
      exact Runs.pure ⟨n.before k1, .inl ⟨rfl, rfl⟩, fun _ h => nomatch h⟩
  · simp only [vectorsWithTs_unpack]
    refine Runs.bind (runs_angularRows ext n2.value n3.value o) ?_
    intro lin c m2 k2 n4
    refine Runs.bind (runs_withTs ext.squad hs (hm.trans (k1.trans k2)) a n4.value n4.known (.byObj rep) (ts := some x) (l := some ts)
      (by simp [(n3.keeps k2).value]) (fun y hy => by cases hy; exact (n3.keeps k2).known)) ?_
    rintro ⟨r', ts'⟩ ⟨c', l'⟩ m3 k3 ⟨n5, n6, n7⟩
    exact Runs.pure (returnH_new _ (n5.before (k1.trans k2)) (n6.before (k1.trans k2)) n7)

/-- The result of `lookup_twist`: new arrays. -/
def NewTwist (m : Mem) (x : HTwist) (y : TwistRet) (m' : Mem) : Prop :=
  match x, y with
  | .pair l a, .pair lv av => IsNew m l lv m' ∧ IsNew m a av m' ∧ l.buf ≠ a.buf
  | .triple l a ts, .triple lv av tl => IsNew m l lv m' ∧ IsNew m a av m' ∧ NewStamps m ts tl m' ∧ l.buf ≠ a.buf ∧ Apart l ts ∧ Apart a ts
  | _, _ => False

theorem runs_lookupTwist (ext : Ext) {s : HState} (hs : s.Sound) {m : Mem} (hm : Keeps s.mem m) (a : ℕ) (reference representIn : Option FrameRef)
    (o : VelArgs) :
    Runs (lookupTwistH ext s a reference representIn o) m (s.view.lookupTwist ext a reference representIn o) (NewTwist m) := by
  unfold lookupTwistH State.lookupTwist
  rw [resolveOr_view, resolveOr_view]
  refine Runs.bind (Runs.lift _ m) ?_
  rintro ref _ _ _ ⟨rfl, rfl⟩
  refine Runs.bind (Runs.lift _ _) ?_
  rintro rep _ m _ ⟨rfl, rfl⟩
  refine Runs.bind (runs_lookup ext.squad hs hm a (.byObj ref)) ?_
  rintro ⟨t, r, ts⟩ ⟨tv, rv, l⟩ m1 k1 ⟨n1, n2, n3, _⟩
  rcases n3 with ⟨rfl, rfl⟩ | ⟨x, ts, rfl, rfl, n3⟩
  · simp only
    cases o.allowStatic with
    | false => exact Runs.error _ _ _
    | true =>
      simp only [if_true]
      refine Runs.bindNew ?_
      intro z m2 k2 n
      refine Runs.bindNew ?_
      intro z' m3 k3 n'
      exact Runs.pure ⟨(n.keeps k3).before k1, n'.before (k1.trans k2), .inl ⟨rfl, rfl⟩, (n'.apart n.known).symm, (fun _ h => nomatch h), (fun _ h => nomatch h)⟩
  · simp only [vectorsWithTs_unpack]
    refine Runs.bind (runs_linearRows ext n1.value n3.value o) ?_
    intro lin c m2 k2 n4
    refine Runs.bind (runs_angularRows ext (n2.keeps k2).value (n3.keeps k2).value _) ?_
    intro ang d m3 k3 n5
    have kk := k1.trans (k2.trans k3)
    refine Runs.bind (runs_withTs ext.squad hs (hm.trans kk) ref (n4.keeps k3).value (n4.keeps k3).known (.byObj rep) (ts := some x) (l := some ts)
      (by simp [(n3.keeps (k2.trans k3)).value]) (fun y hy => by cases hy; exact (n3.keeps (k2.trans k3)).known)) ?_
    rintro ⟨lr, lts⟩ ⟨lc, ll⟩ m4 k4 ⟨n6, n7, _⟩
    refine Runs.bind (runs_withTs ext.squad hs (hm.trans (kk.trans k4)) a (n5.keeps k4).value (n5.keeps k4).known (.byObj rep) (ts := some x) (l := some ts)
      (by simp [(n3.keeps ((k2.trans k3).trans k4)).value]) (fun y hy => by cases hy; exact (n3.keeps ((k2.trans k3).trans k4)).known)) ?_
    rintro ⟨ar, ats⟩ ⟨ac, al⟩ m5 k5 ⟨n8, n9, _⟩
    have h6 := n6.keeps k5
    have h7 := n7.keeps k5
    have hkn : ∀ y ∈ [(⟨ar, ats⟩ : HMArray), ⟨lr, lts⟩], y.Known m5 := by
      intro y hy
      simp only [List.mem_cons, List.not_mem_nil, or_false] at hy
      rcases hy with rfl | rfl
      · exact ⟨n8.known, n9.known⟩
      · exact ⟨h6.known, h7.known⟩
    have hmt := (runs_matchArrays ext.squad (m0 := m) (m := m5) ((kk.trans k4).trans k5) [⟨ar, ats⟩, ⟨lr, lts⟩] hkn
      (by
        intro y hy
        simp only [List.mem_cons, List.not_mem_nil, or_false] at hy
        rcases hy with rfl | rfl
        · exact (n8.before (kk.trans k4)).fresh
        · exact (h6.before kk).fresh)).also (Q := fun x _ => x.1.Pairwise (fun r r' => r.buf ≠ r'.buf) ∧ ∀ r ∈ x.1, Apart r x.2) (by
        rintro ⟨rs, tts⟩ m' h
        exact matched_apart h hkn (by
          simp only [List.pairwise_cons, List.mem_cons, List.not_mem_nil, or_false, forall_eq, List.Pairwise.nil, and_true, false_imp_iff, implies_true]
          exact n8.apart n6.known))
    have er : [(⟨ar, ats⟩ : HMArray), ⟨lr, lts⟩].map (HMArray.read m5) = [⟨ac, al⟩, ⟨lc, ll⟩] := by
      simp only [List.map_cons, List.map_nil, HMArray.read, n8.value, h6.value, n9.list, h7.list]
    rw [er] at hmt
    refine Runs.bind hmt ?_
    rintro ⟨rs, tts⟩ ⟨cs, tl⟩ m6 k6 ⟨⟨f1, f2⟩, g1, g2⟩
    simp only at f1 f2 g1 g2 ⊢
    rcases f1 with _ | ⟨e1, _ | ⟨e2, _ | ⟨e3, f1⟩⟩⟩
    · exact Runs.error _ _ _
    · exact Runs.error _ _ _
    · simp only
      cases o.returnTimestamps with
      | true => exact Runs.pure ⟨e2, e1, f2, ((List.pairwise_cons.mp g1).1 _ (by simp)).symm, g2 _ (by simp), g2 _ (by simp)⟩
      | false => exact Runs.pure ⟨e2, e1, ((List.pairwise_cons.mp g1).1 _ (by simp)).symm⟩
    · exact Runs.error _ _ _

end RBM.Heap
