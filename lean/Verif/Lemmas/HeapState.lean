import Verif.Lemmas.HeapOps

namespace RBM.Heap

open RBM

/-! ### frame objects -/

/-- The arrays of the object exist. -/
structure HFrame.Known (m : Mem) (f : HFrame) : Prop where
  pose : ∀ t r, f.pose = some (t, r) → t.buf < m.size ∧ r.buf < m.size
  timestamps : ∀ x, f.timestamps = some x → x.buf < m.size

theorem HFrame.Known.keeps {m m' : Mem} {f : HFrame} (h : f.Known m) (hk : Keeps m m') : f.Known m' ∧ f.read m' = f.read m := by
  refine ⟨⟨fun t r e => ⟨(h.pose t r e).1.trans_le hk.size, (h.pose t r e).2.trans_le hk.size⟩,
    fun x hx => (h.timestamps x hx).trans_le hk.size⟩, ?_⟩
  have : HasStamps m f.timestamps (f.timestamps.map fun r => stampList (m.read r)) := ⟨rfl, h.timestamps⟩
  have := (this.keeps hk).1
  simp only [HFrame.read, this]
  congr 1
  cases hp : f.pose with
  | none => rfl
  | some p =>
    obtain ⟨t, r⟩ := p
    simp [hk.read (h.pose t r hp).1, hk.read (h.pose t r hp).2]

/-- All frame objects refer to existing arrays. -/
def HState.Sound (s : HState) : Prop := ∀ i f, s.obj i = some f → f.Known s.mem

/-! ### the matcher -/

theorem runs_addFrame {s : HState} (hs : s.Sound) {m : Mem} (hm : Keeps s.mem m) {x : HMatcher} (hx : x.Known m) (i : ℕ) (inverse : Bool) :
    Runs (addFrameH s x i inverse) m (s.view.addFrame (x.read m) i inverse)
      (fun x' y m' => m' = m ∧ x'.Known m ∧ x'.read m = y ∧ x'.arrays = x.arrays) := by
  have hdata : s.view.data i = (s.obj i).map (HFrame.read s.mem) := rfl
  unfold State.addFrame
  rw [hdata]
  cases ho : s.obj i with
  | none =>
    refine Runs.congr (p' := lift (.error .attributeError)) (Runs.error _ _ _) ?_ rfl
    simp only [addFrameH, ho, lift]
  | some f =>
    have hf := (hs i f ho).keeps hm
    simp only [Option.map_some]
    rw [← hf.2]
    cases hp : f.pose with
    | none =>
      have : (f.read m).pose = none := by simp [HFrame.read, hp]
      simp only [this]
      refine Runs.congr (p' := lift (.error .attributeError)) (Runs.error _ _ _) ?_ rfl
      simp only [addFrameH, ho, hp, lift]
    | some p =>
      obtain ⟨t, r⟩ := p
      have : (f.read m).pose = some (vecsOf (m.read t), quatsOf (m.read r)) := by simp [HFrame.read, hp]
      simp only [this, Matcher.addFrame]
      have e2 : (f.read m).timestamps = f.timestamps.map fun r => stampList (m.read r) := rfl
      rw [e2]
      cases hc : checkTimestamps (f.timestamps.map fun r => stampList (m.read r)) (firstLen (vecsOf (m.read t))) with
      | error e =>
        refine Runs.congr (p' := lift (.error e)) (Runs.error _ _ _) ?_ rfl
        simp only [addFrameH, ho, hp, hc, lift]
      | ok u =>
        refine Runs.congr (p' := Pure.pure { x with frames := x.frames ++ [⟨t, r, f.timestamps, f.discrete, inverse⟩] })
          (Runs.pure ⟨rfl, ⟨?_, hx.arrays⟩, ?_, rfl⟩) ?_ rfl
        · intro g hg
          rcases List.mem_append.mp hg with hg | hg
          · exact hx.frames g hg
          · simp only [List.mem_singleton] at hg
            subst hg
            exact ⟨(hf.1.pose t r hp).1, (hf.1.pose t r hp).2, hf.1.timestamps⟩
        · simp only [HMatcher.read, List.map_append, List.map_cons, List.map_nil]
          rfl
        · simp only [addFrameH, ho, hp, hc]
          rfl

theorem runs_addFrames {s : HState} (hs : s.Sound) {m : Mem} (hm : Keeps s.mem m) (inverse : Bool) (is : List ℕ) {x : HMatcher} (hx : x.Known m) :
    Runs (addFramesH s inverse is x) m (s.view.addFrames inverse is (x.read m))
      (fun x' y m' => m' = m ∧ x'.Known m ∧ x'.read m = y ∧ x'.arrays = x.arrays) := by
  induction is generalizing x with
  | nil => exact Runs.pure ⟨rfl, hx, rfl, rfl⟩
  | cons i is ih =>
    have e : s.view.addFrames inverse (i :: is) (x.read m) = (s.view.addFrame (x.read m) i inverse).bind fun y => s.view.addFrames inverse is y := by
      simp only [State.addFrames]
      cases s.view.addFrame (x.read m) i inverse <;> rfl
    rw [e]
    refine Runs.bind (runs_addFrame hs hm hx i inverse) ?_
    rintro x' y _ _ ⟨rfl, h1, rfl, h3⟩
    exact (ih h1).mono fun a b m' _ h => ⟨h.1, h.2.1, h.2.2.1, h.2.2.2.trans h3⟩

theorem runs_addArray {m : Mem} {x : HMatcher} (hx : x.Known m) {a : HMArray} (ha : a.Known m) :
    Runs (addArrayH x a) m ((x.read m).addArray (a.read m))
      (fun x' y m' => m' = m ∧ x'.Known m ∧ x'.read m = y ∧ x'.arrays = x.arrays ++ [a]) := by
  have hsh : (a.read m).data.shape = a.data.shape := rfl
  have hts : (a.read m).timestamps = a.timestamps.map fun r => stampList (m.read r) := rfl
  unfold Matcher.addArray
  rw [hts, hsh]
  have hr : ∀ x', x' = ({ x with arrays := x.arrays ++ [a] } : HMatcher) → (x'.Known m ∧ x'.read m = { x.read m with arrays := (x.read m).arrays ++ [a.read m] } ∧ x'.arrays = x.arrays ++ [a]) := by
    rintro _ rfl
    refine ⟨⟨hx.frames, fun g hg => ?_⟩, ?_, rfl⟩
    · rcases List.mem_append.mp hg with hg | hg
      · exact hx.arrays g hg
      · simp only [List.mem_singleton] at hg
        subst hg
        exact ha
    · simp only [HMatcher.read, List.map_append, List.map_cons, List.map_nil]
  cases hT : a.timestamps.map fun r => stampList (m.read r) with
  | none =>
    refine Runs.congr (p' := Pure.pure { x with arrays := x.arrays ++ [a] }) (Runs.pure ⟨rfl, hr _ rfl⟩) ?_ rfl
    simp only [addArrayH, hT]
    rfl
  | some ts =>
    cases hS : a.data.shape with
    | nil =>
      refine Runs.congr (p' := lift (.error .indexError)) (Runs.error _ _ _) ?_ rfl
      simp only [addArrayH, hT, hS, lift]
    | cons n rest =>
      simp only
      cases hc : checkTimestamps (some ts) n with
      | error e =>
        refine Runs.congr (p' := lift (.error e)) (Runs.error _ _ _) ?_ rfl
        simp only [addArrayH, hT, hS, hc, lift]
      | ok u =>
        refine Runs.congr (p' := Pure.pure { x with arrays := x.arrays ++ [a] }) (Runs.pure ⟨rfl, hr _ rfl⟩) ?_ rfl
        simp only [addArrayH, hT, hS, hc]
        rfl

theorem runs_addArrays {m : Mem} (as : List HMArray) (ha : ∀ a ∈ as, a.Known m) {x : HMatcher} (hx : x.Known m) :
    Runs (addArraysH as x) m (addArrays (as.map (HMArray.read m)) (x.read m))
      (fun x' y m' => m' = m ∧ x'.Known m ∧ x'.read m = y ∧ x'.arrays = x.arrays ++ as) := by
  induction as generalizing x with
  | nil => exact Runs.pure ⟨rfl, hx, rfl, by simp⟩
  | cons a as ih =>
    have e : addArrays ((a :: as).map (HMArray.read m)) (x.read m) = ((x.read m).addArray (a.read m)).bind fun y => addArrays (as.map (HMArray.read m)) y := by
      simp only [List.map_cons, addArrays]
      cases (x.read m).addArray (a.read m) <;> rfl
    rw [e]
    refine Runs.bind (runs_addArray hx (ha a (by simp))) ?_
    rintro x' y _ _ ⟨rfl, h1, rfl, h3⟩
    exact (ih (fun a h => ha a (by simp [h])) h1).mono fun a b m' _ h => ⟨h.1, h.2.1, h.2.2.1, by rw [h.2.2.2, h3]; simp⟩

theorem runs_getMatcher {s : HState} (hs : s.Sound) {m : Mem} (hm : Keeps s.mem m) (a : ℕ) (dst : FrameRef) (as : List HMArray)
    (ha : ∀ a ∈ as, a.Known m) :
    Runs (getMatcherH s a dst as) m (s.view.getMatcher a dst (as.map (HMArray.read m)))
      (fun x y m' => m' = m ∧ x.Known m ∧ x.read m = y ∧ x.arrays = as) := by
  have hw : s.view.walk a dst = s.st.walk a dst := by
    simp only [State.walk]
    have : s.view.resolve dst = s.st.resolve dst := by cases dst <;> rfl
    rw [this]
    rfl
  have h0 : ∀ m, (⟨[], []⟩ : HMatcher).Known m := fun m => ⟨by simp, by simp⟩
  unfold getMatcherH State.getMatcher
  rw [hw]
  refine Runs.bind (Runs.lift (s.st.walk a dst) m) ?_
  rintro ⟨up, down⟩ _ _ _ ⟨rfl, rfl⟩
  refine Runs.bind (runs_addFrames hs hm false up (h0 _)) ?_
  rintro x1 y _ _ ⟨rfl, h1, rfl, h3⟩
  refine Runs.bind (runs_addFrames hs hm true down h1) ?_
  rintro x2 y _ _ ⟨rfl, h4, rfl, h6⟩
  refine (runs_addArrays as ha h4).mono fun x y m' _ h => ⟨h.1, h.2.1, h.2.2.1, ?_⟩
  rw [h.2.2.2, h6, h3]
  simp

theorem runs_lookup (sq : SquadFn) {s : HState} (hs : s.Sound) {m : Mem} (hm : Keeps s.mem m) (a : ℕ) (dst : FrameRef) :
    Runs (lookupTransformH sq s a dst) m (s.view.lookupTransform sq a dst) (NewTransform m) := by
  unfold lookupTransformH State.lookupTransform
  refine Runs.bind (runs_getMatcher hs hm a dst [] (by simp)) ?_
  rintro x y _ _ ⟨rfl, h1, rfl, _⟩
  exact runs_getTransformation sq h1

/-! ### arrays -/

/-- The values of the keyword arguments. -/
def HTArgs.read (m : Mem) (o : HTArgs) : TArgs :=
  ⟨o.axis, o.timeAxis, o.timestamps.map (ArrayLike.read m), o.returnTimestamps⟩

theorem runs_resample (sq : SquadFn) {a : HMArray} {m : Mem} (ha : a.Known m) (ts : Option (List ℝ)) :
    Runs (resampleArrayH sq a ts) m (resampleArray sq (a.read m) ts) (fun r c m' => m'.read r = c ∧ r.buf < m'.size) := by
  have hnew : Runs (do let c ← lift (resampleArray sq (a.read m) ts); new c) m (resampleArray sq (a.read m) ts)
      (fun r c m' => m'.read r = c ∧ r.buf < m'.size) := by
    have e : resampleArray sq (a.read m) ts = (resampleArray sq (a.read m) ts).bind fun c => .ok c := by
      cases resampleArray sq (a.read m) ts <;> rfl
    conv => arg 3; rw [e]
    refine Runs.bind (Runs.lift _ m) ?_
    rintro c _ _ _ ⟨rfl, rfl⟩
    exact (Runs.new c _).mono fun r c m' _ h => ⟨h.value, h.known⟩
  cases hT : a.timestamps with
  | none =>
    cases ts with
    | none =>
      refine Runs.congr (p' := Pure.pure a.data) (v' := .ok (m.read a.data)) (Runs.pure ⟨rfl, ha.data⟩) ?_ ?_
      · simp only [resampleArrayH, hT]; rfl
      · have : (a.read m).timestamps = none := by simp [HMArray.read, hT]
        simp only [resampleArray, this]
        rfl
    | some ts =>
      refine Runs.congr hnew ?_ rfl
      simp only [resampleArrayH, hT]
  | some x =>
    refine Runs.congr hnew ?_ rfl
    simp only [resampleArrayH, hT]

theorem NewStamps.has {m m' : Mem} {r : Option NdRef} {l : Option (List ℝ)} (h : NewStamps m r l m') : HasStamps m' r l := by
  refine ⟨h.list, fun x hx => ?_⟩
  rcases h with ⟨rfl, rfl⟩ | ⟨y, ts, rfl, rfl, h3⟩
  · cases hx
  · cases hx; exact h3.known

theorem getArray1_one (sq : SquadFn) (fs : List MFrame) (a : MArray) (ts : Option (List ℝ)) :
    (⟨fs, [a]⟩ : Matcher).getArray1 sq ts = (match ts with
      | none => (⟨fs, [a]⟩ : Matcher).getTimestamps true
      | some ts => .ok (some ts)).bind fun l => resampleArray sq a l := by
  have key : ∀ l, (do
      let arrs ← collect ([a].map fun a => resampleArray sq a l)
      match arrs with
        | [a] => Except.ok a
        | _ => Except.error PyErr.valueError : Res (ND ℝ)) = resampleArray sq a l := by
    intro l
    simp only [List.map_cons, List.map_nil, collect]
    cases resampleArray sq a l <;> rfl
  have key2 : ∀ z : Res (Option (List ℝ)), (do
      let l ← z
      let arrs ← collect ([a].map fun a => resampleArray sq a l)
      match arrs with
        | [a] => Except.ok a
        | _ => Except.error PyErr.valueError : Res (ND ℝ)) = z.bind fun l => resampleArray sq a l := by
    intro z
    cases z with
    | error e => rfl
    | ok l => exact key l
  refine Eq.trans ?_ (key2 _)
  simp only [Matcher.getArray1, Matcher.getArrays]
  cases ts with
  | none =>
    simp only
    cases (⟨fs, [a]⟩ : Matcher).getTimestamps true with
    | error e => rfl
    | ok l =>
      simp only [bind, Except.bind]
      cases collect ([a].map fun a => resampleArray sq a l) <;> rfl
  | some l =>
    simp only [bind, Except.bind, Pure.pure, Except.pure]
    cases collect ([a].map fun a => resampleArray sq a (some l)) <;> rfl

theorem runs_getArray1 (sq : SquadFn) {x : HMatcher} {m : Mem} (hx : x.Known m) {a : HMArray} (ha : x.arrays = [a]) {ts : Option NdRef}
    {l : Option (List ℝ)} (hts : HasStamps m ts l) :
    Runs (getArray1H sq x ts) m ((x.read m).getArray1 sq l) (fun r c m' => m'.read r = c ∧ r.buf < m'.size) := by
  have ex : x.read m = ⟨x.frames.map (HMFrame.read m), [a.read m]⟩ := by simp [HMatcher.read, ha]
  have hka : a.Known m := hx.arrays a (by simp [ha])
  rw [ex, getArray1_one, ← ex]
  simp only [getArray1H, ha]
  have hrest : ∀ (r : Option NdRef) (l' : Option (List ℝ)) (m1 : Mem), Keeps m m1 → HasStamps m1 r l' →
      Runs (fun m => resampleArrayH sq a (r.map fun r => stampList (m.read r)) m) m1 (resampleArray sq (a.read m) l')
        (fun r c m' => m'.read r = c ∧ r.buf < m'.size) := by
    intro r l' m1 k1 h2
    have h3 := hka.keeps k1
    rw [← h3.2]
    refine Runs.congr (p' := resampleArrayH sq a l') (runs_resample sq h3.1 l') ?_ rfl
    rw [h2.1]
  cases ts with
  | none =>
    have : l = none := by rw [← hts.1]; rfl
    subst this
    refine Runs.bind (runs_getTimestamps x m) ?_
    intro r l' m1 k1 h
    exact hrest r l' m1 k1 h.has
  | some r =>
    have : l = some (stampList (m.read r)) := by rw [← hts.1]; rfl
    subst this
    refine Runs.step rfl ?_
    exact hrest _ _ m (.refl m) hts

theorem Runs.bindAs {γ : Type} {δ : Type _} {a : ArrayLike} {f : NdRef → HP γ} {m : Mem} {w : Res δ} {S : γ → δ → Mem → Prop} (ha : a.Known m)
    (h : ∀ r m', Keeps m m' → m'.read r = a.read m → r.buf < m'.size → Runs (f r) m' w S) : Runs (Heap.asarray a >>= f) m w S := by
  cases a with
  | array r => exact Runs.step rfl (h r m (.refl m) rfl ha)
  | nested c => exact Runs.bindNew fun r m' hk hn => h r m' hk hn.value hn.known

theorem runs_validate {arr : ArrayLike} {m : Mem} (ha : arr.Known m) {tss : Option ArrayLike} (ht : ∀ x, tss = some x → x.Known m)
    (axis : ℤ) (n : ℕ) (ta : Option ℤ) :
    Runs (validateInputH arr axis n tss ta) m (validateInput (arr.read m) axis n (tss.map (ArrayLike.read m)) ta)
      (fun x y m' => x.Known m' ∧ x.read m' = ⟨y.1, y.2⟩) := by
  unfold validateInputH
  refine Runs.bindAs ha ?_
  intro r m1 k1 h1 h2
  have hsh : (arr.read m).shape = r.shape := by rw [← h1]; rfl
  unfold validateInput
  rw [hsh]
  refine Runs.bind (Runs.lift (pyShape r.shape axis) m1) ?_
  rintro k _ _ _ ⟨rfl, rfl⟩
  by_cases hk : k ≠ n
  · simp only [if_pos hk]; exact Runs.error _ _ _
  simp only [if_neg hk]
  cases tss with
  | none => exact Runs.pure ⟨⟨h2, by simp⟩, by simp [HMArray.read, h1]⟩
  | some tsa =>
    simp only [Option.map_some]
    have e3 := (ht tsa rfl).keeps k1
    refine Runs.bindAs e3.1 ?_
    intro t m2 k2 t1 t2
    rw [e3.2] at t1
    have hts : (tsa.read m).shape = t.shape := by rw [← t1]; rfl
    rw [hts]
    rcases hr : t.shape with _ | ⟨len, _ | ⟨n', rest⟩⟩
    · exact Runs.error _ _ _
    · cases ta with
      | none => exact Runs.error _ _ _
      | some ta =>
        refine Runs.bind (Runs.lift (pyShape r.shape ta) m2) ?_
        rintro l _ m2 _ ⟨rfl, rfl⟩
        by_cases hl : l ≠ len
        · simp only [if_pos hl]; exact Runs.error _ _ _
        simp only [if_neg hl]
        rw [← h1, ← k2.read h2]
        refine Runs.bind (Runs.swapRef r 0 ta m2) ?_
        rintro r' c _ _ ⟨rfl, b1, rfl⟩
        refine Runs.pure ⟨⟨by rw [b1]; exact h2.trans_le k2.size, fun x hx => by cases hx; exact t2⟩, ?_⟩
        simp only [HMArray.read, Option.map_some, stampList, hr, ← t1]
        congr 2
        simp [Mem.read, hr]
    · exact Runs.error _ _ _

/-- What a transform function returns: new arrays. -/
def NewRet (m : Mem) (x : HRet) (y : PyRet) (m' : Mem) : Prop :=
  match x, y with
  | .single a, .single c => IsNew m a c m'
  | .withTs a ts, .withTs c l => IsNew m a c m' ∧ NewStamps m ts l m' ∧ Apart a ts
  | _, _ => False

theorem IsNew.swap {m m' : Mem} {r r' : NdRef} {c c' : ND ℝ} (h : IsNew m r c m') (hb : r'.buf = r.buf) (hv : m'.read r' = c') : IsNew m r' c' m' :=
  ⟨hv, by rw [hb]; exact h.fresh, by rw [hb]; exact h.known⟩

theorem runs_finish (o : HTArgs) {m0 m : Mem} {arr : NdRef} {c : ND ℝ} (ha : IsNew m0 arr c m) {ts : Option NdRef} {l : Option (List ℝ)}
    (ht : NewStamps m0 ts l m) (hap : Apart arr ts) :
    Runs (finishH o arr ts) m ((undoTimeSwap c o.timeAxis).bind fun a => .ok (pyReturn o.returnTimestamps a l)) (NewRet m0) := by
  unfold finishH
  have h1 : Runs (match o.timeAxis with
      | none => Pure.pure arr
      | some ta => swapRef arr 0 ta) m (undoTimeSwap c o.timeAxis) (fun r d m' => m' = m ∧ IsNew m0 r d m ∧ Apart r ts) := by
    unfold undoTimeSwap
    cases o.timeAxis with
    | none => exact Runs.pure ⟨rfl, ha, hap⟩
    | some ta =>
      simp only
      rw [← ha.value]
      exact (Runs.swapRef arr 0 ta m).mono fun r d m' _ h => ⟨h.1, ha.swap h.2.1 h.2.2, fun x hx => by rw [h.2.1]; exact hap x hx⟩
  have h2 := Runs.bind (g := fun a => .ok (pyReturn o.returnTimestamps a l)) (S := NewRet m0)
    (f := fun arr => Pure.pure (if !o.returnTimestamps then HRet.single arr else .withTs arr ts)) h1 (by
      rintro r d _ _ ⟨rfl, h, h'⟩
      refine Runs.pure ?_
      unfold pyReturn
      cases o.returnTimestamps with
      | false => exact h
      | true => exact ⟨h, ht, h'⟩)
  cases hta : o.timeAxis with
  | none => rw [hta] at h2; exact h2
  | some ta => rw [hta] at h2; exact h2

end RBM.Heap
