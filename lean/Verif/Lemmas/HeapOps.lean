import Verif.Lemmas.HeapFrames

namespace RBM.Heap

open RBM

theorem Runs.congr {α : Type} {β : Type _} {p p' : HP α} {m : Mem} {v v' : Res β} {R : α → β → Mem → Prop} (h : Runs p' m v' R)
    (e : p m = p' m) (ev : v = v') : Runs p m v R := by
  subst ev
  obtain ⟨m', hk, h⟩ := h
  exact ⟨m', hk, by rw [e]; exact h⟩

/-! ### one frame -/

/-- The arrays of the frame exist. -/
structure HMFrame.Known (m : Mem) (f : HMFrame) : Prop where
  translation : f.translation.buf < m.size
  rotation : f.rotation.buf < m.size
  timestamps : ∀ x, f.timestamps = some x → x.buf < m.size

theorem HMFrame.Known.keeps {m m' : Mem} {f : HMFrame} (h : f.Known m) (hk : Keeps m m') : f.Known m' ∧ f.read m' = f.read m := by
  refine ⟨⟨h.translation.trans_le hk.size, h.rotation.trans_le hk.size, fun x hx => (h.timestamps x hx).trans_le hk.size⟩, ?_⟩
  have : HasStamps m f.timestamps (f.timestamps.map fun r => stampList (m.read r)) := ⟨rfl, h.timestamps⟩
  have := (this.keeps hk).1
  simp only [HMFrame.read, hk.read h.translation, hk.read h.rotation, this]

theorem runs_transformFromFrame (sq : SquadFn) {f : HMFrame} {m : Mem} (h : f.Known m) (ts : Option (List ℝ)) :
    Runs (transformFromFrameH sq f ts) m (transformFromFrame sq (f.read m) ts)
      (fun x y m' => HasVecs m' x.1 y.1 ∧ HasQuats m' x.2 y.2) := by
  have hv : HasVecs m f.translation (f.read m).translation := ⟨rfl, h.translation⟩
  have hq : HasQuats m f.rotation (f.read m).rotation := ⟨rfl, h.rotation⟩
  have hd : (f.read m).discrete = f.discrete := rfl
  unfold transformFromFrame
  generalize hx : f.read m = x at *
  cases hts : x.timestamps with
  | none =>
    cases ts with
    | none =>
      refine Runs.congr (p' := Pure.pure (f.translation, f.rotation)) (Runs.pure (x := (x.translation, x.rotation)) ⟨hv, hq⟩) ?_ rfl
      simp only [transformFromFrameH, hx, hts]
    | some ts =>
      refine Runs.congr (p' := do
        let t ← new (ND.ofVecs (.many (tileRows ts.length x.translation)))
        let r ← new (ND.ofQuats (.many (tileRows ts.length x.rotation)))
        pure (t, r)) (v' := .ok (.many (tileRows ts.length x.translation), .many (tileRows ts.length x.rotation))) ?_ ?_ rfl
      · refine Runs.bindNew ?_
        intro t m1 k1 n1
        refine Runs.bindNew ?_
        intro r m2 k2 n2
        exact Runs.pure ⟨⟨by rw [(n1.keeps k2).value, vecsOf_ofVecs], (n1.keeps k2).known⟩, by rw [n2.value, quatsOf_ofQuats], n2.known⟩
      · simp only [transformFromFrameH, hx, hts]
  | some fts =>
    cases ts with
    | none =>
      refine Runs.congr (p' := lift (.error .valueError)) (Runs.error _ _ _) ?_ rfl
      simp only [transformFromFrameH, hx, hts]
    | some ts =>
      cases htr : x.translation with
      | one v =>
        refine Runs.congr (p' := lift (.error .valueError)) (Runs.error _ _ _) ?_ rfl
        simp only [transformFromFrameH, hx, hts, htr]
      | many tr =>
        cases hro : x.rotation with
        | one v =>
          refine Runs.congr (p' := lift (.error .valueError)) (Runs.error _ _ _) ?_ rfl
          simp only [transformFromFrameH, hx, hts, htr, hro]
        | many ro =>
          simp only [hd]
          cases hdd : f.discrete with
          | true =>
            refine Runs.congr (p' := do
              let t ← discreteV tr fts ts
              let r ← discreteQ ro fts ts
              pure (t, r)) (v' := (discreteRows tr fts ts).bind fun t => (discreteRows ro fts ts).bind fun r => .ok (.many t, .many r)) ?_ ?_ ?_
            · refine Runs.bind (runs_discreteV tr fts ts m) ?_
              rintro t v m1 k1 ⟨t1, _⟩
              refine Runs.bind (runs_discreteQ ro fts ts m1) ?_
              rintro r q m2 k2 ⟨r1, _⟩
              exact Runs.pure ⟨t1.keeps k2, r1⟩
            · simp only [transformFromFrameH, hx, hts, htr, hro, hdd, if_true]
            · simp only [if_true]
              cases discreteRows tr fts ts with
              | error e => rfl
              | ok t => cases discreteRows ro fts ts <;> rfl
          | false =>
            refine Runs.congr (p' := do
              let tv ← lift (interp1d fts tr ts)
              let t ← new (ND.ofVecs (.many tv))
              let rv ← lift (squad sq ro fts ts)
              let r ← new (ND.ofQuats (.many rv))
              pure (t, r)) (v' := (interp1d fts tr ts).bind fun t => (squad sq ro fts ts).bind fun r => .ok (.many t, .many r)) ?_ ?_ ?_
            · refine Runs.bind (Runs.lift (interp1d fts tr ts) m) ?_
              rintro tv _ _ k1 ⟨rfl, rfl⟩
              refine Runs.bindNew ?_
              intro t m1 k1 n1
              refine Runs.bind (Runs.lift (squad sq ro fts ts) m1) ?_
              rintro rv _ _ k2 ⟨rfl, rfl⟩
              refine Runs.bindNew ?_
              intro r m2 k2 n2
              exact Runs.pure ⟨⟨by rw [(n1.keeps k2).value, vecsOf_ofVecs], (n1.keeps k2).known⟩, by rw [n2.value, quatsOf_ofQuats], n2.known⟩
            · simp only [transformFromFrameH, hx, hts, htr, hro, hdd, Bool.false_eq_true, if_false]
            · simp only [Bool.false_eq_true, if_false]
              cases interp1d fts tr ts with
              | error e => rfl
              | ok t => cases squad sq ro fts ts <;> rfl

/-! ### the chain -/

theorem transLoop_cons (sq : SquadFn) (ts : Option (List ℝ)) (f : MFrame) (fs : List MFrame) (acc : Arr Vec × Arr Quat) :
    transLoop sq ts (f :: fs) acc = (transformFromFrame sq f ts).bind fun tr =>
      (combineStep f.inverse acc tr).bind fun acc' => transLoop sq ts fs acc' := by
  simp only [transLoop, transStep]
  cases transformFromFrame sq f ts with
  | error e => rfl
  | ok tr =>
    obtain ⟨t, r⟩ := tr
    have key : ∀ z : Res (Arr Vec × Arr Quat), (match z with
        | Except.error e => Except.error e
        | Except.ok acc' => transLoop sq ts fs acc') = z.bind fun acc' => transLoop sq ts fs acc' := by
      intro z; cases z <;> rfl
    exact key (combineStep f.inverse acc (t, r))

theorem runs_transLoop (sq : SquadFn) (ts : Option (List ℝ)) {m0 : Mem} (fs : List HMFrame) {m : Mem} (h0 : Keeps m0 m)
    (hf : ∀ f ∈ fs, f.Known m) {acc : NdRef × NdRef} {v : Arr Vec × Arr Quat} (h1 : IsNew m0 acc.1 (ND.ofVecs v.1) m)
    (h2 : IsNew m0 acc.2 (ND.ofQuats v.2) m) (h3 : acc.1.buf ≠ acc.2.buf) :
    Runs (transLoopH sq ts fs acc) m (transLoop sq ts (fs.map (HMFrame.read m)) v)
      (fun x y m' => IsNew m0 x.1 (ND.ofVecs y.1) m' ∧ IsNew m0 x.2 (ND.ofQuats y.2) m' ∧ x.1.buf ≠ x.2.buf) := by
  induction fs generalizing m acc v with
  | nil => exact Runs.pure ⟨h1, h2, h3⟩
  | cons f fs ih =>
    rw [List.map_cons, transLoop_cons, transLoopH]
    refine Runs.bind (runs_transformFromFrame sq (hf f (by simp)) ts) ?_
    rintro ⟨t, r⟩ ⟨tv, rv⟩ m1 k1 ⟨t1, r1⟩
    refine Runs.step rfl (Runs.step rfl (Runs.step rfl (Runs.step rfl ?_)))
    rw [(h1.keeps k1).value, (h2.keeps k1).value, vecsOf_ofVecs, quatsOf_ofQuats, t1.1, r1.1]
    refine Runs.bind (Runs.lift (combineStep f.inverse (v.1, v.2) (tv, rv)) m1) ?_
    rintro p _ _ _ ⟨rfl, rfl⟩
    refine Runs.bindNew ?_
    intro t' m2 k2 n2
    refine Runs.bindNew ?_
    intro r' m3 k3 n3
    have kk := (k1.trans k2).trans k3
    have e : fs.map (HMFrame.read m) = fs.map (HMFrame.read m3) :=
      List.map_congr_left fun g hg => (((hf g (by simp [hg])).keeps kk).2).symm
    rw [e]
    exact ih (h0.trans kk) (fun g hg => ((hf g (by simp [hg])).keeps kk).1)
      ((n2.keeps k3).before (h0.trans k1)) (n3.before (h0.trans (k1.trans k2))) (n3.apart n2.known).symm

/-! ### `get_transformation` -/

/-- Optional new timestamps. -/
def NewStamps (m : Mem) (r : Option NdRef) (l : Option (List ℝ)) (m' : Mem) : Prop :=
  (r = none ∧ l = none) ∨ ∃ x ts, r = some x ∧ l = some ts ∧ IsNew m x (stampArray ts) m'

/-- An array and timestamps that share no memory. -/
def Apart (r : NdRef) (ts : Option NdRef) : Prop := ∀ x, ts = some x → x.buf ≠ r.buf

theorem NewStamps.apart {m m' : Mem} {ts : Option NdRef} {l : Option (List ℝ)} (h : NewStamps m ts l m') {r : NdRef} (hr : m'.size ≤ r.buf) : Apart r ts := by
  rintro x rfl
  rcases h with ⟨h, _⟩ | ⟨y, l', h1, _, h3⟩
  · cases h
  · cases h1
    have := h3.known
    omega

theorem NewStamps.keeps {m m' m'' : Mem} {r : Option NdRef} {l : Option (List ℝ)} (h : NewStamps m r l m') (hk : Keeps m' m'') :
    NewStamps m r l m'' := by
  rcases h with h | ⟨x, ts, h1, h2, h3⟩
  · exact .inl h
  · exact .inr ⟨x, ts, h1, h2, h3.keeps hk⟩

theorem NewStamps.before {m0 m m' : Mem} {r : Option NdRef} {l : Option (List ℝ)} (h : NewStamps m r l m') (hk : Keeps m0 m) :
    NewStamps m0 r l m' := by
  rcases h with h | ⟨x, ts, h1, h2, h3⟩
  · exact .inl h
  · exact .inr ⟨x, ts, h1, h2, h3.before hk⟩

theorem NewStamps.list {m m' : Mem} {r : Option NdRef} {l : Option (List ℝ)} (h : NewStamps m r l m') :
    (r.map fun r => stampList (m'.read r)) = l := by
  rcases h with ⟨rfl, rfl⟩ | ⟨x, ts, rfl, rfl, h3⟩
  · rfl
  · simp [h3.value, stampList_stampArray]

/-- The arrays in the matcher exist. -/
structure HMArray.Known (m : Mem) (a : HMArray) : Prop where
  data : a.data.buf < m.size
  timestamps : ∀ x, a.timestamps = some x → x.buf < m.size

theorem HMArray.Known.keeps {m m' : Mem} {a : HMArray} (h : a.Known m) (hk : Keeps m m') : a.Known m' ∧ a.read m' = a.read m := by
  refine ⟨⟨h.data.trans_le hk.size, fun x hx => (h.timestamps x hx).trans_le hk.size⟩, ?_⟩
  have : HasStamps m a.timestamps (a.timestamps.map fun r => stampList (m.read r)) := ⟨rfl, h.timestamps⟩
  have := (this.keeps hk).1
  simp only [HMArray.read, hk.read h.data, this]

/-- Everything in the matcher exists. -/
structure HMatcher.Known (m : Mem) (x : HMatcher) : Prop where
  frames : ∀ f ∈ x.frames, f.Known m
  arrays : ∀ a ∈ x.arrays, a.Known m

theorem HMatcher.Known.keeps {m m' : Mem} {x : HMatcher} (h : x.Known m) (hk : Keeps m m') : x.Known m' ∧ x.read m' = x.read m := by
  refine ⟨⟨fun f hf => ((h.frames f hf).keeps hk).1, fun f hf => ((h.arrays f hf).keeps hk).1⟩, ?_⟩
  simp only [HMatcher.read]
  congr 1
  · exact List.map_congr_left fun f hf => ((h.frames f hf).keeps hk).2
  · exact List.map_congr_left fun f hf => ((h.arrays f hf).keeps hk).2

theorem runs_getTimestamps (x : HMatcher) (m : Mem) :
    Runs (getTimestampsH x) m ((x.read m).getTimestamps true) (fun r l m' => NewStamps m r l m') := by
  cases h : (x.read m).getTimestamps true with
  | error e =>
    refine Runs.congr (p' := lift (.error e)) (Runs.error _ _ _) ?_ rfl
    simp only [getTimestampsH, h, lift]
  | ok o =>
    cases o with
    | none =>
      refine Runs.congr (p' := Pure.pure none) (Runs.pure (.inl ⟨rfl, rfl⟩)) ?_ rfl
      simp only [getTimestampsH, h]; rfl
    | some ts =>
      refine Runs.congr (p' := do let r ← new (stampArray ts); pure (some r)) (v' := .ok (some ts)) ?_ ?_ rfl
      · refine Runs.bindNew ?_
        intro r m1 k1 n1
        exact Runs.pure (.inr ⟨r, ts, rfl, rfl, n1⟩)
      · simp only [getTimestampsH, h]

/-- The result of `get_transformation`: new arrays. -/
def NewTransform (m : Mem) (x : NdRef × NdRef × Option NdRef) (y : Arr Vec × Arr Quat × Option (List ℝ)) (m' : Mem) : Prop :=
  IsNew m x.1 (ND.ofVecs y.1) m' ∧ IsNew m x.2.1 (ND.ofQuats y.2.1) m' ∧ NewStamps m x.2.2 y.2.2 m' ∧ x.1.buf ≠ x.2.1.buf ∧
    Apart x.1 x.2.2 ∧ Apart x.2.1 x.2.2

theorem runs_getTransformation (sq : SquadFn) {x : HMatcher} {m : Mem} (h : x.Known m) :
    Runs (getTransformationH sq x) m ((x.read m).getTransformation sq) (NewTransform m) := by
  unfold getTransformationH Matcher.getTransformation
  refine Runs.bind (runs_getTimestamps x m) ?_
  intro r l m1 k1 n1
  refine Runs.step rfl ?_
  rw [n1.list]
  refine Runs.bindNew ?_
  intro t0 m2 k2 n2
  refine Runs.bindNew ?_
  intro r0 m3 k3 n3
  have kk := (k1.trans k2).trans k3
  have hx := h.keeps kk
  have e : (x.read m).frames = x.frames.map (HMFrame.read m3) := by rw [← hx.2]; rfl
  rw [e]
  refine Runs.bind (runs_transLoop sq l (m0 := m1) x.frames (k2.trans k3) hx.1.frames (acc := (t0, r0)) (v := (initTranslation l, .one 1))
    (n2.keeps k3) (n3.before k2) (n3.apart n2.known).symm) ?_
  rintro ⟨t, r'⟩ ⟨tv, rv⟩ m4 k4 ⟨a1, a2, a3⟩
  exact Runs.pure ⟨a1.before k1, a2.before k1, (n1.keeps ((k2.trans k3).trans k4)), a3, n1.apart a1.fresh, n1.apart a2.fresh⟩

end RBM.Heap
