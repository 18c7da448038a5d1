import Verif.Lemmas.Heap

namespace RBM.Heap

open RBM

/-! ### `_init_arrays` -/

/-- The values of the arguments. -/
def HArgs.read (m : Mem) (a : HArgs) : FrameArgs :=
  ⟨a.translation.map (ArrayLike.read m), a.rotation.map (ArrayLike.read m), a.timestamps.map (ArrayLike.read m),
    a.inverse, a.discrete⟩

/-- The arguments exist. -/
structure HArgs.Known (m : Mem) (a : HArgs) : Prop where
  translation : ∀ x, a.translation = some x → x.Known m
  rotation : ∀ x, a.rotation = some x → x.Known m
  timestamps : ∀ x, a.timestamps = some x → x.Known m

theorem HArgs.Known.keeps {m m' : Mem} {a : HArgs} (h : a.Known m) (hk : Keeps m m') : a.Known m' ∧ a.read m' = a.read m := by
  refine ⟨⟨fun x hx => ((h.translation x hx).keeps hk).1, fun x hx => ((h.rotation x hx).keeps hk).1,
    fun x hx => ((h.timestamps x hx).keeps hk).1⟩, ?_⟩
  have key : ∀ o : Option ArrayLike, (∀ x, o = some x → x.Known m) → o.map (ArrayLike.read m') = o.map (ArrayLike.read m) := by
    intro o ho
    cases o with
    | none => rfl
    | some x => simp [((ho x rfl).keeps hk).2]
  simp only [HArgs.read, key _ h.translation, key _ h.rotation, key _ h.timestamps]

/-- Optional timestamps exist and have these values. -/
def HasStamps (m : Mem) (r : Option NdRef) (l : Option (List ℝ)) : Prop :=
  (r.map fun r => stampList (m.read r)) = l ∧ ∀ x, r = some x → x.buf < m.size

theorem HasStamps.keeps {m m' : Mem} {r : Option NdRef} {l : Option (List ℝ)} (h : HasStamps m r l) (hk : Keeps m m') :
    HasStamps m' r l := by
  refine ⟨?_, fun x hx => (h.2 x hx).trans_le hk.size⟩
  rw [← h.1]
  cases r with
  | none => rfl
  | some x => simp [hk.read (h.2 x rfl)]

/-- An array whose rows are these vectors. -/
def HasVecs (m : Mem) (r : NdRef) (v : Arr Vec) : Prop := vecsOf (m.read r) = v ∧ r.buf < m.size

/-- An array whose rows are these quaternions. -/
def HasQuats (m : Mem) (r : NdRef) (q : Arr Quat) : Prop := quatsOf (m.read r) = q ∧ r.buf < m.size

theorem HasVecs.keeps {m m' : Mem} {r : NdRef} {v : Arr Vec} (h : HasVecs m r v) (hk : Keeps m m') : HasVecs m' r v :=
  ⟨by rw [hk.read h.2]; exact h.1, h.2.trans_le hk.size⟩

theorem HasQuats.keeps {m m' : Mem} {r : NdRef} {v : Arr Quat} (h : HasQuats m r v) (hk : Keeps m m') : HasQuats m' r v :=
  ⟨by rw [hk.read h.2]; exact h.1, h.2.trans_le hk.size⟩

/-- One-dimensional timestamps with this number of entries. -/
def StampShape (ts : Option NdRef) (l : Option (List ℝ)) : Prop := ∀ k, rowShape ts k = match l with
  | none => [k]
  | some l => [l.length, k]

theorem runs_initTimestamps {a : Option ArrayLike} {m : Mem} (h : ∀ x, a = some x → x.Known m) :
    Runs (initTimestampsH a) m (initTimestamps (a.map (ArrayLike.read m)))
      (fun r l m' => HasStamps m' r l ∧ StampShape r l) := by
  cases a with
  | none => exact Runs.pure ⟨⟨rfl, by simp⟩, fun k => rfl⟩
  | some a =>
    simp only [initTimestampsH, Option.map_some]
    have := Runs.bind (g := fun c => initTimestamps (some c)) (S := fun r l m' => HasStamps m' r l ∧ StampShape r l)
      (f := fun r => match r.shape with
        | [_] => Pure.pure (some r)
        | _ => lift (.error .valueError)) (Runs.asarray (h a rfl)) (by
      rintro r c m' hk ⟨h1, h2⟩
      have hs : c.shape = r.shape := by rw [← h1]; rfl
      simp only [initTimestamps, hs]
      rcases hr : r.shape with _ | ⟨n, _ | ⟨n', rest⟩⟩
      · exact Runs.error _ _ _
      · refine Runs.pure ⟨⟨?_, fun x hx => by cases hx; exact h2⟩, fun k => ?_⟩
        · simp only [Option.map_some, stampList, h1, hs, hr, List.getD_cons_zero]
        · simp [rowShape, hr]
      · exact Runs.error _ _ _)
    exact this

theorem runs_initTranslation {ts : Option NdRef} {l : Option (List ℝ)} (hts : StampShape ts l) {a : Option ArrayLike} {m : Mem}
    (h : ∀ x, a = some x → x.Known m) :
    Runs (initTranslationH ts a) m (initTranslationArg l (a.map (ArrayLike.read m))) (fun r v m' => HasVecs m' r v) := by
  cases a with
  | none =>
    simp only [initTranslationH, Option.map_none, initTranslationArg]
    obtain ⟨m', hk, ⟨a, x, e, e2, e3⟩ | ⟨e, he, h2⟩⟩ := Runs.new ⟨rowShape ts 3, fun _ => 0⟩ m
    · cases e2
      refine ⟨m', hk, .inl ⟨a, _, e, rfl, ?_, e3.known⟩⟩
      rw [e3.value, hts]
      cases l with
      | none => rfl
      | some l =>
        simp only [vecsOf, vecRows]
        congr 1
        apply List.ext_getElem (by simp)
        intro k h1 h2
        simp only [List.getElem_map, List.getElem_replicate]
        rfl
    · simp at h2
  | some a =>
    simp only [initTranslationH, Option.map_some]
    refine Runs.bind (g := fun c => initTranslationArg l (some c)) (Runs.asarray (h a rfl)) ?_
    rintro r c m' hk ⟨h1, h2⟩
    have hs : c.shape = r.shape := by rw [← h1]; rfl
    rw [hts]
    cases l with
    | none =>
      simp only [initTranslationArg, hs]
      by_cases hr : r.shape = [3]
      · rw [if_pos hr, if_pos hr]
        refine Runs.pure ⟨?_, h2⟩
        rw [h1]
        simp only [vecsOf, hs, hr]
      · rw [if_neg hr, if_neg hr]; exact Runs.error _ _ _
    | some l =>
      simp only [initTranslationArg, hs]
      by_cases hr : r.shape = [l.length, 3]
      · rw [if_pos hr, if_pos hr]
        refine Runs.pure ⟨?_, h2⟩
        rw [h1]
        simp only [vecsOf, hs, hr]
      · rw [if_neg hr, if_neg hr]; exact Runs.error _ _ _

theorem runs_initRotation {ts : Option NdRef} {l : Option (List ℝ)} (hts : StampShape ts l) {a : Option ArrayLike} {m : Mem}
    (h : ∀ x, a = some x → x.Known m) :
    Runs (initRotationH ts a) m (initRotationArg l (a.map (ArrayLike.read m))) (fun r v m' => HasQuats m' r v) := by
  cases a with
  | none =>
    simp only [initRotationH, Option.map_none, initRotationArg]
    refine ⟨_, ?_, .inl ⟨⟨m.size, rowShape ts 4, id⟩, _, rfl, rfl, ?_, ?_⟩⟩
    · exact keeps_write (keeps_new _ _) (le_refl _) _
    · change quatsOf (((new ⟨rowShape ts 4, fun _ => 0⟩ m).2.write ⟨m.size, rowShape ts 4, id⟩ fun idx => if idx.getLast?.getD 0 = 0 then 1 else ((new ⟨rowShape ts 4, fun _ => 0⟩ m).2.read ⟨m.size, rowShape ts 4, id⟩).get idx).read ⟨m.size, rowShape ts 4, id⟩) = _
      generalize hm1 : (new ⟨rowShape ts 4, fun _ => 0⟩ m).2 = m1
      have hlt : m.size < m1.size := by rw [← hm1]; simp [new, Mem.size]
      have hr1 : m1.read ⟨m.size, rowShape ts 4, id⟩ = ⟨rowShape ts 4, fun _ => 0⟩ := by
        rw [← hm1]; exact read_new m _
      have hg := fun idx hv => write_whole (sh := rowShape ts 4) hlt
        (fun idx => if idx.getLast?.getD 0 = 0 then 1 else (m1.read ⟨m.size, rowShape ts 4, id⟩).get idx) (idx := idx) hv
      rw [hr1] at hg
      rw [hr1]
      generalize hx : (m1.write ⟨m.size, rowShape ts 4, id⟩ fun idx => if idx.getLast?.getD 0 = 0 then 1 else (⟨rowShape ts 4, fun _ => 0⟩ : ND ℝ).get idx).read ⟨m.size, rowShape ts 4, id⟩ = x at hg ⊢
      have hsx : x.shape = rowShape ts 4 := by rw [← hx]; rfl
      rw [hts] at hg hsx
      clear hx
      cases l with
      | none =>
        simp only at hsx hg
        simp only [quatsOf, hsx]
        rw [hg [0] ⟨by norm_num, trivial⟩, hg [1] ⟨by norm_num, trivial⟩, hg [2] ⟨by norm_num, trivial⟩, hg [3] ⟨by norm_num, trivial⟩]
        simp only [List.getLast?_singleton, Option.getD_some, if_true]
        congr 1
      | some l =>
        simp only at hsx hg
        simp only [quatsOf, hsx]
        congr 1
        rw [quatRows_eq]
        apply List.ext_getElem (by simp)
        intro k h1 h2
        rw [List.getElem_map, List.getElem_range, List.getElem_replicate]
        have hk : k < l.length := by simpa using h1
        unfold qrow
        rw [hg [k, 0] ⟨hk, by norm_num, trivial⟩, hg [k, 1] ⟨hk, by norm_num, trivial⟩, hg [k, 2] ⟨hk, by norm_num, trivial⟩, hg [k, 3] ⟨hk, by norm_num, trivial⟩]
        rfl
    · rw [write_size]; simp [new, Mem.size]
  | some a =>
    simp only [initRotationH, Option.map_some]
    refine Runs.bind (g := fun c => initRotationArg l (some c)) (Runs.asarray (h a rfl)) ?_
    rintro r c m' hk ⟨h1, h2⟩
    have hs : c.shape = r.shape := by rw [← h1]; rfl
    rw [hts]
    cases l with
    | none =>
      simp only [initRotationArg, hs]
      by_cases hr : r.shape = [4]
      · rw [if_pos hr, if_pos hr]
        refine Runs.pure ⟨?_, h2⟩
        rw [h1]
        simp only [quatsOf, hs, hr]
      · rw [if_neg hr, if_neg hr]; exact Runs.error _ _ _
    | some l =>
      simp only [initRotationArg, hs]
      by_cases hr : r.shape = [l.length, 4]
      · rw [if_pos hr, if_pos hr]
        refine Runs.pure ⟨?_, h2⟩
        rw [h1]
        simp only [quatsOf, hs, hr]
      · rw [if_neg hr, if_neg hr]; exact Runs.error _ _ _

theorem runs_initArrays {args : HArgs} {m : Mem} (h : args.Known m) :
    Runs (initArraysH args) m (initArrays (args.read m))
      (fun x y m' => HasVecs m' x.1 y.1 ∧ HasQuats m' x.2.1 y.2.1 ∧ HasStamps m' x.2.2 y.2.2) := by
  unfold initArraysH initArrays
  refine Runs.bind (runs_initTimestamps h.timestamps) ?_
  rintro ts l m1 k1 ⟨s1, s2⟩
  have h1 := h.keeps k1
  rw [← h1.2]
  refine Runs.bind (runs_initTranslation s2 h1.1.translation) ?_
  intro t v m2 k2 t1
  have h2 := h1.1.keeps k2
  rw [← h2.2]
  refine Runs.bind (runs_initRotation s2 h2.1.rotation) ?_
  intro r q m3 k3 r1
  have t3 := t1.keeps k3
  have s3 := (s1.keeps k2).keeps k3
  have ei : (HArgs.read m2 args).inverse = args.inverse := rfl
  rw [ei]
  cases args.inverse with
  | false => exact Runs.pure ⟨t3, r1, s3⟩
  | true =>
    simp only [if_true]
    refine Runs.step rfl ?_
    rw [r1.1]
    refine Runs.bind (Runs.lift (qinvArr q) m3) ?_
    rintro q' _ m4 k4 ⟨rfl, rfl⟩
    refine Runs.bindNew ?_
    intro r' m5 k5 n5
    refine Runs.step rfl ?_
    rw [(t3.keeps k5).1]
    refine Runs.bind (Runs.lift (rotateVectors q' v) m5) ?_
    rintro w _ m6 k6 ⟨rfl, rfl⟩
    refine Runs.bindNew ?_
    intro t' m7 k7 n7
    refine Runs.pure ⟨⟨by rw [n7.value, vecsOf_ofVecs], n7.known⟩, ⟨?_, ?_⟩, (s3.keeps k5).keeps k7⟩
    · rw [(n5.keeps k7).value, quatsOf_ofQuats]
    · exact (n5.keeps k7).known

/-! ### events of discrete frames -/

/-- An in-place step of the loop over events. -/
theorem loopV_step {m : Mem} {b n : ℕ} (hb : b < m.size) {ts : List ℝ} (hn : ts.length = n) (v : Vec) (ev : ℝ) {l : List Vec}
    (hl : vecRows (m.read ⟨b, [n, 3], id⟩) n = l) :
    vecRows ((m.write ⟨b, [n, 3], id⟩ fun idx => open Classical in
      if ts.getD (idx.getD 0 0) 0 ≥ ev then v (Fin.ofNat 3 (idx.getD 1 0)) else (m.read ⟨b, [n, 3], id⟩).get idx).read ⟨b, [n, 3], id⟩) n =
    List.zipWith (fun o τ => open Classical in if τ ≥ ev then v else o) l ts := by
  classical
  subst hl
  apply List.ext_getElem (by simp [vecRows, hn])
  intro k h1 h2
  have hk : k < n := by simpa [vecRows] using h1
  have hkt : k < ts.length := by omega
  simp only [vecRows, List.getElem_map, List.getElem_range, List.getElem_zipWith]
  funext i
  rw [write_whole hb _ (show Valid [n, 3] [k, (i : ℕ)] from ⟨hk, i.2, trivial⟩)]
  simp only [List.getD_cons_zero, List.getD_cons_succ, List.getD_eq_getElem?_getD (l := ts), List.getElem?_eq_getElem hkt, Option.getD_some]
  split
  · congr 1; ext; simp
  · rfl

theorem loopQ_step {m : Mem} {b n : ℕ} (hb : b < m.size) {ts : List ℝ} (hn : ts.length = n) (v : Quat) (ev : ℝ) {l : List Quat}
    (hl : quatRows (m.read ⟨b, [n, 4], id⟩) n = l) :
    quatRows ((m.write ⟨b, [n, 4], id⟩ fun idx => open Classical in
      if ts.getD (idx.getD 0 0) 0 ≥ ev then qcomp v (idx.getD 1 0) else (m.read ⟨b, [n, 4], id⟩).get idx).read ⟨b, [n, 4], id⟩) n =
    List.zipWith (fun o τ => open Classical in if τ ≥ ev then v else o) l ts := by
  classical
  subst hl
  rw [quatRows_eq, quatRows_eq]
  apply List.ext_getElem (by simp [hn])
  intro k h1 h2
  have hk : k < n := by simpa using h1
  have hkt : k < ts.length := by omega
  rw [List.getElem_map, List.getElem_range, List.getElem_zipWith, List.getElem_map, List.getElem_range]
  have hg : ∀ c < 4, ((m.write ⟨b, [n, 4], id⟩ fun idx => 
      if ts.getD (idx.getD 0 0) 0 ≥ ev then qcomp v (idx.getD 1 0) else (m.read ⟨b, [n, 4], id⟩).get idx).read ⟨b, [n, 4], id⟩).get [k, c] =
      if ts[k] ≥ ev then qcomp v c else (m.read ⟨b, [n, 4], id⟩).get [k, c] := by
    intro c hc
    rw [write_whole hb _ (show Valid [n, 4] [k, c] from ⟨hk, hc, trivial⟩)]
    simp only [List.getD_cons_zero, List.getD_cons_succ, List.getD_eq_getElem?_getD (l := ts), List.getElem?_eq_getElem hkt, Option.getD_some]
  unfold qrow
  rw [hg 0 (by norm_num), hg 1 (by norm_num), hg 2 (by norm_num), hg 3 (by norm_num)]
  by_cases h : ts[k] ≥ ev
  · simp only [if_pos h]; exact (if_pos h).symm
  · simp only [if_neg h]; exact (if_neg h).symm

theorem loopV_run {m0 m : Mem} (h0 : Keeps m0 m) {b n : ℕ} (hf : m0.size ≤ b) (hb : b < m.size) {ts : List ℝ} (hn : ts.length = n)
    (es : List (Vec × ℝ)) {l : List Vec} (hl : vecRows (m.read ⟨b, [n, 3], id⟩) n = l) :
    ∃ m', discreteLoopV ts ⟨b, [n, 3], id⟩ es m = (.ok (), m') ∧ Keeps m0 m' ∧ b < m'.size ∧
      vecRows (m'.read ⟨b, [n, 3], id⟩) n = es.foldl (fun out ev =>
        List.zipWith (fun o τ => open Classical in if τ ≥ ev.2 then ev.1 else o) out ts) l := by
  induction es generalizing m l with
  | nil => exact ⟨m, rfl, h0, hb, hl⟩
  | cons e es ih =>
    obtain ⟨v, ev⟩ := e
    obtain ⟨m', e1, e2, e3, e4⟩ := ih (keeps_write h0 (r := ⟨b, [n, 3], id⟩) hf (fun idx => open Classical in
      if ts.getD (idx.getD 0 0) 0 ≥ ev then v (Fin.ofNat 3 (idx.getD 1 0)) else (m.read ⟨b, [n, 3], id⟩).get idx))
      (by rw [write_size]; exact hb) (loopV_step hb hn v ev hl)
    exact ⟨m', e1, e2, e3, e4⟩

theorem loopQ_run {m0 m : Mem} (h0 : Keeps m0 m) {b n : ℕ} (hf : m0.size ≤ b) (hb : b < m.size) {ts : List ℝ} (hn : ts.length = n)
    (es : List (Quat × ℝ)) {l : List Quat} (hl : quatRows (m.read ⟨b, [n, 4], id⟩) n = l) :
    ∃ m', discreteLoopQ ts ⟨b, [n, 4], id⟩ es m = (.ok (), m') ∧ Keeps m0 m' ∧ b < m'.size ∧
      quatRows (m'.read ⟨b, [n, 4], id⟩) n = es.foldl (fun out ev =>
        List.zipWith (fun o τ => open Classical in if τ ≥ ev.2 then ev.1 else o) out ts) l := by
  induction es generalizing m l with
  | nil => exact ⟨m, rfl, h0, hb, hl⟩
  | cons e es ih =>
    obtain ⟨v, ev⟩ := e
    obtain ⟨m', e1, e2, e3, e4⟩ := ih (keeps_write h0 (r := ⟨b, [n, 4], id⟩) hf (fun idx => open Classical in
      if ts.getD (idx.getD 0 0) 0 ≥ ev then qcomp v (idx.getD 1 0) else (m.read ⟨b, [n, 4], id⟩).get idx))
      (by rw [write_size]; exact hb) (loopQ_step hb hn v ev hl)
    exact ⟨m', e1, e2, e3, e4⟩

theorem vecRows_replicate (m : Mem) (n : ℕ) (v : Vec) {c : ND ℝ} (hc : c = ND.ofVecs (.many (List.replicate n v))) :
    vecRows c n = List.replicate n v := by
  have := vecsOf_ofVecs (.many (List.replicate n v))
  subst hc
  simp only [vecsOf, ND.ofVecs, List.length_replicate, Arr.many.injEq] at this
  simp only [ND.ofVecs, List.length_replicate]
  exact this

theorem quatRows_replicate (n : ℕ) (v : Quat) {c : ND ℝ} (hc : c = ND.ofQuats (.many (List.replicate n v))) :
    quatRows c n = List.replicate n v := by
  have := quatsOf_ofQuats (.many (List.replicate n v))
  subst hc
  simp only [quatsOf, ND.ofQuats, List.length_replicate, Arr.many.injEq] at this
  simp only [ND.ofQuats, List.length_replicate]
  exact this

theorem runs_discreteV (rows : List Vec) (events ts : List ℝ) (m : Mem) :
    Runs (discreteV rows events ts) m (discreteRows rows events ts) (fun r l m' => HasVecs m' r (.many l) ∧ m.size ≤ r.buf) := by
  cases rows with
  | nil => exact Runs.error _ _ _
  | cons r0 rows =>
    simp only [discreteV, discreteRows]
    generalize hc : ND.ofVecs (.many (List.replicate ts.length r0)) = c
    have hs : c.shape = [ts.length, 3] := by rw [← hc]; simp [ND.ofVecs]
    have h1 := read_new m c
    have hlt : m.size < (new c m).2.size := by simp [new, Mem.size]
    rw [hs] at h1
    obtain ⟨m', e1, e2, e3, e4⟩ := loopV_run (keeps_new m c) (le_refl m.size) hlt rfl (List.zip (r0 :: rows) events)
      (l := List.replicate ts.length r0) (by rw [h1]; exact vecRows_replicate m _ _ hc.symm)
    refine ⟨m', e2, .inl ⟨⟨m.size, [ts.length, 3], id⟩, _, ?_, rfl, ⟨?_, e3⟩, le_rfl⟩⟩
    · have e5 : (new c >>= fun out => discreteLoopV ts out (List.zip (r0 :: rows) events) >>= fun _ => Pure.pure out) m =
          (discreteLoopV ts ⟨m.size, [ts.length, 3], id⟩ (List.zip (r0 :: rows) events) >>= fun _ => Pure.pure ⟨m.size, [ts.length, 3], id⟩) (new c m).2 := by
        rw [← hs]; rfl
      rw [e5]
      simp only [Bind.bind, e1]
      rfl
    · exact congrArg Arr.many e4

theorem runs_discreteQ (rows : List Quat) (events ts : List ℝ) (m : Mem) :
    Runs (discreteQ rows events ts) m (discreteRows rows events ts) (fun r l m' => HasQuats m' r (.many l) ∧ m.size ≤ r.buf) := by
  cases rows with
  | nil => exact Runs.error _ _ _
  | cons r0 rows =>
    simp only [discreteQ, discreteRows]
    generalize hc : ND.ofQuats (.many (List.replicate ts.length r0)) = c
    have hs : c.shape = [ts.length, 4] := by rw [← hc]; simp [ND.ofQuats]
    have h1 := read_new m c
    have hlt : m.size < (new c m).2.size := by simp [new, Mem.size]
    rw [hs] at h1
    obtain ⟨m', e1, e2, e3, e4⟩ := loopQ_run (keeps_new m c) (le_refl m.size) hlt rfl (List.zip (r0 :: rows) events)
      (l := List.replicate ts.length r0) (by rw [h1]; exact quatRows_replicate _ _ hc.symm)
    refine ⟨m', e2, .inl ⟨⟨m.size, [ts.length, 4], id⟩, _, ?_, rfl, ⟨?_, e3⟩, le_rfl⟩⟩
    · have e5 : (new c >>= fun out => discreteLoopQ ts out (List.zip (r0 :: rows) events) >>= fun _ => Pure.pure out) m =
          (discreteLoopQ ts ⟨m.size, [ts.length, 4], id⟩ (List.zip (r0 :: rows) events) >>= fun _ => Pure.pure ⟨m.size, [ts.length, 4], id⟩) (new c m).2 := by
        rw [← hs]; rfl
      rw [e5]
      simp only [Bind.bind, e1]
      rfl
    · exact congrArg Arr.many e4

end RBM.Heap
