import Verif.Lemmas.HeapVelocity

namespace RBM.Heap

open RBM

theorem HTArgs.known_ret {m : Mem} {o : HTArgs} (h : o.Known m) (b : Bool) : ({ o with returnTimestamps := b } : HTArgs).Known m := h

theorem HTArgs.Known.keeps {m m' : Mem} {o : HTArgs} (h : o.Known m) (hk : Keeps m m') : o.Known m' ∧ o.read m' = o.read m := by
  refine ⟨fun x hx => ((h x hx).keeps hk).1, ?_⟩
  simp only [HTArgs.read]
  congr 1
  cases ho : o.timestamps with
  | none => rfl
  | some x => simp [((h x ho).keeps hk).2]

/-- What is returned: new arrays with these entries. -/
def EntryRet (m : Mem) (x : HRet) (y : PyRet) (m' : Mem) : Prop :=
  match x, y with
  | .single a, .single c => a.shape = c.shape ∧ (∀ idx, Valid c.shape idx → (m'.read a).get idx = c.get idx) ∧ m.size ≤ a.buf ∧ a.buf < m'.size
  | .withTs a ts, .withTs c l =>
    (a.shape = c.shape ∧ (∀ idx, Valid c.shape idx → (m'.read a).get idx = c.get idx) ∧ m.size ≤ a.buf ∧ a.buf < m'.size) ∧ NewStamps m ts l m' ∧
      Apart a ts
  | _, _ => False

theorem NewRet.entries {m m' : Mem} {x : HRet} {y : PyRet} (h : NewRet m x y m') : EntryRet m x y m' := by
  rcases x with r | ⟨r, ts⟩ <;> rcases y with c | ⟨c, l⟩
  · exact ⟨by rw [← h.value]; rfl, fun idx _ => by rw [h.value], h.fresh, h.known⟩
  · exact absurd h id
  · exact absurd h id
  · exact ⟨⟨by rw [← h.1.value]; rfl, fun idx _ => by rw [h.1.value], h.1.fresh, h.1.known⟩, h.2⟩

theorem NewRet.before {m0 m m' : Mem} {x : HRet} {y : PyRet} (h : NewRet m x y m') (hk : Keeps m0 m) : NewRet m0 x y m' := by
  rcases x with r | ⟨r, ts⟩ <;> rcases y with c | ⟨c, l⟩
  · exact IsNew.before h hk
  · exact absurd h id
  · exact absurd h id
  · exact ⟨h.1.before hk, h.2.1.before hk, h.2.2⟩

theorem newStamps_write {m0 m : Mem} {ts : Option NdRef} {l : Option (List ℝ)} (h : NewStamps m0 ts l m) {r : NdRef} (c : List ℕ → ℝ)
    (hne : ∀ x, ts = some x → x.buf ≠ r.buf) : NewStamps m0 ts l (m.write r c) := by
  rcases h with h | ⟨x, ts, rfl, rfl, h⟩
  · exact .inl h
  · refine .inr ⟨x, ts, rfl, rfl, ?_, h.fresh, by rw [write_size]; exact h.known⟩
    rw [← h.value]
    simp only [Mem.read, write_other (hne x rfl)]

theorem runs_addAngular (ext : Ext) {s : HState} (hs : s.Sound) {m : Mem} (hm : Keeps s.mem m) (a : ℕ) {arr : ArrayLike} (ha : arr.Known m)
    (dst : FrameRef) {o : HTArgs} (ho : o.Known m) {ang : NdRef} {angTs : Option NdRef} {c : ND ℝ} {l : Option (List ℝ)}
    (hp : NewPair s.mem (ang, angTs) (c, l) m) :
    RunsFrom s.mem (addAngularH ext s a arr dst o ang angTs) m (s.view.addAngular ext a (arr.read m) dst (o.read m) c l) (EntryRet s.mem) := by
  unfold addAngularH State.addAngular
  have h1 := (runs_unpack (runs_vectors_at ext.squad hs hm a ha dst (o := { o with returnTimestamps := true }) ho)).also
    (Q := fun x _ => x.1.Whole) fun x m' h => whole_vectors h
  refine RunsFrom.bind hm h1 ?_
  rintro ⟨r, ts⟩ ⟨cr, cl⟩ m1 k1 ⟨⟨n1, n2, _⟩, hw⟩
  have p1 := hp.1.keeps k1
  have p2 := hp.2.1.keeps k1
  have hkn : ∀ y ∈ [(⟨r, ts⟩ : HMArray), ⟨ang, angTs⟩], y.Known m1 := by
    intro y hy
    simp only [List.mem_cons, List.not_mem_nil, or_false] at hy
    rcases hy with rfl | rfl
    · exact ⟨n1.known, n2.known⟩
    · exact ⟨p1.known, p2.known⟩
  have hmt := (runs_matchArrays ext.squad (m0 := s.mem) (m := m1) (hm.trans k1) [⟨r, ts⟩, ⟨ang, angTs⟩] hkn
    (by
      intro y hy
      simp only [List.mem_cons, List.not_mem_nil, or_false] at hy
      rcases hy with rfl | rfl
      · exact (n1.before hm).fresh
      · exact p1.fresh)).also (Q := fun x _ => ∀ r rs, x.1 = r :: rs → r.Whole ∧ ∀ y, x.2 = some y → y.buf ≠ r.buf) (by
      rintro ⟨rs, tts⟩ m' h r' rs' rfl
      exact matched_first h hkn hw)
  have er : [(⟨r, ts⟩ : HMArray), ⟨ang, angTs⟩].map (HMArray.read m1) = [⟨cr, cl⟩, ⟨c, l⟩] := by
    simp only [List.map_cons, List.map_nil, HMArray.read, n1.value, p1.value, n2.list, p2.list]
  rw [er] at hmt
  refine RunsFrom.bind (hm.trans k1) hmt ?_
  rintro ⟨rs, tts⟩ ⟨cs, tl⟩ m2 k2 ⟨⟨f1, f2⟩, hq⟩
  have k02 := (hm.trans k1).trans k2
  simp only at f1 f2 hq ⊢
  rcases f1 with _ | ⟨e1, _ | ⟨e2, _ | ⟨e3, f1⟩⟩⟩
  · exact (Runs.error _ _ _).from k02
  · exact (Runs.error _ _ _).from k02
  · obtain ⟨w1, w2⟩ := hq _ _ rfl
    rename_i ra ca rb cb
    simp only
    cases hi : ND.iadd ca cb with
    | error e =>
      refine ⟨m2, k02, .inr ⟨e, ?_, rfl⟩⟩
      simp only [Bind.bind, iaddH, get, e1.value, e2.value, hi, lift]
    | ok d =>
      have hsh : d.shape = ra.shape := by
        have : ca.shape = ra.shape := by rw [← e1.value]; rfl
        unfold ND.iadd at hi
        split at hi
        · cases hi
        · split at hi
          · cases hi; rw [← this]; assumption
          · cases hi
      refine ⟨m2.write ra d.get, keeps_write k02 e1.fresh _, .inl ⟨returnH o.returnTimestamps ra tts, pyReturn o.returnTimestamps d tl, ?_, rfl, ?_⟩⟩
      · simp only [Bind.bind, iaddH, get, e1.value, e2.value, hi, lift, put]
        rfl
      · have hent : ra.shape = d.shape ∧ (∀ idx, Valid d.shape idx → ((m2.write ra d.get).read ra).get idx = d.get idx) ∧ s.mem.size ≤ ra.buf ∧
            ra.buf < (m2.write ra d.get).size :=
          ⟨hsh.symm, fun idx hv => write_entries w1 e1.known _ (by rw [← hsh]; exact hv), e1.fresh, by rw [write_size]; exact e1.known⟩
        have hst := newStamps_write f2 d.get w2
        cases o.returnTimestamps
        · exact hent
        · exact ⟨hent, hst, w2⟩
  · exact (Runs.error _ _ _).from k02

theorem resolve_view (s : HState) (r : FrameRef) : s.view.resolve r = s.st.resolve r := by cases r <;> rfl

theorem runs_transformAngular (ext : Ext) {s : HState} (hs : s.Sound) (a : ℕ) {arr : ArrayLike} (ha : arr.Known s.mem) (dst : FrameRef) (what : String)
    {o : HTArgs} (ho : o.Known s.mem) (cutoff : Option ℝ) :
    RunsFrom s.mem (transformAngularVelocityH ext s a arr dst what o cutoff) s.mem
      (s.view.transformAngularVelocity ext a (arr.read s.mem) dst what (o.read s.mem) cutoff) (EntryRet s.mem) := by
  have r0 := Keeps.refl s.mem
  unfold transformAngularVelocityH State.transformAngularVelocity
  by_cases h1 : what = "reference_frame"
  · rw [if_pos h1, if_pos h1]
    refine RunsFrom.bind r0 (runs_unpack (runs_lookupAngular ext hs r0 a (some dst) (some dst) _)) ?_
    rintro ⟨r, ts⟩ ⟨c, l⟩ m1 k1 hp
    have e1 := ha.keeps k1
    have e2 := ho.keeps k1
    have := runs_addAngular ext hs k1 a e1.1 dst e2.1 hp
    rw [e1.2, e2.2] at this
    exact this
  · rw [if_neg h1, if_neg h1]
    by_cases h2 : what = "moving_frame"
    · rw [if_pos h2, if_pos h2, resolve_view]
      refine RunsFrom.bind r0 (Runs.lift (s.st.resolve dst) s.mem) ?_
      rintro b _ m1 _ ⟨rfl, rfl⟩
      refine RunsFrom.bind r0 (runs_unpack (runs_lookupAngular ext hs r0 b (some (.byObj a)) (some dst) _)) ?_
      rintro ⟨r, ts⟩ ⟨c, l⟩ m1 k1 hp
      have e1 := ha.keeps k1
      have e2 := ho.keeps k1
      have := runs_addAngular ext hs k1 a e1.1 dst e2.1 hp
      rw [e1.2, e2.2] at this
      exact this
    · rw [if_neg h2, if_neg h2]
      by_cases h3 : what = "representation_frame"
      · rw [if_pos h3, if_pos h3]
        exact ((runs_vectors ext.squad hs a ha dst ho).from r0).mono fun x y m' h => h.entries
      · rw [if_neg h3, if_neg h3]
        exact (Runs.error _ _ _).from r0

theorem runs_addLinear (ext : Ext) {s : HState} (hs : s.Sound) {m : Mem} (hm : Keeps s.mem m) (a : ℕ) {arr : ArrayLike} (ha : arr.Known m)
    (dst : FrameRef) {o : HTArgs} (ho : o.Known m) {lin ang tr : NdRef} {linTs angTs trTs : Option NdRef} {lc gc : ND ℝ} {tv : Arr Vec}
    {ll gl tl : Option (List ℝ)} (hl : NewPair s.mem (lin, linTs) (lc, ll) m) (hg : NewPair s.mem (ang, angTs) (gc, gl) m)
    (ht : NewPair s.mem (tr, trTs) (ND.ofVecs tv, tl) m) :
    Runs (addLinearH ext s a arr dst o lin ang linTs angTs tr trTs) m
      (s.view.addLinear ext a (arr.read m) dst (o.read m) lc gc ll gl tv tl) (NewRet s.mem) := by
  unfold addLinearH State.addLinear
  refine Runs.bind (runs_unpack (runs_vectors_at ext.squad hs hm a ha dst (o := { o with returnTimestamps := true }) ho)) ?_
  rintro ⟨r, ts⟩ ⟨cr, cl⟩ m1 k1 ⟨n1, n2, n12⟩
  have t1 := ht.1.keeps k1
  have t2 := ht.2.1.keeps k1
  refine Runs.bind (runs_withTs ext.squad hs (hm.trans k1) a t1.value t1.known dst t2.values t2.known) ?_
  rintro ⟨r', ts'⟩ ⟨cr', cl'⟩ m2 k2 ⟨n3, n4, n34⟩
  have p1 := hl.1.keeps (k1.trans k2)
  have p2 := hl.2.1.keeps (k1.trans k2)
  have q1 := hg.1.keeps (k1.trans k2)
  have q2 := hg.2.1.keeps (k1.trans k2)
  have n1' := n1.keeps k2
  have n2' := n2.keeps k2
  have k02 := hm.trans (k1.trans k2)
  have hmt := runs_matchArrays ext.squad (m0 := s.mem) (m := m2) k02 [⟨r, ts⟩, ⟨lin, linTs⟩, ⟨ang, angTs⟩, ⟨r', ts'⟩]
    (by
      intro y hy
      simp only [List.mem_cons, List.not_mem_nil, or_false] at hy
      rcases hy with rfl | rfl | rfl | rfl
      · exact ⟨n1'.known, n2'.known⟩
      · exact ⟨p1.known, p2.known⟩
      · exact ⟨q1.known, q2.known⟩
      · exact ⟨n3.known, n4.known⟩)
    (by
      intro y hy
      simp only [List.mem_cons, List.not_mem_nil, or_false] at hy
      rcases hy with rfl | rfl | rfl | rfl
      · exact (n1.before hm).fresh
      · exact p1.fresh
      · exact q1.fresh
      · exact (n3.before (hm.trans k1)).fresh)
  have er : [(⟨r, ts⟩ : HMArray), ⟨lin, linTs⟩, ⟨ang, angTs⟩, ⟨r', ts'⟩].map (HMArray.read m2) = [⟨cr, cl⟩, ⟨lc, ll⟩, ⟨gc, gl⟩, ⟨cr', cl'⟩] := by
    simp only [List.map_cons, List.map_nil, HMArray.read, n1'.value, p1.value, q1.value, n3.value, n2'.list, p2.list, q2.list, n4.list]
  rw [er] at hmt
  refine Runs.bind hmt ?_
  rintro ⟨rs, tts⟩ ⟨cs, ttl⟩ m3 k3 ⟨f1, f2⟩
  simp only at f1 f2 ⊢
  rcases f1 with _ | ⟨e1, _ | ⟨e2, _ | ⟨e3, _ | ⟨e4, _ | ⟨e5, f1⟩⟩⟩⟩⟩
  · exact Runs.error _ _ _
  · exact Runs.error _ _ _
  · exact Runs.error _ _ _
  · exact Runs.error _ _ _
  · simp only
    have k03 := k02.trans k3
    refine Runs.step rfl (Runs.step rfl (Runs.step rfl (Runs.step rfl ?_)))
    rw [e1.value, e2.value, e3.value, e4.value]
    refine Runs.bind (Runs.lift _ m3) ?_
    rintro sum _ m3 _ ⟨rfl, rfl⟩
    refine Runs.bindNew ?_
    intro sr m4 k4 s4
    refine Runs.bind (Runs.lift _ m4) ?_
    rintro cr _ m4 _ ⟨rfl, rfl⟩
    refine Runs.bindNew ?_
    intro cref m5 k5 s5
    refine Runs.step rfl (Runs.step rfl ?_)
    rw [(s4.keeps k5).value, s5.value]
    refine Runs.bind (Runs.lift _ m5) ?_
    rintro out _ m5 _ ⟨rfl, rfl⟩
    refine Runs.bindNew ?_
    intro outr m6 k6 s6
    exact Runs.pure (returnH_new _ (s6.before ((k03.trans k4).trans k5)) (f2.keeps ((k4.trans k5).trans k6)) ((f2.keeps (k4.trans k5)).apart s6.fresh))
  · exact Runs.error _ _ _

theorem runs_unpackTriple {p : HP HTwist} {m : Mem} {v : Res TwistRet} (h : Runs p m v (NewTwist m)) :
    Runs (unpackTripleH p) m (unpackTriple v) (fun x y m' => NewTwist m (.triple x.1 x.2.1 x.2.2) (.triple y.1 y.2.1 y.2.2) m') := by
  have e : unpackTriple v = v.bind fun x => match x with
      | .triple l a ts => .ok (l, a, ts)
      | .pair _ _ => .error .valueError := by
    rcases v with _ | ⟨_ | _⟩ <;> rfl
  rw [e]
  refine Runs.bind h ?_
  rintro (⟨l, g⟩ | ⟨l, g, ts⟩) (⟨lc, gc⟩ | ⟨lc, gc, tl⟩) m' _ hn
  · exact Runs.error _ _ _
  · exact absurd hn id
  · exact absurd hn id
  · exact Runs.pure hn

theorem runs_transformLinear (ext : Ext) {s : HState} (hs : s.Sound) (a : ℕ) {arr : ArrayLike} (ha : arr.Known s.mem) (dst : FrameRef) (what : String)
    (mf rf : Option FrameRef) {o : HTArgs} (ho : o.Known s.mem) (outlier cutoff : Option ℝ) :
    Runs (transformLinearVelocityH ext s a arr dst what mf rf o outlier cutoff) s.mem
      (s.view.transformLinearVelocity ext a (arr.read s.mem) dst what mf rf (o.read s.mem) outlier cutoff) (NewRet s.mem) := by
  have r0 := Keeps.refl s.mem
  unfold transformLinearVelocityH State.transformLinearVelocity
  by_cases h1 : what = "reference_frame"
  · rw [if_pos h1, if_pos h1]
    refine Runs.bind (runs_unpackTriple (runs_lookupTwist ext hs r0 a (some dst) (some dst) _)) ?_
    rintro ⟨l, g, ts⟩ ⟨lc, gc, tl⟩ m1 k1 ⟨n1, n2, n3, _, n4, n5⟩
    have er : s.view.resolveOpt mf = s.st.resolveOpt mf := by
      cases mf with
      | none => rfl
      | some r => exact resolve_view s r
    rw [er]
    refine Runs.bind (Runs.lift _ m1) ?_
    rintro fm _ m1 _ ⟨rfl, rfl⟩
    refine Runs.bind (runs_lookup ext.squad hs k1 fm (.byObj a)) ?_
    rintro ⟨t, q, tts⟩ ⟨tv, qv, ttl⟩ m2 k2 ⟨t1, t2, t3, _, t4, _⟩
    have k02 := k1.trans k2
    have e1 := ha.keeps k02
    have e2 := ho.keeps k02
    have := runs_addLinear ext hs k02 a e1.1 dst e2.1 (lin := l) (ang := g) (tr := t) ⟨n1.keeps k2, n3.keeps k2, n4⟩ ⟨n2.keeps k2, n3.keeps k2, n5⟩
      ⟨t1.before k1, t3.before k1, t4⟩
    rw [e1.2, e2.2] at this
    exact this
  · rw [if_neg h1, if_neg h1]
    by_cases h2 : what = "moving_frame"
    · rw [if_pos h2, if_pos h2, resolve_view]
      refine Runs.bind (Runs.lift (s.st.resolve dst) s.mem) ?_
      rintro b _ m1 _ ⟨rfl, rfl⟩
      refine Runs.bind (runs_unpack (runs_lookupLinear ext hs r0 b (some (.byObj a)) (some (.byObj b)) _)) ?_
      rintro ⟨l, lts⟩ ⟨lc, ll⟩ m1 k1 ⟨n1, n2, n12⟩
      refine Runs.bind (runs_unpack (runs_lookupAngular ext hs k1 a rf (some (.byObj b)) _)) ?_
      rintro ⟨g, gts⟩ ⟨gc, gl⟩ m2 k2 ⟨n3, n4, n34⟩
      have k02 := k1.trans k2
      refine Runs.bind (runs_lookup ext.squad hs k02 b (.byObj a)) ?_
      rintro ⟨t, q, tts⟩ ⟨tv, qv, ttl⟩ m3 k3 ⟨t1, t2, t3, _, t4, _⟩
      have k03 := k02.trans k3
      have e1 := ha.keeps k03
      have e2 := ho.keeps k03
      have := runs_addLinear ext hs k03 a e1.1 (.byObj b) e2.1 (lin := l) (ang := g) (tr := t) ⟨n1.keeps (k2.trans k3), n2.keeps (k2.trans k3), n12⟩
        ⟨(n3.keeps k3).before k1, (n4.keeps k3).before k1, n34⟩ ⟨t1.before k02, t3.before k02, t4⟩
      rw [e1.2, e2.2] at this
      exact this
    · rw [if_neg h2, if_neg h2]
      by_cases h3 : what = "representation_frame"
      · rw [if_pos h3, if_pos h3]
        exact runs_vectors ext.squad hs a ha dst ho
      · rw [if_neg h3, if_neg h3]
        exact Runs.error _ _ _

end RBM.Heap
