import Verif.Lemmas.Transform

namespace RBM

open Spec

theorem axisIs_norm {axis : ℤ} {n p : ℕ} (h : AxisIs axis n p) : normAxis axis n = some p := by
  obtain ⟨h1, rfl | rfl⟩ := h
  · exact normAxis_nat h1
  · simp only [normAxis]
    rw [if_neg (by omega), if_pos (by omega)]
    congr 1; omega

theorem norm_axisIs {axis : ℤ} {n p : ℕ} (h : normAxis axis n = some p) : AxisIs axis n p := by
  refine ⟨normAxis_lt h, ?_⟩
  simp only [normAxis] at h
  split at h
  · simp only [Option.some.injEq] at h; left; omega
  · split at h
    · simp only [Option.some.injEq] at h; right; omega
    · simp at h

theorem vec3_eq (v : ND ℝ) (p : ℕ) (idx : List ℕ) : vec3 v p idx = v.vecAt p idx := by
  funext k; fin_cases k <;> rfl

theorem vec3_set (v : ND ℝ) (p k : ℕ) (idx : List ℕ) : vec3 v p (idx.set p k) = vec3 v p idx := by
  simp [vec3, List.set_set]

theorem set_ne_comm {l : List ℕ} {i j a b : ℕ} (h : i ≠ j) : (l.set i a).set j b = (l.set j b).set i a :=
  List.set_comm _ _ h

/-- Entries determine the stored vectors. -/
theorem vec3_of_entries {R : ND ℝ} {p : ℕ} {idx : List ℕ} {w : Vec} (hp : p < idx.length)
    (h : ∀ k : Fin 3, R.get (idx.set p k) = w (Fin.ofNat 3 ((idx.set p k).getD p 0))) : vec3 R p idx = w := by
  rw [vec3_eq]
  funext k
  have := h k
  have e : (idx.set p k.val).getD p 0 = k.val := by simp [List.getD_eq_getElem?_getD, hp]
  rw [e] at this
  rw [ND.vecAt, this]
  congr 1
  ext; simp

theorem pyShape_ok {sh : List ℕ} {axis : ℤ} {p : ℕ} (h : normAxis axis sh.length = some p) :
    pyShape sh axis = .ok (sh.getD p 0) := by simp [pyShape, h]

theorem validateInput_static {v : ND ℝ} {axis : ℤ} {p k : ℕ} (h : AxisIs axis v.ndim p) (hk : v.shape.getD p 0 = k)
    (ta : Option ℤ) : validateInput v axis k none ta = .ok (v, none) := by
  simp only [validateInput, pyShape_ok (axisIs_norm h), bind, Except.bind, hk]
  simp [Pure.pure, Except.pure]

theorem ofList_range (l : List ℝ) : ((List.range l.length).map fun i => (ofList l).get [i]) = l := by
  apply List.ext_getElem (by simp)
  intro k h1 h2
  simp [ofList, h2]

theorem validateInput_timed {v : ND ℝ} {axis : ℤ} {p k : ℕ} (h : AxisIs axis v.ndim p) (hk : v.shape.getD p 0 = k)
    {ta : ℤ} {q : ℕ} (hq : AxisIs ta v.ndim q) {ats : List ℝ} (hl : v.shape.getD q 0 = ats.length) :
    validateInput v axis k (some (ofList ats)) (some ta) = .ok (v.swapaxes 0 q, some ats) := by
  have h0 : 0 < v.ndim := by have := h.1; omega
  simp only [validateInput, pyShape_ok (axisIs_norm h), bind, Except.bind, hk]
  simp only [ofList, Pure.pure, Except.pure]
  simp only [pyShape_ok (axisIs_norm hq), hl, ND.swapaxesZ, normAxis_zero h0, axisIs_norm hq]
  have := ofList_range ats
  simp only [ofList] at this
  simpa using this

/-! ### resampling at sample times -/

theorem resample_knots (sq : SquadFn) (data : ND ℝ) {n : ℕ} {rest : List ℕ} (hs : data.shape = n :: rest)
    (h4 : (n :: rest).getLast? ≠ some 4) {ats : List ℝ} (hn : n = ats.length) (h2 : 2 ≤ ats.length)
    (hinc : StrictlyIncreasing ats) {ts : List ℝ} (hsub : ∀ τ ∈ ts, τ ∈ ats) :
    ∃ R, resampleArray sq ⟨data, some ats⟩ (some ts) = .ok R ∧ R.shape = ts.length :: rest ∧
      ∀ (i k : ℕ) (τ : ℝ) (r : List ℕ), ts[i]? = some τ → ats[k]? = some τ → R.get (i :: r) = data.get (k :: r) := by
  classical
  have hrange : ∀ τ ∈ ts, ats.getD 0 0 ≤ τ ∧ τ ≤ ats.getD (ats.length - 1) 0 := by
    intro τ hτ
    obtain ⟨k, hk, rfl⟩ := List.getElem_of_mem (hsub τ hτ)
    have e := getD_eq hk (0 : ℝ)
    constructor
    · rw [← e]; exact nonDecreasing_getD hinc.nonDecreasing (Nat.zero_le _) hk
    · rw [← e]; exact nonDecreasing_getD hinc.nonDecreasing (by omega) (by omega)
  have hout : ¬ anyOutside ats ts := by
    rintro ⟨t, ht, h | h⟩
    · exact absurd (hrange t ht).1 (not_le.mpr h)
    · exact absurd (hrange t ht).2 (not_le.mpr h)
  have hloc : ∀ τ ∈ ts, ∃ loc, interpLoc ats τ = .ok loc := by
    intro τ hτ
    obtain ⟨lo, e, _⟩ := interpLoc_spec hinc h2 (hrange τ hτ).1 (hrange τ hτ).2
    exact ⟨_, e⟩
  let L : ℝ → ℕ × ℕ := fun τ => match interpLoc ats τ with | .ok l => l | .error _ => (0, 0)
  have hL : ∀ τ ∈ ts, interpLoc ats τ = .ok (L τ) := by
    intro τ hτ; obtain ⟨l, e⟩ := hloc τ hτ; simp only [L, e]
  have hc := collect_map (ts := ts) hL
  refine ⟨⟨ts.length :: rest, fun idx =>
      interpVal ats ((List.range n).map fun i => data.get (i :: idx.drop 1))
        (ts.getD (idx.getD 0 0) 0) ((ts.map L).getD (idx.getD 0 0) (0, 0))⟩, ?_, rfl, ?_⟩
  · simp only [resampleArray, hs]
    rw [if_neg h4, if_neg (by omega), if_neg hout, hc]
  · intro i k τ r hi hk
    have hil := (List.getElem?_eq_some_iff.mp hi).1
    have hkl := (List.getElem?_eq_some_iff.mp hk).1
    have hτ : τ ∈ ts := List.mem_of_getElem? hi
    simp only [List.drop_one, List.tail_cons, List.getD_cons_zero]
    have e1 : ts.getD i 0 = τ := by rw [List.getD_eq_getElem?_getD, hi]; rfl
    have e2 : (ts.map L).getD i (0, 0) = L τ := by rw [List.getD_eq_getElem?_getD, List.getElem?_map, hi]; rfl
    rw [e1, e2]
    set ys := (List.range n).map fun i => data.get (i :: r) with hys
    have hyl : ys.length = ats.length := by simp [hys, hn]
    obtain ⟨v, e3, hv⟩ := interpAt_spec hinc h2 hyl (hrange τ hτ).1 (hrange τ hτ).2
    simp only [interpAt, hyl, ne_eq, not_true, if_false, hL τ hτ] at e3
    cases e3
    exact hv.knot hinc hk (by simp [hys, hn, hkl])

theorem resample_squad (sq : SquadFn) (hsq : SquadLaw sq) (data : ND ℝ) {n : ℕ} (hs : data.shape = [n, 4])
    {ats : List ℝ} (hn : n = ats.length) (h2 : 2 ≤ ats.length) (hu : ∀ i < n, IsUnitQ (quat4 data 1 [i, 0]))
    (hinc : StrictlyIncreasing ats) {ts : List ℝ} :
    ∃ R, resampleArray sq ⟨data, some ats⟩ (some ts) = .ok R ∧ R.shape = [ts.length, 4] ∧
      ∀ (i k : ℕ) (τ : ℝ) (r : ℕ), r < 4 → ts[i]? = some τ → ats[k]? = some τ → R.get [i, r] = data.get [k, r] := by
  classical
  by_cases hts : ts = []
  · subst hts
    refine ⟨⟨[0, 4], fun _ => 0⟩, ?_, rfl, ?_⟩
    · simp [resampleArray, hs, asQuatArray]
    · intro i k τ r _ h; simp at h
  · refine ⟨?R, ?e, ?s, ?g⟩
    case e =>
      simp only [resampleArray, hs, asQuatArray]
      rw [if_pos (by simp)]
      simp only [List.getLast?_cons_cons, List.getLast?_singleton]
      rw [if_neg (by simp [hts]; omega), if_neg (by simp; omega)]
    case s => simp [asFloatArray]
    case g =>
      intro i k τ r hr hi hk
      have hkl := (List.getElem?_eq_some_iff.mp hk).1
      have e1 : ts.getD i 0 = τ := by rw [List.getD_eq_getElem?_getD, hi]; rfl
      have := hsq.knot ((List.range n).map fun j => quat4 data 1 [j, 0]) ats k (quat4 data 1 [k, 0]) τ
        (by simp [hn]) h2 hinc (by
          intro q hq
          obtain ⟨j, hj, rfl⟩ := List.mem_map.mp hq
          exact hu j (by simpa using hj)) (by simp [hn, hkl]) hk
      simp only [asFloatArray, List.dropLast_cons_cons, List.dropLast_singleton, List.getLast?_cons_cons,
        List.getLast?_singleton, Option.getD_some, List.getD_cons_zero, List.drop_one, List.tail_cons, e1]
      change qcomp (sq ((List.range n).map fun j => quat4 data 1 [j, 0]) ats τ) r = _
      rw [this]
      match r, hr with
      | 0, _ => simp [qcomp, quat4]
      | 1, _ => simp [qcomp, quat4]
      | 2, _ => simp [qcomp, quat4]
      | 3, _ => simp [qcomp, quat4]

end RBM

namespace RBM

open Spec

theorem addArrays_static (v : ND ℝ) (fs : List MFrame) :
    addArrays [⟨v, none⟩] ⟨fs, []⟩ = .ok ⟨fs, [⟨v, none⟩]⟩ := by
  simp [addArrays, Matcher.addArray]

theorem addArrays_timed {v : ND ℝ} {n : ℕ} {rest : List ℕ} (hs : v.shape = n :: rest) {ats : List ℝ}
    (hn : ats.length = n) (hinc : NonDecreasing ats) (fs : List MFrame) :
    addArrays [⟨v, some ats⟩] ⟨fs, []⟩ = .ok ⟨fs, [⟨v, some ats⟩]⟩ := by
  simp [addArrays, Matcher.addArray, hs, checkTimestamps_ok hinc hn]

theorem getArray1_of {sq : SquadFn} {fs : List MFrame} {a : MArray} {ts : List ℝ} {R : ND ℝ}
    (h : resampleArray sq a (some ts) = .ok R) : (⟨fs, [a]⟩ : Matcher).getArray1 sq (some ts) = .ok R := by
  simp [Matcher.getArray1, Matcher.getArrays, collect, h, bind, Except.bind, Pure.pure, Except.pure]

theorem getTimestamps_static' {fs : List MFrame} (h : ∀ f ∈ fs, f.timestamps = none) (v : ND ℝ) (af : Bool) :
    (⟨fs, [⟨v, none⟩]⟩ : Matcher).getTimestamps af = .ok none := by
  have h1 : fs.filterMap (fun f => if f.discrete then none else f.timestamps) = [] := by
    rw [List.filterMap_eq_nil_iff]; intro f hf; simp [h f hf]
  have h2 : fs.filterMap (fun f => if f.discrete then f.timestamps else none) = [] := by
    rw [List.filterMap_eq_nil_iff]; intro f hf; simp [h f hf]
  simp [Matcher.getTimestamps, Matcher.getRange, Matcher.continuous, h1, h2, firstStamps, lastStamps]

/-- What the transform functions get from the matcher on a path of static frames. -/
theorem core_static (sq : SquadFn) {s : State} (h : WF s) {a b : ℕ} (ha : a < s.size) (hb : b < s.size)
    (hp : PathAll s a b (FrameOk false s)) (v : ND ℝ) :
    ∃ A m, (∀ τ, IsTransformAt sq s a b τ A) ∧ A.r ≠ 0 ∧ s.getMatcher a (.byObj b) [⟨v, none⟩] = .ok m ∧
      m.getTransformation sq = .ok (.one A.t, .one A.r, none) ∧ m.getArray1 sq none = .ok v ∧
      s.lookupTransform sq a (.byObj b) = .ok (.one A.t, .one A.r, none) := by
  obtain ⟨c, la, lb, hc, hla, hlb, hok⟩ := hp
  have hok' : ∀ i ∈ la ++ lb, ∃ P, StaticPoseOf s i P ∧ P.r ≠ 0 := by simpa [FrameOk] using hok
  have hex : ∀ l : List ℕ, (∀ i ∈ l, ∃ P, StaticPoseOf s i P ∧ P.r ≠ 0) →
      ∃ Ps, List.Forall₂ (fun i P => StaticPoseOf s i P ∧ P.r ≠ 0) l Ps ∧ ∀ P ∈ Ps, P.r ≠ 0 := by
    intro l
    induction l with
    | nil => intro _; exact ⟨[], .nil, by simp⟩
    | cons i l ih =>
      intro hl
      obtain ⟨Ps, hPs, hn⟩ := ih fun j hj => hl j (List.mem_cons_of_mem _ hj)
      obtain ⟨P, hP⟩ := hl i (by simp)
      refine ⟨P :: Ps, .cons hP hPs, ?_⟩
      intro Q hQ; rcases List.mem_cons.mp hQ with rfl | hQ; exacts [hP.2, hn Q hQ]
  obtain ⟨Pa, hPa, na⟩ := hex la fun i hi => hok' i (by simp [hi])
  obtain ⟨Pb, hPb, nb⟩ := hex lb fun i hi => hok' i (by simp [hi])
  obtain ⟨fa, fb, e, h1, h2⟩ := getMatcher_ok h ha hb hc hla hlb (fun i hi => static_checked (by
    obtain ⟨P, hP, _⟩ := hok' i hi; exact ⟨P, hP⟩)) [⟨v, none⟩]
  have s1 := staticPoseOf_frame h1 hPa
  have s2 := staticPoseOf_frame h2 (List.rel_reverse hPb)
  have s3 : List.Forall₂ IsStaticFrame (fa ++ fb) (Pa ++ Pb.reverse) := List.rel_append s1 s2
  have hts : ∀ f ∈ fa ++ fb, f.timestamps = none := by
    generalize fa ++ fb = fs at s3
    generalize Pa ++ Pb.reverse = Ps at s3
    induction s3 with
    | nil => simp
    | cons h _ ih => intro f hf; rcases List.mem_cons.mp hf with rfl | hf; exacts [h.1, ih f hf]
  have hloop := transLoop_static sq s3 Pose.id
  rw [foldP_paths (forall₂_inverse h1) (forall₂_inverse h2) s1.length_eq
    (by simpa using s2.length_eq) na nb] at hloop
  have hch : ∀ τ, ChainAt sq s la lb τ ((chain Pb).inv.comp (chain Pa)) := fun τ =>
    ⟨Pa, Pb, hPa.imp fun _ _ h => poseOf_static sq h.1 τ, hPb.imp fun _ _ h => poseOf_static sq h.1 τ, by
      intro Q hQ
      rcases List.mem_append.mp hQ with hQ | hQ
      exacts [na Q hQ, nb Q hQ], rfl⟩
  refine ⟨_, ⟨fa ++ fb, [⟨v, none⟩]⟩, fun τ => (hch τ).isTransformAt hc hla hlb, (hch 0).r_ne, ?_, ?_, ?_,
    lookup_static sq h ha hb hc hla hlb hPa hPb⟩
  · rw [e, addArrays_static]
  · simp only [bind, Except.bind, Matcher.getTransformation, getTimestamps_static' hts, initTranslation]
    simp only [Pose.id] at hloop
    simp only [hloop, Pure.pure, Except.pure]
  · simp [Matcher.getArray1, Matcher.getArrays, getTimestamps_static' hts, collect, resampleArray, bind, Except.bind,
      Pure.pure, Except.pure]

theorem commonStamps_sub {ats : List ℝ} {cs : List (List ℝ)} : ∀ τ ∈ commonStamps ats cs, τ ∈ ats := by
  intro τ h; exact (List.mem_filter.mp h).1

/-- What the transform functions get from the matcher for a timestamped array. -/
theorem core_timed (sq : SquadFn) (hsq : SquadLaw sq) {s : State} (h : WF s) {a b : ℕ} (ha : a < s.size)
    (hb : b < s.size) (hp : PathAll s a b (FrameOk true s)) {l : List ℕ} (hl : Route s a b l)
    (w : ND ℝ) {n : ℕ} {rest : List ℕ} (hs : w.shape = n :: rest) {ats : List ℝ}
    (hn : ats.length = n) (hne : ats ≠ []) (hinc : NonDecreasing ats) :
    ∃ (fs : List MFrame) (T : ℝ → Pose), s.getMatcher a (.byObj b) [⟨w, some ats⟩] = .ok ⟨fs, [⟨w, some ats⟩]⟩ ∧
      let ts := commonStamps ats (ats :: l.filterMap (stampsOf s false))
      (∀ τ ∈ ts, IsTransformAt sq s a b τ (T τ) ∧ IsUnitQ (T τ).r) ∧
      ((⟨fs, [⟨w, some ats⟩]⟩ : Matcher).getTransformation sq =
          .ok (.many (ts.map fun τ => (T τ).t), .many (ts.map fun τ => (T τ).r), some ts) ∨
        (a = b ∧ (∀ τ, T τ = Pose.id) ∧
          (⟨fs, [⟨w, some ats⟩]⟩ : Matcher).getTransformation sq = .ok (.many [0], .one 1, some ts))) := by
  obtain ⟨c, la, lb, hc, hla, hlb, hok⟩ := hp
  obtain ⟨c', la', lb', hc', hla', hlb', rfl⟩ := hl
  have := hc.unique h hc'
  subst this
  rw [← hla.unique hla', ← hlb.unique hlb']
  have hg' : ∀ i ∈ la ++ lb, ∃ d, s.data i = some d ∧ GoodData d := by simpa [FrameOk] using hok
  obtain ⟨fa, fb, e, h1, h2⟩ := getMatcher_ok h ha hb hc hla hlb (fun i hi => by
    obtain ⟨d, h1, h2⟩ := hg' i hi; exact GoodData.checked h1 h2) [⟨w, some ats⟩]
  rw [addArrays_timed hs hn hinc] at e
  rcases matcher_good sq hsq h1 h2 hok [⟨w, some ats⟩] (by simpa using hne) true with
    ⟨h3, _⟩ | ⟨ts, T, g1, g2, g3, g4⟩
  · simp at h3
  · simp only [List.filterMap_cons, List.filterMap_nil, if_true, List.cons_append, List.nil_append] at g2
    have hts : ts = commonStamps ats (ats :: (la ++ lb.reverse).filterMap (stampsOf s false)) := by
      rcases g2 with ⟨x, xs, hx, g2⟩ | ⟨g2, _⟩
      · cases hx; exact g2
      · simp at g2
    subst hts
    refine ⟨fa ++ fb, T, e, fun τ hτ => ⟨(g3 τ hτ).1.isTransformAt hc hla hlb, (g3 τ hτ).2⟩, ?_⟩
    rcases g4 with g4 | ⟨g4, g5, g6, g7⟩
    · exact .inl g4
    · refine .inr ⟨?_, g6, g7⟩
      subst g4 g5
      cases hla
      cases hlb
      rfl

end RBM
