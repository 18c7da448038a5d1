import Verif.Spec.Lookups
import Verif.Props.Series
import Verif.Props.TopLevel

/-!
C70: single static points and vectors as DataArrays.
-/

namespace RBM.Props

open RBM.Spec

/-- A DataArray with one dimension only, without timestamps: the default axis. -/
theorem unpack_single {d : DArr} {dim : String} (hdims : d.info.dims = [dim]) (h1 : d.data.ndim = 1) :
    maybeUnpack (.da d) none none none .none = .ok ⟨d.data, -1, some dim, none, none, .none, some d.info⟩ := by
  have e1 : unpackAxis d none none = .ok (-1, dim) := by
    simp only [unpackAxis, orDefault, bind, Except.bind, tupleGet, hdims, normAxis]
    rfl
  have e2 : unpackTime d none .none = .ok (none, none, .none) := by
    rw [unpackTime, if_neg (by omega)]
  simp only [maybeUnpack, e1, e2, bind, Except.bind, checkAxes]

theorem mkDArr_intro {arr : ND ℝ} {m : Meta} (h1 : m.dims.length = arr.ndim) (h2 : ∀ c ∈ m.coords, (∀ x ∈ c.2.dims, x ∈ m.dims) ∧
    c.2.vals.shape = c.2.dims.map fun x => arr.shape.getD (m.dims.idxOf x) 0) : mkDArr arr m = .ok ⟨arr, m⟩ := by
  rw [mkDArr, if_neg (by simpa using h1), if_pos]
  simpa only [List.all_eq_true, decide_eq_true_eq] using h2

/-- Results of transforms of such an array. -/
theorem top_single (x : XrOps) {s : State} {method : MethodFn} {what : String} {d : DArr} (hok : DArr.Ok d) {dim : String} (hdims : d.info.dims = [dim])
    (hdim : dim ≠ "time") {n : ℕ} (hs : d.data.shape = [n])
    {into : FrameRef} {outof : Option FrameRef} {a b : ℕ} (ha : SourceFrame s d outof what a) (hb : s.resolve into = .ok b) {arr : ND ℝ}
    {ts : Option (List ℝ)} (hm : method what a d.data (.byObj b) ⟨-1, none, none, true⟩ = .ok (.withTs arr ts)) (hsh : arr.shape = sampleShape n ts) :
    ∃ out, transformTop x s method what (.da d) into { outof := outof } = .ok (.da out) ∧ out.data = arr ∧
      LabelledNewTime d out ts what (s.name b) := by
  have h1 : d.data.ndim = 1 := by simp [ND.ndim, hs]
  have hu := unpack_single hdims h1
  have hkeep : ∀ c ∈ d.info.coords, c.2.dims.map (fun x => d.data.shape.getD (d.info.dims.idxOf x) 0) = c.2.vals.shape := fun c hc => (hok.coordShape c hc).symm
  have hcd : ∀ c ∈ d.info.coords, ∀ y ∈ c.2.dims, y = dim := by
    intro c hc y hy
    have := hok.coordDims c hc y hy
    rw [hdims] at this
    simpa using this
  obtain ⟨out, hout⟩ : ∃ out, makeDataArray x arr { d.info with
      attrs := dictSet (dictSet d.info.attrs what (s.name b)) "representation_frame" (s.name b) } none ts = .ok out := by
    cases ts with
    | none =>
      simp only [makeDataArray]
      refine ⟨_, mkDArr_intro (by simp [hdims, ND.ndim, hsh, sampleShape]) ?_⟩
      intro c hc
      refine ⟨hok.coordDims c hc, ?_⟩
      rw [← hkeep c hc, show arr.shape = d.data.shape by rw [hsh, hs]; rfl]
    | some l =>
      simp only [makeDataArray]
      refine ⟨_, mkDArr_intro (by simp [hdims, ND.ndim, hsh, sampleShape]) ?_⟩
      intro c hc
      rcases mem_dictSet' hok.keys hc with rfl | ⟨hc, _⟩
      · simp [CVals.shape, ND.vec1, hsh, sampleShape]
      · refine ⟨fun y hy => List.mem_cons_of_mem _ (hok.coordDims c hc y hy), ?_⟩
        rw [← hkeep c hc]
        apply List.map_congr_left
        intro y hy
        have e := hcd c hc y hy
        subst e
        have hne : ("time" == y) = false := by simpa using fun h : "time" = y => hdim h.symm
        have hi : List.idxOf y ["time", y] = 1 := by rw [List.idxOf_cons, hne]; simp
        rw [hsh, hs]
        simp only [hdims, hi]
        simp [sampleShape]
  have hr : transformTop x s method what (.da d) into { outof := outof } = .ok (.da out) := by
    simp only [transformTop, hu, bind, Except.bind, source_resolve ha, hb, TsArg.toND, hm, packResult, Option.map_some,
      hout, Pure.pure, Except.pure]
  refine ⟨out, hr, ?_⟩
  have harr : out.data = arr := by
    cases ts with
    | none => rw [mkDArr_ok hout]
    | some l => rw [mkDArr_ok hout]
  obtain ⟨out', u, src, dst, arr', ts', e1, e2, e3, e4, e5, e6, e7, e8, e9, _, e10⟩ := C57_result x s method what hok into _ hr
  cases e1
  rw [hu] at e2
  cases e2
  rw [hb] at e3
  cases e3
  obtain ⟨f1, f2⟩ := e10 rfl
  refine ⟨harr, ?_⟩
  cases ts with
  | none =>
    have e := mkDArr_ok hout
    subst e
    exact ⟨rfl, rfl, by simp, fun k _ => rfl, e7, e8, e9⟩
  | some l =>
    have e := mkDArr_ok hout
    subst e
    refine ⟨rfl, rfl, ?_, ?_, e7, e8, e9⟩
    · rintro l' ⟨⟩
      exact ⟨⟨["time"], .num (ND.vec1 l)⟩, ND.vec1 l, by simp only [dictGet_set, if_true], rfl, rfl, rfl, fun i h => by simp [ND.vec1, h]⟩
    · intro k hk
      simp only [dictGet_set]
      rw [if_neg (Ne.symm hk)]

section

variable {sq : SquadFn} {x : XrOps} {s : State} {h : List Event} {a b : ℕ} {d : DArr} {dim : String} {into : FrameRef} {outof : Option FrameRef}

/-- A single static point given as DataArray: transformed between static frames, or to one point for every timestamp of the lookup with a new
time dimension. -/
theorem C70_point_partial (hsq : SquadLaw sq) (hr : Reachable s h) (hok : DArr.Ok d) (hdims : d.info.dims = [dim]) (hdim : dim ≠ "time")
    (h3 : d.data.shape = [3]) (h1 : SourceFrame s d outof "reference_frame" a) (h2 : s.resolve into = .ok b)
    (ha : a < s.size) (hb : b < s.size) (hp : PathAll s a b (FrameOk true s)) :
    ∃ out t r ts, topPoints sq x s (.da d) into { outof := outof } = .ok (.da out) ∧ s.lookupTransform sq a (.byObj b) = .ok (t, r, ts) ∧
      LabelledNewTime d out ts "reference_frame" (s.name b) ∧ out.data.shape = sampleShape 3 ts ∧
      ∀ τ v, SampleAt out.data ts τ v → ∃ A, IsTransformAt sq s a b τ A ∧ v = A.act (vec3 d.data 0 [0]) := by
  obtain ⟨c0, la0, lb0, hc0, hla0, hlb0, _⟩ := id hp
  have hl : Route s a b (la0 ++ lb0.reverse) := ⟨c0, la0, lb0, hc0, hla0, hlb0, rfl⟩
  rcases lookup_facts sq hsq hr ha hb hp hl with ⟨A, e, hA, _, hps⟩ | ⟨hm, _⟩
  · obtain ⟨B, out, f1, f2, f3, f4, f5⟩ := C15_points_static sq hr ha hb hps d.data ⟨-1, none, none, true⟩ (p := 0)
      ⟨by simp [ND.ndim, h3], .inr (by simp [ND.ndim, h3])⟩ (by simp [ND.ndim, h3]) (by simp [h3]) rfl (by intro t ht; cases ht)
    obtain ⟨o, o1, rfl, o3⟩ := top_single x hok hdims hdim h3 h1 h2 (method := fun _ a v dst t => s.transformPoints sq a v dst t) f3
      (by rw [f4, h3]; rfl)
    refine ⟨o, _, _, _, o1, f2, o3, by rw [f4, h3]; rfl, fun τ v hv => ⟨B, f1 τ, ?_⟩⟩
    rw [show v = _ from hv]
    exact f5 [0] (by rw [h3]; exact ⟨by omega, trivial⟩)
  · obtain ⟨out, ts, tl, rl, f1, f2, f3, f4⟩ := single_point sq hsq hr ha hb hp hl hm d.data h3 true none (by intro t ht; cases ht)
    obtain ⟨o, o1, rfl, o3⟩ := top_single x hok hdims hdim h3 h1 h2 (method := fun _ a v dst t => s.transformPoints sq a v dst t) f1 f3
    refine ⟨o, _, _, _, o1, f2, o3, f3, ?_⟩
    rintro τ v ⟨k, hk, rfl⟩
    exact f4 k τ hk

/-- The same for a single static vector. -/
theorem C70_vector_partial (hsq : SquadLaw sq) (hr : Reachable s h) (hok : DArr.Ok d) (hdims : d.info.dims = [dim]) (hdim : dim ≠ "time")
    (h3 : d.data.shape = [3]) (h1 : SourceFrame s d outof "representation_frame" a) (h2 : s.resolve into = .ok b)
    (ha : a < s.size) (hb : b < s.size) (hp : PathAll s a b (FrameOk true s)) :
    ∃ out t r ts, topVectors sq x s (.da d) into { outof := outof } = .ok (.da out) ∧ s.lookupTransform sq a (.byObj b) = .ok (t, r, ts) ∧
      LabelledNewTime d out ts "representation_frame" (s.name b) ∧ out.data.shape = sampleShape 3 ts ∧
      ∀ τ v, SampleAt out.data ts τ v → ∃ A, IsTransformAt sq s a b τ A ∧ v = rot A.r (vec3 d.data 0 [0]) := by
  obtain ⟨c0, la0, lb0, hc0, hla0, hlb0, _⟩ := id hp
  have hl : Route s a b (la0 ++ lb0.reverse) := ⟨c0, la0, lb0, hc0, hla0, hlb0, rfl⟩
  rcases lookup_facts sq hsq hr ha hb hp hl with ⟨A, e, hA, _, hps⟩ | ⟨hm, _⟩
  · obtain ⟨B, out, f1, f2, f3, f4, f5⟩ := C15_vectors_static sq hr ha hb hps d.data ⟨-1, none, none, true⟩ (p := 0)
      ⟨by simp [ND.ndim, h3], .inr (by simp [ND.ndim, h3])⟩ (by simp [h3]) rfl (by intro t ht; cases ht)
    obtain ⟨o, o1, rfl, o3⟩ := top_single x hok hdims hdim h3 h1 h2 (method := fun _ a v dst t => s.transformVectors sq a v dst t) f3
      (by rw [f4, h3]; rfl)
    refine ⟨o, _, _, _, o1, f2, o3, by rw [f4, h3]; rfl, fun τ v hv => ⟨B, f1 τ, ?_⟩⟩
    rw [show v = _ from hv]
    exact f5 [0] (by rw [h3]; exact ⟨by omega, trivial⟩)
  · obtain ⟨out, ts, tl, rl, f1, f2, f3, f4⟩ := single_vector sq hsq hr ha hb hp hl hm d.data h3 true none (by intro t ht; cases ht)
    obtain ⟨o, o1, rfl, o3⟩ := top_single x hok hdims hdim h3 h1 h2 (method := fun _ a v dst t => s.transformVectors sq a v dst t) f1 f3
    refine ⟨o, _, _, _, o1, f2, o3, f3, ?_⟩
    rintro τ v ⟨k, hk, rfl⟩
    exact f4 k τ hk

/-- Naming the dimension of a single static point or vector makes the transform into a moving frame fail, unless the lookup happens to have three
timestamps. -/
theorem C70_named_dim_fails (hsq : SquadLaw sq) (hr : Reachable s h) (hok : DArr.Ok d) (hdims : d.info.dims = [dim])
    (h3 : d.data.shape = [3]) (h1 : SourceFrame s d outof "reference_frame" a) (h2 : s.resolve into = .ok b)
    (ha : a < s.size) (hb : b < s.size) (hp : PathAll s a b (FrameOk true s)) {l : List ℕ} (hl : Route s a b l) (hm : Moving s l) :
    ∃ t r ts, s.lookupTransform sq a (.byObj b) = .ok (t, r, some ts) ∧
      (ts.length ≠ 3 → topPoints sq x s (.da d) into { outof := outof, dim := some dim } = .error .valueError) := by
  obtain ⟨m, ts, T, e1, hT, e2, e3, tl, rl, e4⟩ := core_moving sq hsq hr.wf ha hb hp hl hm d.data
  refine ⟨_, _, _, e4, fun hn => ?_⟩
  have hd1 : d.data.ndim = 1 := by simp [ND.ndim, h3]
  have hu : maybeUnpack (.da d) (some dim) none none .none = .ok ⟨d.data, 0, some dim, none, none, .none, some d.info⟩ := by
    have k1 : unpackAxis d (some dim) none = .ok (0, dim) := by
      simp [unpackAxis, bind, Except.bind, tupleIndex, hdims, Pure.pure, Except.pure]
    have k2 : unpackTime d none .none = .ok (none, none, .none) := by
      rw [unpackTime, if_neg (by omega)]
    simp only [maybeUnpack, k1, k2, bind, Except.bind, checkAxes]
  have hts : (d.data.tileN1 ts.length).shape = [ts.length, 3] := by simp [ND.tileN1, h3]
  have hnd : (d.data.tileN1 ts.length).ndim = 2 := by simp [ND.ndim, hts]
  obtain ⟨Q, q1, q2, _⟩ := expand_quats (ts.map fun τ => (T τ).r) (d := 2) (le_refl 2)
  have hrot : rotateVectorsF (expandSingletonAxes (ND.ofQuats (.many (ts.map fun τ => (T τ).r))) (d.data.tileN1 ts.length).ndim)
      (d.data.tileN1 ts.length) 0 = .error .valueError := by
    rw [hnd]
    simp only [rotateVectorsF]
    cases hsw : (expandSingletonAxes (ND.ofQuats (.many (ts.map fun τ => (T τ).r))) 2).swapaxesZ (-1) (-1) with
    | error e => rw [hsw] at q1; simp [bind, Except.bind] at q1
    | ok X =>
      rw [hsw] at q1
      simp only [bind, Except.bind] at q1 ⊢
      simp only [q1]
      have hqn : Q.ndim = 1 := by simp [ND.ndim, q2]
      simp only [rotateVectorsQ, hqn, hnd]
      simp [normAxis, hts, hn]
  have hax : AxisIs 0 d.data.ndim 0 := ⟨by omega, .inl rfl⟩
  have hmeth : s.transformPoints sq a d.data (.byObj b) ⟨0, none, none, true⟩ = .error .valueError := by
    simp only [State.transformPoints, State.transformPointsCore, validateInput_static hax (show d.data.shape.getD 0 0 = 3 by simp [h3]),
      bind, Except.bind, e1, e2, e3, hrot]
  simp only [topPoints, transformTop, hu, bind, Except.bind, source_resolve h1, h2, TsArg.toND, hmeth]

end

/-! ### Examples -/

theorem ex_route_d : Route Ex.m3 2 0 [2] := by
  have e := Ex.m3_eq
  have p2 : Ex.m3.parent 2 = some 0 := by rw [e]; simp
  exact ⟨0, [2], [], ⟨.single p2, .refl, fun d _ h => h⟩, .up (by simp) p2 .here, .here, rfl⟩

theorem ex_pathAll_d : PathAll Ex.m3 2 0 (FrameOk true Ex.m3) := by
  have e := Ex.m3_eq
  have p2 : Ex.m3.parent 2 = some 0 := by rw [e]; simp
  refine ⟨0, [2], [], ⟨.single p2, .refl, fun d _ h => h⟩, .up (by simp) p2 .here, .here, ?_⟩
  intro i hi
  have : i = 2 := by simpa using hi
  subst this
  simp only [FrameOk, if_true]
  exact ⟨Ex.dataD, by rw [e]; simp, Ex.goodD⟩

/-- One point in the frame `d`. -/
noncomputable def exPoint : DArr :=
  ⟨Ex.arr1 [1, 2, 3], ⟨[("cartesian_axis", labelCoord "cartesian_axis" ["x", "y", "z"])], ["cartesian_axis"], some "position",
    [("reference_frame", some "d"), ("representation_frame", some "d")]⟩⟩

theorem exPoint_ok : DArr.Ok exPoint := by
  refine ⟨rfl, by simp [exPoint], ?_, ?_, by simp [exPoint], ?_⟩
  · simp [exPoint, labelCoord]
  · simp [exPoint, labelCoord, CVals.shape, Ex.arr1]
  · intro k c hc hk
    simp only [exPoint, List.mem_cons, List.not_mem_nil, or_false] at hk
    subst hk
    simp [exPoint, dictGet, List.lookup] at hc
    subst hc
    rfl

theorem ex_resolve (n : String) (k : ℕ) (h : Ex.m3.reg.lookup n = some k) : Ex.m3.resolve (.byName n) = .ok k := by
  simp [State.resolve, dictGet, h]

/-- Non-vacuous: the point in the moving frame `d` becomes one point in the world for every event. -/
example : ∃ out t r ts, topPoints Ex.holdSquad exXr Ex.m3 (.da exPoint) (.byName "world") {} = .ok (.da out) ∧
      Ex.m3.lookupTransform Ex.holdSquad 2 (.byObj 0) = .ok (t, r, ts) ∧
      LabelledNewTime exPoint out ts "reference_frame" (Ex.m3.name 0) ∧ out.data.shape = sampleShape 3 ts ∧
      ∀ τ v, SampleAt out.data ts τ v → ∃ A, IsTransformAt Ex.holdSquad Ex.m3 2 0 τ A ∧ v = A.act (vec3 exPoint.data 0 [0]) :=
  C70_point_partial Ex.holdSquad_law Ex.reachM exPoint_ok rfl (by decide) rfl (.inr ⟨rfl, "d", rfl, ex_resolve _ _ (by rw [Ex.m3_eq]; rfl)⟩)
    (ex_resolve _ _ (by rw [Ex.m3_eq]; rfl)) (by rw [Ex.m3_eq]; norm_num) (by rw [Ex.m3_eq]; norm_num) ex_pathAll_d

/-- C70 is false if the dimension of the array is given by name. -/
theorem C70_named_dim_is_false : ¬ ∀ (sq : SquadFn), SquadLaw sq → ∀ (x : XrOps), XrLaw x → ∀ (s : State) (h : List Event), Reachable s h →
    ∀ (a b : ℕ), a < s.size → b < s.size → PathAll s a b (FrameOk true s) → ∀ (d : DArr) (dim : String) (into : FrameRef), DArr.Ok d → d.info.dims = [dim] →
      dim ≠ "time" → d.data.shape = [3] → SourceFrame s d none "reference_frame" a → s.resolve into = .ok b →
      ∃ out, topPoints sq x s (.da d) into { dim := some dim } = .ok out := by
  intro hall
  have r1 := ex_resolve "d" 2 (by rw [Ex.m3_eq]; rfl)
  have r0 := ex_resolve "world" 0 (by rw [Ex.m3_eq]; rfl)
  have hm : Moving Ex.m3 [2] := ⟨2, by simp, true, [1, 2], by rw [Ex.m3_eq]; simp [stampsOf, Ex.dataD]⟩
  obtain ⟨out, e⟩ := hall _ Ex.holdSquad_law _ exXr_law _ _ Ex.reachM 2 0 (by rw [Ex.m3_eq]; norm_num) (by rw [Ex.m3_eq]; norm_num) ex_pathAll_d
    exPoint "cartesian_axis" (.byName "world") exPoint_ok rfl (by decide) rfl (.inr ⟨rfl, "d", rfl, r1⟩) r0
  obtain ⟨t, r, ts, e1, e2⟩ := C70_named_dim_fails (x := exXr) Ex.holdSquad_law Ex.reachM exPoint_ok (d := exPoint) (outof := none) rfl rfl
    (.inr ⟨rfl, "d", rfl, r1⟩) r0 (by rw [Ex.m3_eq]; norm_num) (by rw [Ex.m3_eq]; norm_num) ex_pathAll_d ex_route_d hm
  obtain ⟨h1, h2⟩ := C27_discrete_events _ Ex.holdSquad_law Ex.reachM (by rw [Ex.m3_eq]; norm_num) (by rw [Ex.m3_eq]; norm_num) ex_pathAll_d ex_route_d e1
    (by simp [Ex.m3_eq, stampsOf, Ex.dataD])
  have hsub : ts ⊆ [1, 2] := by
    intro y hy
    obtain ⟨i, hi, ev, hev, hy⟩ := (h2 y).mp hy
    have : i = 2 := by simpa using hi
    subst this
    rw [Ex.m3_eq] at hev
    simp [stampsOf, Ex.dataD] at hev
    subst hev
    exact hy
  have hnd : ts.Nodup := by refine List.Pairwise.imp ?_ h1; intro p q hpq; exact ne_of_lt hpq
  have hlen : ts.length ≤ 2 := (hnd.subperm hsub).length_le
  rw [e2 (by omega)] at e
  simp at e

end RBM.Props
