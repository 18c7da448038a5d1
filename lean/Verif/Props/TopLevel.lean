import Verif.Props.CoordSystems
import Verif.Props.Transform
import Verif.Props.TransformQuat
import Verif.Props.TransformLaws

/-!
The top level transform functions, end to end (C57).
-/

namespace RBM.Props

open RBM Spec

theorem mem_dictSet' {α : Type} {l : List (String × α)} {k : String} {v : α} {c : String × α} (hl : (l.map Prod.fst).Nodup)
    (h : c ∈ dictSet l k v) : c = (k, v) ∨ (c ∈ l ∧ c.1 ≠ k) := by
  induction l with
  | nil => left; simpa [dictSet] using h
  | cons a l ih =>
    obtain ⟨k', v'⟩ := a
    have hl' := List.nodup_cons.mp hl
    simp only [dictSet] at h
    split at h
    · rename_i e
      rcases List.mem_cons.mp h with h | h
      · exact .inl h
      · refine .inr ⟨List.mem_cons_of_mem _ h, fun hc => ?_⟩
        exact hl'.1 (by simpa [e, ← hc] using List.mem_map_of_mem (f := Prod.fst) h)
    · rename_i e
      rcases List.mem_cons.mp h with h | h
      · exact .inr ⟨h ▸ List.mem_cons_self, by rw [h]; exact e⟩
      · rcases ih hl'.2 h with h | ⟨h, h'⟩
        exacts [.inl h, .inr ⟨List.mem_cons_of_mem _ h, h'⟩]

theorem zipWith_map_self {α β γ : Type} (f : α → β → γ) (g : α → β) : ∀ l : List α, List.zipWith f l (l.map g) = l.map fun a => f a (g a)
  | [] => rfl
  | a :: l => by simp [zipWith_map_self f g l]

/-- Packing a timed result always succeeds if the result has the layout of the input with another
number of timestamps. -/
theorem pack_timed (x : XrOps) (hx : XrLaw x) {d : DArr} (hok : DArr.Ok d) {td : String} {q : ℕ} (hq : DimAt d td q) {ats : List ℝ}
    (hc : dictGet d.info.coords td = some ⟨[td], .num (ofList ats)⟩) (attrs : List (String × Option String)) {arr : ND ℝ} {ts : List ℝ}
    (hs : arr.shape = d.data.shape.set q ts.length) :
    ∃ out, makeDataArray x arr { d.info with attrs := attrs } (some td) (some ts) = .ok out := by
  obtain ⟨hm, hi, hqn⟩ := idxOf_of_dimAt hok hq
  have hq' : q < d.data.shape.length := hqn
  have hgetq : (d.data.shape.set q ts.length).getD q 0 = ts.length := by simp [hq']
  have hget : ∀ e, e ∈ d.info.dims → e ≠ td → (d.data.shape.set q ts.length).getD (d.info.dims.idxOf e) 0 = d.data.shape.getD (d.info.dims.idxOf e) 0 := by
    intro e he hne
    have : q ≠ d.info.dims.idxOf e := by
      intro h
      rw [← hi] at h
      exact hne ((List.idxOf_inj hm).mp h).symm
    simp [List.getD_eq_getElem?_getD, List.getElem?_set_ne this]
  have hndim : d.info.dims.length = arr.ndim := by rw [hok.ndim]; simp [ND.ndim, hs]
  have hmk : ∀ coords, (∀ c ∈ coords, (∀ e ∈ c.2.dims, e ∈ d.info.dims) ∧
      c.2.vals.shape = c.2.dims.map fun e => arr.shape.getD (d.info.dims.idxOf e) 0) →
      mkDArr arr { d.info with attrs := attrs, coords := coords } = .ok ⟨arr, { d.info with attrs := attrs, coords := coords }⟩ := by
    intro coords h
    simp only [mkDArr]
    rw [if_neg (not_not.mpr hndim), if_pos]
    rw [List.all_eq_true]
    intro c hcm
    simp only [decide_eq_true_eq]
    exact h c hcm
  simp only [makeDataArray, hc]
  split
  · rename_i he
    have hl : ts.length = ats.length := by
      have e1 : (ofList ats).entries = ats := vec1_entries ats
      rw [e1] at he; rw [he]
    refine ⟨_, hmk d.info.coords fun c hcm => ⟨hok.coordDims c hcm, ?_⟩⟩
    rw [hok.coordShape c hcm, hs]
    apply List.map_congr_left
    intro e he
    by_cases hne : e = td
    · subst hne
      rw [hi, hgetq]
      have h2 := hok.coordShape _ (mem_of_dictGet hc)
      simp only [CVals.shape, ofList, List.map_cons, List.map_nil, hi, List.cons.injEq, and_true] at h2
      rw [← h2, hl]
    · rw [hget e (hok.coordDims c hcm e he) hne]
  · refine ⟨_, hmk _ fun c hcm => ?_⟩
    have hkeys : ((resampleCoords x td ts d.info.coords).map Prod.fst).Nodup := by
      have : (resampleCoords x td ts d.info.coords).map Prod.fst = d.info.coords.map Prod.fst := by
        simp only [resampleCoords, List.map_map]
        apply List.map_congr_left
        intro c _
        simp only [Function.comp]
        split <;> rfl
      rw [this]; exact hok.keys
    rcases mem_dictSet' hkeys hcm with rfl | ⟨hcm, hne⟩
    · refine ⟨fun e he => ?_, ?_⟩
      · have : e = td := by simpa using he
        rw [this]; exact hm
      · simp only [CVals.shape, ND.vec1, List.map_cons, List.map_nil, hi, hs, hgetq]
    · obtain ⟨c', hc', rfl⟩ := List.mem_map.mp hcm
      have hd' := hok.coordDims c' hc'
      have hs' := hok.coordShape c' hc'
      have hlen : c'.2.vals.shape.length = c'.2.dims.length := by rw [hs']; simp
      have key : (List.zipWith (fun e (n : ℕ) => if e = td then ts.length else n) c'.2.dims c'.2.vals.shape) =
          c'.2.dims.map fun e => arr.shape.getD (d.info.dims.idxOf e) 0 := by
        rw [hs', zipWith_map_self, hs]
        apply List.map_congr_left
        intro e he
        by_cases h : e = td
        · subst h; rw [if_pos rfl, hi, hgetq]
        · rw [if_neg h, hget e (hd' e he) h]
      by_cases hsp : td ∈ c'.2.dims ∧ c'.1 ≠ td
      · simp only [hsp, and_self, if_true, not_false_eq_true, ne_eq]
        by_cases hnum : c'.2.vals.isNum
        · simp only [hnum, if_true, hx.interp_dims, hx.interp_shape _ _ _ hlen, key]
          exact ⟨hd', trivial⟩
        · simp only [hnum, hx.sel_dims, hx.sel_shape _ _ _ hlen, key, Bool.false_eq_true, if_false]
          exact ⟨hd', trivial⟩
      · have hne' : c'.1 ≠ td := by simpa only [if_neg hsp] using hne
        have hnt : td ∉ c'.2.dims := fun h => hsp ⟨h, hne'⟩
        simp only [if_neg hsp]
        refine ⟨hd', ?_⟩
        rw [hs', hs]
        apply List.map_congr_left
        intro e he
        rw [hget e (hd' e he) (fun h => hnt (h ▸ he))]

theorem source_resolve {s : State} {d : DArr} {outof : Option FrameRef} {what : String} {a : ℕ} (h : SourceFrame s d outof what a) :
    resolveOutof s outof (some d.info) what = .ok a := by
  rcases h with ⟨f, rfl, h⟩ | ⟨rfl, n, h1, h2⟩
  · exact h
  · have h1' : dictGet d.info.attrs what = some (some n) := h1
    simp only [resolveOutof, h1', attrFrame, h2]

theorem top_timed (x : XrOps) (hx : XrLaw x) {s : State} {method : MethodFn} {what : String} {d : DArr} {dim td : String} {p q : ℕ}
    {ats : List ℝ} (hd : TimedDA d dim td p q ats) (hne : dim ≠ td) {into : FrameRef} {o : TopArgs} (hdim : o.dim = some dim) (hax : o.axis = none)
    (hts : o.timestamps = .name td) {a b : ℕ} (ha : SourceFrame s d o.outof what a) (hb : s.resolve into = .ok b) {arr : ND ℝ} {ts : List ℝ}
    (hm : method what a d.data (.byObj b) ⟨p, some q, some (ofList ats), true⟩ = .ok (.withTs arr (some ts)))
    (hs : arr.shape = d.data.shape.set q ts.length) :
    ∃ out, transformTop x s method what (.da d) into o = .ok (.da out) ∧ out.data = arr ∧ Labelled d out td ts what (s.name b) := by
  have hcoord : d.dimCoord td = .ok (ofList ats) := by simp only [DArr.dimCoord, hd.coord]
  have hu := C56_dims hd.ok hd.space hd.time hne hcoord o.timeAxis
  obtain ⟨out, hout⟩ := pack_timed x hx hd.ok hd.time hd.coord
    (dictSet (dictSet d.info.attrs what (s.name b)) "representation_frame" (s.name b)) hs
  have hr : transformTop x s method what (.da d) into o = .ok (.da out) := by
    simp only [transformTop, hdim, hax, hts, hu, bind, Except.bind, source_resolve ha, hb, TsArg.toND, hm, packResult, Option.map_some,
      hout, Pure.pure, Except.pure]
  refine ⟨out, hr, ?_⟩
  obtain ⟨out', u, src, dst, arr', ts', e1, e2, e3, e4, e5, e6, e7, e8, e9, e10, -⟩ := C57_result x s method what hd.ok into o hr
  cases e1
  rw [hdim, hax, hts, hu] at e2
  cases e2
  rw [hb] at e3
  cases e3
  obtain ⟨ts'', rfl, f1, f2, f3⟩ := e10 td rfl
  have harr : out.data = arr ∧ ts'' = ts := by
    simp only [makeDataArray, hd.coord] at hout
    split at hout
    · rename_i he
      have h1 := mkDArr_ok hout
      subst h1
      refine ⟨rfl, ?_⟩
      have hst := f2
      obtain ⟨c, v, g1, g2, g3, g4, g5⟩ := hst
      have : some c = some ⟨[td], .num (ofList ats)⟩ := g1.symm.trans hd.coord
      cases this
      cases g3
      have e : (ofList ats).entries = ats := vec1_entries ats
      rw [e] at he
      subst he
      simp only [ofList, List.cons.injEq, and_true] at g4
      refine List.ext_getElem g4.symm fun i h1 h2 => ?_
      rw [← g5 i h1]
      simp [ofList, h2]
    · have h1 := mkDArr_ok hout
      subst h1
      refine ⟨rfl, ?_⟩
      obtain ⟨c, v, g1, g2, g3, g4, g5⟩ := f2
      rw [show dictGet (DArr.info _).coords td = some ⟨[td], .num (ND.vec1 ts)⟩ by simp only [dictGet_set, if_true]] at g1
      cases g1
      cases g3
      simp only [ND.vec1, List.cons.injEq, and_true] at g4
      refine List.ext_getElem g4.symm fun i h1 h2 => ?_
      rw [← g5 i h1]
      simp [ND.vec1, h2]
  obtain ⟨h1, rfl⟩ := harr
  exact ⟨h1, f1, e6, f2, f3, e7, e8, e9⟩

/-- `transform_vectors` of a DataArray with named dimensions: every vector is rotated as for plain
arrays and the labels are kept. -/
theorem C57_vectors (sq : SquadFn) (hsq : SquadLaw sq) (x : XrOps) (hx : XrLaw x) {s : State} {h : List Event} (hr : Reachable s h)
    {d : DArr} {dim td : String} {p q : ℕ} {ats : List ℝ} (hd : TimedDA d dim td p q ats) (hne : dim ≠ td)
    (h3 : d.data.shape.getD p 0 = 3) (hp0 : p ≠ 0) (h4 : p + 1 = d.data.ndim ∨ 4 ∉ d.data.shape)
    {into : FrameRef} {outof : Option FrameRef} {a b : ℕ} (ha : SourceFrame s d outof "representation_frame" a) (hb : s.resolve into = .ok b)
    (has : a < s.size) (hbs : b < s.size) (hp : PathAll s a b (FrameOk true s)) {l : List ℕ} (hl : Route s a b l) :
    ∃ out, topVectors sq x s (.da d) into { outof := outof, dim := some dim, timestamps := .name td } = .ok (.da out) ∧
      Labelled d out td (outStamps s l ats) "representation_frame" (s.name b) ∧
      out.data.shape = d.data.shape.set q (outStamps s l ats).length ∧
      ∀ (i k : ℕ) τ, (outStamps s l ats)[i]? = some τ → ats[k]? = some τ →
        ∃ A, IsTransformAt sq s a b τ A ∧ ∀ idx, Valid d.data.shape idx →
          vec3 out.data p (idx.set q i) = rot A.r (vec3 d.data p (idx.set q k)) := by
  have hpn := (idxOf_of_dimAt hd.ok hd.space).2.2
  have hqn := (idxOf_of_dimAt hd.ok hd.time).2.2
  have hpq : p ≠ q := by
    rintro rfl
    have h1 := hd.space; have h2 := hd.time
    rw [DimAt] at h1 h2; rw [h1] at h2; exact hne (Option.some.inj h2)
  obtain ⟨arr, e1, e2, e3⟩ := C15_vectors_timed sq hsq hr has hbs hp hl d.data ⟨p, some q, some (ofList ats), true⟩ (axisIs_nat hpn) h3 rfl
    (axisIs_nat hqn) rfl hd.timed hp0 hpq h4
  obtain ⟨out, o1, rfl, o3⟩ := top_timed x hx hd hne (o := { outof := outof, dim := some dim, timestamps := .name td }) rfl rfl rfl ha hb
    (method := fun _ a v dst t => s.transformVectors sq a v dst t) e1 e2
  exact ⟨out, o1, o3, e2, e3⟩

/-- `transform_points` of a DataArray with named dimensions, the spatial one last. -/
theorem C57_points (sq : SquadFn) (hsq : SquadLaw sq) (x : XrOps) (hx : XrLaw x) {s : State} {h : List Event} (hr : Reachable s h)
    {d : DArr} {dim td : String} {p q : ℕ} {ats : List ℝ} (hd : TimedDA d dim td p q ats) (hne : dim ≠ td)
    (h3 : d.data.shape.getD p 0 = 3) (hp0 : p ≠ 0) (hlast : p + 1 = d.data.ndim)
    {into : FrameRef} {outof : Option FrameRef} {a b : ℕ} (ha : SourceFrame s d outof "reference_frame" a) (hb : s.resolve into = .ok b)
    (has : a < s.size) (hbs : b < s.size) (hp : PathAll s a b (FrameOk true s)) {l : List ℕ} (hl : Route s a b l) :
    ∃ out, topPoints sq x s (.da d) into { outof := outof, dim := some dim, timestamps := .name td } = .ok (.da out) ∧
      Labelled d out td (outStamps s l ats) "reference_frame" (s.name b) ∧
      out.data.shape = d.data.shape.set q (outStamps s l ats).length ∧
      ∀ (i k : ℕ) τ, (outStamps s l ats)[i]? = some τ → ats[k]? = some τ →
        ∃ A, IsTransformAt sq s a b τ A ∧ ∀ idx, Valid d.data.shape idx →
          vec3 out.data p (idx.set q i) = A.act (vec3 d.data p (idx.set q k)) := by
  have hpn := (idxOf_of_dimAt hd.ok hd.space).2.2
  have hqn := (idxOf_of_dimAt hd.ok hd.time).2.2
  have hpq : p ≠ q := by
    rintro rfl
    have h1 := hd.space; have h2 := hd.time
    rw [DimAt] at h1 h2; rw [h1] at h2; exact hne (Option.some.inj h2)
  obtain ⟨arr, e1, e2, e3⟩ := C15_points_timed sq hsq hr has hbs hp hl d.data ⟨p, some q, some (ofList ats), true⟩ (axisIs_nat hpn) h3 rfl
    (axisIs_nat hqn) rfl hd.timed hp0 hpq hlast
  obtain ⟨out, o1, rfl, o3⟩ := top_timed x hx hd hne (o := { outof := outof, dim := some dim, timestamps := .name td }) rfl rfl rfl ha hb
    (method := fun _ a v dst t => s.transformPoints sq a v dst t) e1 e2
  exact ⟨out, o1, o3, e2, e3⟩

/-- `transform_quaternions` of a DataArray of orientations (time, quaternion components). -/
theorem C57_quaternions (sq : SquadFn) (hsq : SquadLaw sq) (x : XrOps) (hx : XrLaw x) {s : State} {h : List Event} (hr : Reachable s h)
    {d : DArr} {dim td : String} {ats : List ℝ} (hd : TimedDA d dim td 1 0 ats) (hne : dim ≠ td)
    (h2 : d.data.ndim = 2) (h4 : d.data.shape.getD 1 0 = 4) (hunit : ∀ i < ats.length, IsUnitQ (quat4 d.data 1 [i, 0]))
    {into : FrameRef} {outof : Option FrameRef} {a b : ℕ} (ha : SourceFrame s d outof "reference_frame" a) (hb : s.resolve into = .ok b)
    (has : a < s.size) (hbs : b < s.size) (hp : PathAll s a b (FrameOk true s)) {l : List ℕ} (hl : Route s a b l) :
    ∃ out, topQuaternions sq x s (.da d) into { outof := outof, dim := some dim, timestamps := .name td } = .ok (.da out) ∧
      Labelled d out td (outStamps s l ats) "reference_frame" (s.name b) ∧
      out.data.shape = d.data.shape.set 0 (outStamps s l ats).length ∧
      ∀ (i k : ℕ) τ, (outStamps s l ats)[i]? = some τ → ats[k]? = some τ →
        ∃ A, IsTransformAt sq s a b τ A ∧ ∀ idx, Valid d.data.shape idx →
          quat4 out.data 1 (idx.set 0 i) = A.r * quat4 d.data 1 (idx.set 0 k) := by
  obtain ⟨arr, e1, e2, e3⟩ := C16_orientations_timed sq hsq hr has hbs hp hl d.data ⟨(1 : ℕ), some (0 : ℕ), some (ofList ats), true⟩
    (axisIs_nat (by omega)) h4 rfl (axisIs_nat (by omega)) rfl hd.timed (by omega) (by omega) (.inl ⟨h2, hunit⟩)
  obtain ⟨out, o1, rfl, o3⟩ := top_timed x hx hd hne (o := { outof := outof, dim := some dim, timestamps := .name td }) rfl rfl rfl ha hb
    (method := fun _ a v dst t => s.transformQuaternions sq a v dst t) e1 e2
  exact ⟨out, o1, o3, e2, e3⟩

/-- An xarray that fulfils the contract. -/
noncomputable def exXr : XrOps :=
  ⟨fun c td ts => ⟨c.dims, .num ⟨List.zipWith (fun e (n : ℕ) => if e = td then ts.length else n) c.dims c.vals.shape, fun _ => 0⟩⟩,
   fun c td ts => ⟨c.dims, .lab ⟨List.zipWith (fun e (n : ℕ) => if e = td then ts.length else n) c.dims c.vals.shape, fun _ => ""⟩⟩⟩

theorem exXr_law : XrLaw exXr := ⟨fun _ _ _ => rfl, fun _ _ _ => rfl, fun _ _ _ _ => rfl, fun _ _ _ _ => rfl⟩

/-- Three positions in the frame `m`, with a coordinate that counts the samples. -/
noncomputable def exTimed : DArr :=
  ⟨Ex.arr2 3 [[1, 2, 3], [4, 5, 6], [7, 8, 9]],
   ⟨[("time", ⟨["time"], .num (ofList [-1, 0, 1])⟩), ("sample", ⟨["time"], .num (ofList [1, 2, 3])⟩),
     ("cartesian_axis", labelCoord "cartesian_axis" ["x", "y", "z"])], ["time", "cartesian_axis"], some "position",
    [("reference_frame", some "m")]⟩⟩

theorem exTimed_ok : TimedDA exTimed "cartesian_axis" "time" 1 0 [-1, 0, 1] := by
  refine ⟨⟨rfl, by simp [exTimed], ?_, ?_, by simp [exTimed], ?_⟩, rfl, rfl, rfl,
    ⟨by simp [exTimed, ND.ndim, Ex.arr2], rfl, by simp, by simp [StrictlyIncreasing]⟩⟩
  · intro c hc
    simp only [exTimed, List.mem_cons, List.not_mem_nil, or_false] at hc
    rcases hc with rfl | rfl | rfl <;> simp [labelCoord, exTimed]
  · intro c hc
    simp only [exTimed, List.mem_cons, List.not_mem_nil, or_false] at hc
    rcases hc with rfl | rfl | rfl <;> simp [labelCoord, exTimed, CVals.shape, ofList, Ex.arr2, List.idxOf, List.findIdx, List.findIdx.go]
  · intro k c hc hk
    simp only [exTimed, List.mem_cons, List.not_mem_nil, or_false] at hk
    rcases hk with rfl | rfl
    · simp [exTimed, dictGet, List.lookup] at hc; subst hc; rfl
    · simp [exTimed, dictGet, List.lookup] at hc; subst hc; rfl

/-- They are transformed from the moving frame `m` (by its name in the attributes) into `d`; the first
one is before the motion starts. -/
example : ∃ out, topPoints Ex.holdSquad exXr Ex.m3 (.da exTimed) (.byName "d") { dim := some "cartesian_axis", timestamps := .name "time" } = .ok (.da out) ∧
    Labelled exTimed out "time" [0, 1] "reference_frame" (some "d") ∧ out.data.shape = [2, 3] := by
  have hres : ∀ n (k : ℕ), Ex.m3.reg.lookup n = some k → Ex.m3.resolve (.byName n) = .ok k := by
    intro n k h; simp [State.resolve, dictGet, h]
  obtain ⟨out, h1, h2, h3, -⟩ := C57_points Ex.holdSquad Ex.holdSquad_law exXr exXr_law Ex.reachM exTimed_ok (by decide) rfl (by decide) rfl
    (into := .byName "d") (outof := none) (a := 1) (b := 2) (.inr ⟨rfl, "m", rfl, hres _ _ (by rw [Ex.m3_eq]; rfl)⟩) (hres _ _ (by rw [Ex.m3_eq]; rfl))
    (by rw [Ex.m3_eq]; norm_num) (by rw [Ex.m3_eq]; norm_num) ex_pathAll_moving ex_route_moving
  rw [ex_outStamps] at h2 h3
  exact ⟨out, h1, by rw [Ex.m3_eq] at h2; exact h2, by rw [h3]; rfl⟩

end RBM.Props
