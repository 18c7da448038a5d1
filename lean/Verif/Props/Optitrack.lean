import Verif.Spec.Optitrack
import Verif.Props.Euler
import Verif.Props.NetCdf
import Verif.Props.Rosbag
import Verif.Props.LookupTop

/-!
C64: OptiTrack files.
-/

namespace RBM.Props

open RBM.Spec

/-! ### Metadata -/

theorem dictGet_foldl (l : List (String × String)) (d : List (String × String)) (k : String) :
    dictGet (l.foldl (fun d kv => dictSet d kv.1 kv.2) d) k =
      (((l.filter fun kv => decide (kv.1 = k)).getLast?.map Prod.snd).or (dictGet d k)) := by
  induction l generalizing d with
  | nil => simp
  | cons a l ih =>
    rw [List.foldl_cons, ih, dictGet_set]
    by_cases h : a.1 = k
    · rw [List.filter_cons_of_pos (by simpa using h), List.getLast?_cons, if_pos h]
      cases (l.filter fun kv => decide (kv.1 = k)).getLast? <;> simp
    · rw [List.filter_cons_of_neg (by simpa using h), if_neg h]

theorem mem_headerPairs (l : List String) (k v : String) : (k, v) ∈ headerPairs l ↔ ∃ i : ℕ, l[2 * i]? = some k ∧ l[2 * i + 1]? = some v := by
  match l with
  | [] => simp [headerPairs]
  | [a] => simp [headerPairs]
  | a :: b :: l =>
    have ih := mem_headerPairs l k v
    rw [headerPairs, List.mem_cons, ih]
    constructor
    · rintro (h | ⟨i, h1, h2⟩)
      · exact ⟨0, by simp_all⟩
      · exact ⟨i + 1, by simpa [Nat.mul_add] using h1, by simpa [Nat.mul_add] using h2⟩
    · rintro ⟨i, h1, h2⟩
      cases i with
      | zero => left; simp at h1 h2; simp [h1, h2]
      | succ i => right; exact ⟨i, by simpa [Nat.mul_add] using h1, by simpa [Nat.mul_add] using h2⟩

theorem meta_says {f : OptiFile} {k v : String} (h : HeaderSays f k v) : dictGet (optiMeta f.header) k = some v := by
  obtain ⟨h1, h2⟩ := h
  have hm := (mem_headerPairs f.header k v).mpr h1
  rw [optiMeta, dictGet_foldl]
  cases hl : ((headerPairs f.header).filter fun kv => decide (kv.1 = k)).getLast? with
  | none =>
    rw [List.getLast?_eq_none_iff, List.filter_eq_nil_iff] at hl
    exact absurd (hl (k, v) hm) (by simp)
  | some a =>
    have := List.mem_of_getLast? hl
    rw [List.mem_filter] at this
    obtain ⟨i, e1, e2⟩ := (mem_headerPairs f.header a.1 a.2).mp this.1
    have ha : a.1 = k := by simpa using this.2
    rw [ha] at e1
    simp [h2 i a.2 e1 e2]

theorem meta_silent {f : OptiFile} {k : String} (h : HeaderSilent f k) : dictGet (optiMeta f.header) k = none := by
  rw [optiMeta, dictGet_foldl]
  have : ((headerPairs f.header).filter fun kv => decide (kv.1 = k)) = [] := by
    rw [List.filter_eq_nil_iff]
    rintro ⟨a, b⟩ hm
    obtain ⟨i, e1, e2⟩ := (mem_headerPairs f.header a b).mp hm
    simp only [decide_eq_true_eq]
    rintro rfl
    exact h i b e1 e2
  rw [this]; rfl

/-! ### Rigid bodies -/

theorem mem_bodyNames (f : OptiFile) (n : String) : n ∈ bodyNames f ↔ ∃ c ∈ f.columns, c.kind = "Rigid Body" ∧ c.body = n := by
  simp [bodyNames, List.mem_mergeSort, List.mem_dedup, and_assoc]

theorem motion_has {f : OptiFile} {name motion : String} {x y z : List ℝ} (h : BodyHas f name motion x y z) :
    motionColumns (bodyColumns f name) motion =
      .ok [⟨"Rigid Body", name, motion, "X", x⟩, ⟨"Rigid Body", name, motion, "Y", y⟩, ⟨"Rigid Body", name, motion, "Z", z⟩] := by
  have : ((bodyColumns f name).filter fun c => decide (c.motion = motion)) =
      [⟨"Rigid Body", name, motion, "X", x⟩, ⟨"Rigid Body", name, motion, "Y", y⟩, ⟨"Rigid Body", name, motion, "Z", z⟩] := by
    rw [← h.1, bodyColumns, List.filter_filter]
    apply List.filter_congr
    intro c _
    simp only [← Bool.decide_and]
    congr 1
    rw [eq_iff_iff]; tauto
  simp only [motionColumns, this]
  rw [if_neg (by simp)]

theorem orderLetter_perm {a b c : Char} (h : [a, b, c].Perm ['X', 'Y', 'Z']) : [orderLetter a, orderLetter b, orderLetter c].Perm ['r', 'p', 'y'] := by
  have := h.map orderLetter
  simpa [orderLetter] using this

theorem elementary_letter {a : Char} (h : a ∈ ['X', 'Y', 'Z']) (x y z : ℝ) :
    elementary (x * Real.pi / 180) (y * Real.pi / 180) (z * Real.pi / 180) (orderLetter a) = aboutAxis x y z a := by
  simp only [List.mem_cons, List.not_mem_nil, or_false] at h
  rcases h with rfl | rfl | rfl <;> simp [elementary, orderLetter, aboutAxis]

/-- `Length Units` and the factor to metres that is applied. -/
def LengthFactor (f : OptiFile) (m : ℝ) : Prop :=
  (HeaderSays f "Length Units" "Centimeters" ∧ m = 1 / 100) ∨ (∃ u, HeaderSays f "Length Units" u ∧ u ≠ "Centimeters" ∧ m = 1) ∨
  (HeaderSilent f "Length Units" ∧ m = 1)

theorem scale_of {f : OptiFile} {m : ℝ} (h : LengthFactor f m) (x : ℝ) :
    x / (if dictGet (optiMeta f.header) "Length Units" = some "Centimeters" then (100 : ℝ) else 1) = m * x := by
  rcases h with ⟨h, rfl⟩ | ⟨u, h, hu, rfl⟩ | ⟨h, rfl⟩
  · rw [meta_says h, if_pos rfl]; ring
  · rw [meta_says h, if_neg (by simpa using hu)]; ring
  · rw [meta_silent h, if_neg (by simp)]; ring

theorem order_of {f : OptiFile} {a b c : Char} (h : RotationType f a b c) :
    ((dictGet (optiMeta f.header) "Rotation Type").getD "XYZ").toList.map orderLetter = [orderLetter a, orderLetter b, orderLetter c] := by
  rcases h.2 with h | ⟨h', rfl, rfl, rfl⟩
  · rw [meta_says h]; simp
  · rw [meta_silent h']; rfl

theorem loadBody_ok {f : OptiFile} {m : ℝ} (hm : LengthFactor f m) {a b c : Char} (ho : RotationType f a b c) (ts : List ℤ) {name : String}
    {x y z px py pz : List ℝ} (hr : BodyHas f name "Rotation" x y z) (hp : BodyHas f name "Position" px py pz) :
    ∃ body, loadBody (optiMeta f.header) f ts name = .ok (name, body) ∧ body.timestamps = ts ∧ body.positionAxes = ["x", "y", "z"] ∧
      body.position.shape = [f.seconds.length, 3] ∧ body.orientation.shape = [f.seconds.length, 4] ∧
      ∀ k < f.seconds.length, RecordedPose f name m a b c k (vec3 body.position 1 [k, 0]) (quat4 body.orientation 1 [k, 0]) := by
  set rpy : ND ℝ := (colArray f.seconds.length [x, y, z]).map fun x => x * Real.pi / 180 with hrpy
  have hax : AxisIs (-1) rpy.ndim 1 := ⟨by simp [hrpy, ND.ndim, ND.map, colArray], .inr (by simp [hrpy, ND.ndim, ND.map, colArray])⟩
  obtain ⟨q, q1, q2, q3⟩ := C42_rpy rpy hax rfl (orderLetter_perm ho.1)
  refine ⟨⟨(colArray f.seconds.length [px, py, pz]).map fun x =>
    x / (if dictGet (optiMeta f.header) "Length Units" = some "Centimeters" then (100 : ℝ) else 1), ["x", "y", "z"], q, ts⟩, ?_, rfl, rfl, rfl, ?_, ?_⟩
  · simp only [loadBody, motion_has hr, motion_has hp, bind, Except.bind, order_of ho, List.map_cons, List.map_nil]
    rw [← hrpy, q1]
    rfl
  · rw [q2]; rfl
  · intro k hk
    have hpq := q3 [k, 0] (by rw [valid_iff]; simp [hrpy, ND.map, colArray]; intro i hi; interval_cases i <;> simp [hk])
    refine ⟨?_, hpq.1, ?_⟩
    · intro x' y' z' h'
      have := h'.1.symm.trans hp.1
      simp only [List.cons.injEq, OptiColumn.mk.injEq, true_and, and_true] at this
      obtain ⟨rfl, rfl, rfl⟩ := this
      have e := scale_of hm
      simp only [vec3, ND.map, e, colArray]
      ext i; fin_cases i <;> simp
    · intro x' y' z' h' v
      have := h'.1.symm.trans hr.1
      simp only [List.cons.injEq, OptiColumn.mk.injEq, true_and, and_true] at this
      obtain ⟨rfl, rfl, rfl⟩ := this
      rw [hpq.2]
      have ha : ∀ l ∈ [a, b, c], l ∈ ['X', 'Y', 'Z'] := fun l hl => ho.1.subset hl
      have e0 : rpy.get (([k, 0] : List ℕ).set 1 0) = x'.getD k 0 * Real.pi / 180 := rfl
      have e1 : rpy.get (([k, 0] : List ℕ).set 1 1) = y'.getD k 0 * Real.pi / 180 := rfl
      have e2 : rpy.get (([k, 0] : List ℕ).set 1 2) = z'.getD k 0 * Real.pi / 180 := rfl
      rw [e0, e1, e2, elementary_letter (ha a (by simp)), elementary_letter (ha b (by simp)), elementary_letter (ha c (by simp))]

theorem names_ne {f : OptiFile} (h : GoodFile f) : bodyNames f ≠ [] := by
  obtain ⟨c, hc, hk⟩ := h.body
  have := (mem_bodyNames f c.body).mpr ⟨c, hc, hk, rfl⟩
  intro e; rw [e] at this; simp at this

/-- What is loaded, before it is converted to the requested format. -/
def Loaded (parse : String → Option ℤ) (f : OptiFile) (d : List (String × OptiBody)) : Prop :=
  loadOptitrack parse f "pandas" = .ok (.pandas d) ∧
  loadOptitrack parse f "numpy" = .ok (.numpy (d.map fun b => (b.1, b.2.position, b.2.orientation, b.2.timestamps))) ∧
  loadOptitrack parse f "xarray" = .ok (.xarray (d.map fun b => (b.1, b.2.toDataset)))

theorem load_ok (parse : String → Option ℤ) {f : OptiFile} (h : GoodFile f) {m : ℝ} (hm : LengthFactor f m) {a b c : Char} (ho : RotationType f a b c)
    {st : String} {t0 : ℤ} (hst : HeaderSays f "Capture Start Time" st) (hp : parse st = some t0) :
    ∃ d, Loaded parse f d ∧ (d.map Prod.fst).Nodup ∧ (∀ n, n ∈ d.map Prod.fst ↔ ∃ col ∈ f.columns, col.kind = "Rigid Body" ∧ col.body = n) ∧
      ∀ e ∈ d, e.2.timestamps = (f.seconds.map fun x => t0 + Ros.rint (x * 1000000000)) ∧ e.2.positionAxes = ["x", "y", "z"] ∧
        e.2.position.shape = [f.seconds.length, 3] ∧ e.2.orientation.shape = [f.seconds.length, 4] ∧
        ∀ k < f.seconds.length, RecordedPose f e.1 m a b c k (vec3 e.2.position 1 [k, 0]) (quat4 e.2.orientation 1 [k, 0]) := by
  set ts := f.seconds.map fun x => t0 + Ros.rint (x * 1000000000) with hts
  have hb : ∀ n : String, ∃ body : OptiBody, n ∈ bodyNames f → (loadBody (optiMeta f.header) f ts n = .ok (n, body) ∧ body.timestamps = ts ∧
      body.positionAxes = ["x", "y", "z"] ∧ body.position.shape = [f.seconds.length, 3] ∧ body.orientation.shape = [f.seconds.length, 4] ∧
      ∀ k < f.seconds.length, RecordedPose f n m a b c k (vec3 body.position 1 [k, 0]) (quat4 body.orientation 1 [k, 0])) := by
    intro n
    by_cases hn : n ∈ bodyNames f
    · obtain ⟨col, hc, hk, rfl⟩ := (mem_bodyNames f n).mp hn
      obtain ⟨⟨x, y, z, hr⟩, px, py, pz, hpos⟩ := h.all col hc hk
      obtain ⟨body, hbody⟩ := loadBody_ok hm ho ts hr hpos
      exact ⟨body, fun _ => hbody⟩
    · exact ⟨⟨⟨[], fun _ => 0⟩, [], ⟨[], fun _ => 0⟩, []⟩, fun h => absurd h hn⟩
  choose g hg using hb
  have hmap : (bodyNames f).mapM (loadBody (optiMeta f.header) f ts) = .ok ((bodyNames f).map fun n => (n, g n)) :=
    mapM_ok fun n hn => (hg n hn).1
  have hcm : ¬ (dictGet (optiMeta f.header) "Length Units" = some "Centimeters" ∧
      ∃ n ∈ bodyNames f, ¬ ∃ c ∈ bodyColumns f n, c.motion = "Position") := by
    rintro ⟨-, n, hn, hno⟩
    obtain ⟨col, hc, hk, rfl⟩ := (mem_bodyNames f n).mp hn
    obtain ⟨-, px, py, pz, hpos⟩ := h.all col hc hk
    have hin : (⟨"Rigid Body", col.body, "Position", "X", px⟩ : OptiColumn) ∈
        f.columns.filter fun c => decide (c.kind = "Rigid Body" ∧ c.body = col.body ∧ c.motion = "Position") := by rw [hpos.1]; simp
    rw [List.mem_filter] at hin
    exact hno ⟨_, List.mem_filter.mpr ⟨hin.1, by simp⟩, rfl⟩
  have hfst : ((bodyNames f).map fun n => (n, g n)).map Prod.fst = bodyNames f := by
    rw [List.map_map]; exact List.map_id _
  refine ⟨(bodyNames f).map fun n => (n, g n), ⟨?_, ?_, ?_⟩, ?_, ?_, ?_⟩
  · simp only [loadOptitrack, meta_says hst, hp, bind, Except.bind, if_neg (names_ne h), if_neg hcm, ← hts, Pure.pure, Except.pure, hmap, if_true]
  · simp only [loadOptitrack, meta_says hst, hp, bind, Except.bind, if_neg (names_ne h), if_neg hcm, ← hts, Pure.pure, Except.pure, hmap]
    rw [if_neg (by decide), if_pos trivial]
  · simp only [loadOptitrack, meta_says hst, hp, bind, Except.bind, if_neg (names_ne h), if_neg hcm, ← hts, Pure.pure, Except.pure, hmap]
    rw [if_neg (by decide), if_neg (by decide), if_pos trivial]
  · rw [hfst, bodyNames]
    exact (List.mergeSort_perm _ _).nodup_iff.mpr (List.nodup_dedup _)
  · intro n; rw [hfst]; exact mem_bodyNames f n
  · intro e he
    obtain ⟨n, hn, rfl⟩ := List.mem_map.mp he
    exact (hg n hn).2

/-- The unit of length is named and is not millimetres, or it is not named and numbers are kept as they are. -/
def UnitOk (f : OptiFile) (m : ℝ) : Prop :=
  (∃ u, HeaderSays f "Length Units" u ∧ u ≠ "Millimeters" ∧ metresPer u = some m) ∨ (HeaderSilent f "Length Units" ∧ m = 1)

theorem UnitOk.factor {f : OptiFile} {m : ℝ} (h : UnitOk f m) : LengthFactor f m := by
  rcases h with ⟨u, hu, hne, hm⟩ | h
  · by_cases hc : u = "Centimeters"
    · subst hc
      refine .inl ⟨hu, ?_⟩
      simpa [metresPer] using hm.symm
    · refine .inr (.inl ⟨u, hu, hc, ?_⟩)
      simp only [metresPer, if_neg hc, if_neg hne] at hm
      split at hm
      · simpa using hm.symm
      · cases hm
  · exact .inr (.inr h)

/-- Loading as numpy arrays: one entry for every rigid body (and nothing for markers) with one pose per row: the position in metres, a unit quaternion for
the rotation about the axes, and the time, which is the start time plus the seconds up to half a nanosecond. Files in millimetres are excluded. -/
theorem C64_poses_partial (parse : String → Option ℤ) {f : OptiFile} (h : GoodFile f) {m : ℝ} (hm : UnitOk f m) {a b c : Char} (ho : RotationType f a b c)
    {st : String} {t0 : ℤ} (hst : HeaderSays f "Capture Start Time" st) (hp : parse st = some t0) :
    ∃ d, loadOptitrack parse f "numpy" = .ok (.numpy d) ∧ (d.map Prod.fst).Nodup ∧
      (∀ n, n ∈ d.map Prod.fst ↔ ∃ col ∈ f.columns, col.kind = "Rigid Body" ∧ col.body = n) ∧
      ∀ name pos ori ts, (name, pos, ori, ts) ∈ d → pos.shape = [f.seconds.length, 3] ∧ ori.shape = [f.seconds.length, 4] ∧ ts.length = f.seconds.length ∧
        (∀ k < f.seconds.length, RecordedPose f name m a b c k (vec3 pos 1 [k, 0]) (quat4 ori 1 [k, 0])) ∧
        ∀ (k : ℕ) (τ : ℤ) x, ts[k]? = some τ → f.seconds[k]? = some x → |(τ : ℝ) - (t0 + x * 1000000000)| ≤ 1 / 2 := by
  obtain ⟨d, ⟨-, h1, -⟩, h2, h3, h4⟩ := load_ok parse h hm.factor ho hst hp
  have hfst : (d.map fun b => (b.1, b.2.position, b.2.orientation, b.2.timestamps)).map Prod.fst = d.map Prod.fst := by
    rw [List.map_map]; rfl
  refine ⟨_, h1, by rw [hfst]; exact h2, by rw [hfst]; exact h3, ?_⟩
  intro name pos ori ts he
  obtain ⟨e, hed, heq⟩ := List.mem_map.mp he
  obtain ⟨e1, e2, e3, e4, e5⟩ := h4 e hed
  simp only [Prod.mk.injEq] at heq
  obtain ⟨rfl, rfl, rfl, rfl⟩ := heq
  refine ⟨e3, e4, by rw [e1]; simp, e5, ?_⟩
  intro k τ x hk hx
  rw [e1, List.getElem?_map, hx] at hk
  simp only [Option.map_some, Option.some.injEq] at hk
  subst hk
  have := rint_near (x * 1000000000)
  push_cast
  convert this using 2
  ring

/-- Times that are whole nanoseconds are exact. -/
theorem C64_exact_times (parse : String → Option ℤ) {f : OptiFile} (h : GoodFile f) {m : ℝ} (hm : UnitOk f m) {a b c : Char} (ho : RotationType f a b c)
    {st : String} {t0 : ℤ} (hst : HeaderSays f "Capture Start Time" st) (hp : parse st = some t0) {ns : List ℤ}
    (hns : f.seconds = ns.map fun k : ℤ => (k : ℝ) / 1000000000) :
    ∃ d, loadOptitrack parse f "numpy" = .ok (.numpy d) ∧ ∀ name pos ori ts, (name, pos, ori, ts) ∈ d → ts = ns.map fun k => t0 + k := by
  obtain ⟨d, ⟨-, h1, -⟩, h2, h3, h4⟩ := load_ok parse h hm.factor ho hst hp
  refine ⟨_, h1, ?_⟩
  intro name pos ori ts he
  obtain ⟨e, hed, heq⟩ := List.mem_map.mp he
  simp only [Prod.mk.injEq] at heq
  obtain ⟨rfl, rfl, rfl, rfl⟩ := heq
  rw [(h4 e hed).1, hns, List.map_map]
  apply List.map_congr_left
  intro k _
  simp only [Function.comp]
  rw [div_mul_cancel₀ _ (by norm_num), rint_int]

/-- All formats hold the same data: the DataFrames have the same arrays, with axes x, y, z; the datasets have the same arrays, with dimensions time and
axis, the timestamps and the labels of the axes. -/
theorem C64_formats (parse : String → Option ℤ) {f : OptiFile} (h : GoodFile f) {m : ℝ} (hm : UnitOk f m) {a b c : Char} (ho : RotationType f a b c)
    {st : String} {t0 : ℤ} (hst : HeaderSays f "Capture Start Time" st) (hp : parse st = some t0) :
    ∃ dn dp dx, loadOptitrack parse f "numpy" = .ok (.numpy dn) ∧ loadOptitrack parse f "pandas" = .ok (.pandas dp) ∧
      loadOptitrack parse f "xarray" = .ok (.xarray dx) ∧ dp.length = dn.length ∧ dx.length = dn.length ∧
      ∀ (i : ℕ) name pos ori ts, dn[i]? = some (name, pos, ori, ts) →
        (∃ body, dp[i]? = some (name, body) ∧ body.position = pos ∧ body.orientation = ori ∧ body.timestamps = ts ∧ body.positionAxes = ["x", "y", "z"]) ∧
        ∃ vp vo, dx[i]? = some (name, vp, vo) ∧ vp.data = pos ∧ vo.data = ori ∧
          Recorded vp "position" "cartesian_axis" ["x", "y", "z"] (some (ts.map fun t : ℤ => (t : ℝ))) ∧
          Recorded vo "orientation" "quaternion_axis" ["w", "x", "y", "z"] (some (ts.map fun t : ℤ => (t : ℝ))) := by
  obtain ⟨d, ⟨l1, l2, l3⟩, h2, h3, h4⟩ := load_ok parse h hm.factor ho hst hp
  refine ⟨_, _, _, l2, l1, l3, by simp, by simp, ?_⟩
  intro i name pos ori ts hi
  rw [List.getElem?_map] at hi
  obtain ⟨e, he, heq⟩ := Option.map_eq_some_iff.mp hi
  simp only [Prod.mk.injEq] at heq
  obtain ⟨rfl, rfl, rfl, rfl⟩ := heq
  obtain ⟨e1, e2, e3, e4, -⟩ := h4 e (List.mem_of_getElem? he)
  refine ⟨⟨e.2, he, rfl, rfl, rfl, e2⟩, e.2.toDataset.1, e.2.toDataset.2, by rw [List.getElem?_map, he]; rfl, rfl, rfl, ?_, ?_⟩
  · obtain ⟨d, m1, -, -, r⟩ := recorded_of (axis := "cartesian_axis") (by decide) (labels := ["x", "y", "z"]) (ts := some (e.2.timestamps.map fun t : ℤ => (t : ℝ)))
      (arr := e.2.position) (name := "position") (attrs := []) (coords := _) rfl (by rw [e3, sampleShape, e1]; simp)
    rw [show e.2.toDataset.1 = d by rw [mkDArr_ok m1, OptiBody.toDataset, e2]; rfl]
    exact r
  · obtain ⟨d, m1, -, -, r⟩ := recorded_of (axis := "quaternion_axis") (by decide) (labels := ["w", "x", "y", "z"])
      (ts := some (e.2.timestamps.map fun t : ℤ => (t : ℝ))) (arr := e.2.orientation) (name := "orientation") (attrs := []) (coords := _) rfl
      (by rw [e4, sampleShape, e1]; simp)
    rw [show e.2.toDataset.2 = d by rw [mkDArr_ok m1, OptiBody.toDataset]; rfl]
    exact r

/-! ### What is refused -/

theorem mapM_error {α β : Type} {g : α → Res β} : ∀ {l : List α}, l ≠ [] → (∀ x ∈ l, ∃ e, g x = .error e) → ∃ e, l.mapM g = .error e
  | [], h, _ => absurd rfl h
  | a :: l, _, h => by
    obtain ⟨e, he⟩ := h a (by simp)
    exact ⟨e, by rw [List.mapM_cons, he]; rfl⟩

/-- The inverse of the replacement of letters. -/
def axisLetter (c : Char) : Char := if c = 'r' then 'X' else if c = 'p' then 'Y' else if c = 'y' then 'Z' else c

theorem axisLetter_order {c : Char} (h : c ∉ ['r', 'p', 'y']) : axisLetter (orderLetter c) = c := by
  simp only [List.mem_cons, List.not_mem_nil, or_false, not_or] at h
  obtain ⟨h1, h2, h3⟩ := h
  unfold orderLetter
  split_ifs with a b d
  · subst a; simp [axisLetter]
  · subst b; simp [axisLetter]
  · subst d; simp [axisLetter]
  · simp [axisLetter, h1, h2, h3]

/-- A rotation type whose first three letters are not a permutation of X, Y, Z (such as "Quaternion") is refused. (The internal letters r, p, y would pass.) -/
theorem C64_rotation_type_refused (parse : String → Option ℤ) (f : OptiFile) (format : String) {r : String} (hr : HeaderSays f "Rotation Type" r)
    (hperm : ¬ (r.toList.take 3).Perm ['X', 'Y', 'Z']) (hint : ∀ l ∈ r.toList.take 3, l ∉ ['r', 'p', 'y']) :
    ∃ e, loadOptitrack parse f format = .error e := by
  have hno : ¬ OrderOk (r.toList.map orderLetter) := by
    intro h
    have h2 := h.map axisLetter
    rw [← List.map_take, List.map_map] at h2
    have h3 : (r.toList.take 3).map (axisLetter ∘ orderLetter) = r.toList.take 3 := by
      conv_rhs => rw [← List.map_id (r.toList.take 3)]
      apply List.map_congr_left
      intro c hc
      exact axisLetter_order (hint c hc)
    rw [h3] at h2
    exact hperm (by simpa [axisLetter] using h2)
  have hbody : ∀ ts n, ∃ e, loadBody (optiMeta f.header) f ts n = .error e := by
    intro ts n
    simp only [loadBody, meta_says hr, Option.getD_some, bind, Except.bind]
    cases motionColumns (bodyColumns f n) "Rotation" with
    | error e => exact ⟨e, rfl⟩
    | ok rot =>
      simp only
      obtain ⟨e, -, he⟩ := C42_order_never_accepted { rpy := some ((colArray f.seconds.length (rot.map OptiColumn.data)).map fun x => x * Real.pi / 180), order := r.toList.map orderLetter } hno
      exact ⟨e, by rw [he]⟩
  simp only [loadOptitrack, bind, Except.bind]
  cases dictGet (optiMeta f.header) "Capture Start Time" with
  | none => exact ⟨_, rfl⟩
  | some st =>
    simp only
    cases hps : parse st with
    | none => exact ⟨_, rfl⟩
    | some t0 =>
      simp only
      by_cases h1 : bodyNames f = []
      · rw [if_pos h1]; exact ⟨_, rfl⟩
      · rw [if_neg h1]
        simp only [Pure.pure, Except.pure]
        by_cases h2 : dictGet (optiMeta f.header) "Length Units" = some "Centimeters" ∧
            ∃ n ∈ bodyNames f, ¬ ∃ c ∈ bodyColumns f n, c.motion = "Position"
        · rw [if_pos h2]; exact ⟨_, rfl⟩
        · rw [if_neg h2]
          obtain ⟨e, he⟩ := mapM_error h1 fun n _ => hbody (f.seconds.map fun x => t0 + Ros.rint (x * 1000000000)) n
          simp only [he]
          exact ⟨_, rfl⟩

/-- Other formats are never returned. -/
theorem C64_format_refused (parse : String → Option ℤ) (f : OptiFile) {format : String} (h : format ∉ ["numpy", "pandas", "xarray"]) :
    ∃ e, loadOptitrack parse f format = .error e := by
  simp only [List.mem_cons, List.not_mem_nil, or_false, not_or] at h
  obtain ⟨h1, h2, h3⟩ := h
  cases hr : loadOptitrack parse f format with
  | error e => exact ⟨e, rfl⟩
  | ok r =>
    exfalso
    simp only [loadOptitrack, bind, Except.bind, if_neg h1, if_neg h2, if_neg h3] at hr
    (repeat' split at hr) <;> cases hr

/-- Missing metadata or rigid bodies. -/
theorem C64_missing (parse : String → Option ℤ) (f : OptiFile) (format : String) :
    (HeaderSilent f "Capture Start Time" → loadOptitrack parse f format = .error .keyError) ∧
    (∀ st, HeaderSays f "Capture Start Time" st → parse st = none → loadOptitrack parse f format = .error .valueError) ∧
    (∀ st t0, HeaderSays f "Capture Start Time" st → parse st = some t0 → (∀ c ∈ f.columns, c.kind ≠ "Rigid Body") →
      loadOptitrack parse f format = .error .keyError) := by
  refine ⟨?_, ?_, ?_⟩
  · intro h
    simp only [loadOptitrack, meta_silent h, bind, Except.bind]
  · intro st h hp
    simp only [loadOptitrack, meta_says h, hp, bind, Except.bind]
  · intro st t0 h hp hc
    have : bodyNames f = [] := by
      rw [List.eq_nil_iff_forall_not_mem]
      intro n hn
      obtain ⟨c, h1, h2, -⟩ := (mem_bodyNames f n).mp hn
      exact hc c h1 h2
    simp only [loadOptitrack, meta_says h, hp, bind, Except.bind, this, if_true]
    rfl

/-! ### Examples -/

/-- A file with one rigid body and a marker, two rows, with the given unit of length. -/
noncomputable def exFile (unit : String) : OptiFile :=
  ⟨["Take Name", "Test", "Capture Start Time", "now", "Rotation Type", "ZYX", "Length Units", unit, "Total", "2", ""], [0, 1 / 2],
   [⟨"Rigid Body", "head", "Rotation", "X", [0, 90]⟩, ⟨"Rigid Body", "head", "Rotation", "Y", [0, 0]⟩, ⟨"Rigid Body", "head", "Rotation", "Z", [0, 180]⟩,
    ⟨"Rigid Body", "head", "Position", "X", [0, 100]⟩, ⟨"Rigid Body", "head", "Position", "Y", [0, 200]⟩, ⟨"Rigid Body", "head", "Position", "Z", [0, 300]⟩,
    ⟨"Marker", "head:1", "Position", "X", [5, 5]⟩]⟩

theorem exFile_rot (u : String) : BodyHas (exFile u) "head" "Rotation" [0, 90] [0, 0] [0, 180] := by
  refine ⟨?_, rfl, rfl, rfl⟩
  simp [exFile, List.filter_cons]

theorem exFile_pos (u : String) : BodyHas (exFile u) "head" "Position" [0, 100] [0, 200] [0, 300] := by
  refine ⟨?_, rfl, rfl, rfl⟩
  simp [exFile, List.filter_cons]

theorem exFile_good (u : String) : GoodFile (exFile u) := by
  refine ⟨⟨⟨"Rigid Body", "head", "Rotation", "X", [0, 90]⟩, by simp [exFile], rfl⟩, ?_⟩
  intro c hc hk
  have : c.body = "head" := by
    simp only [exFile, List.mem_cons, List.not_mem_nil, or_false] at hc
    rcases hc with rfl | rfl | rfl | rfl | rfl | rfl | rfl <;> first | rfl | simp at hk
  rw [this]
  exact ⟨⟨_, _, _, exFile_rot u⟩, _, _, _, exFile_pos u⟩

theorem exFile_says (u : String) {k v : String} (i : ℕ) (h : (exFile u).header[2 * i]? = some k) (h' : (exFile u).header[2 * i + 1]? = some v)
    (hu : k = "Capture Start Time" ∨ k = "Rotation Type" ∨ k = "Length Units") : HeaderSays (exFile u) k v := by
  refine ⟨⟨i, h, h'⟩, ?_⟩
  have hi : i < 6 := by
    have := (List.getElem?_eq_some_iff.mp h).1
    simp [exFile] at this; omega
  intro j w hj hw
  have hj6 : j < 6 := by
    have := (List.getElem?_eq_some_iff.mp hj).1
    simp [exFile] at this; omega
  rcases hu with rfl | rfl | rfl <;>
  · interval_cases j <;> interval_cases i <;> simp_all [exFile]

/-- In centimetres: the second position is (1, 2, 3) metres, the second orientation first rotates by 90 degrees about x, then by 180 degrees about z. -/
example : ∃ d pos ori, loadOptitrack (fun _ => some 7) (exFile "Centimeters") "numpy" = .ok (.numpy d) ∧ ("head", pos, ori, [7, 500000007]) ∈ d ∧
    vec3 pos 1 [1, 0] = ![1, 2, 3] ∧ ∀ v, rot (quat4 ori 1 [1, 0]) v = rotZ (180 * Real.pi / 180) (rotY (0 * Real.pi / 180) (rotX (90 * Real.pi / 180) v)) := by
  have hr : RotationType (exFile "Centimeters") 'Z' 'Y' 'X' := ⟨by decide, .inl (exFile_says _ 2 rfl rfl (by simp))⟩
  have hu : UnitOk (exFile "Centimeters") (1 / 100) := .inl ⟨_, exFile_says _ 3 rfl rfl (by simp), by decide, by simp [metresPer]⟩
  have hst := exFile_says "Centimeters" (k := "Capture Start Time") 1 rfl rfl (by simp)
  obtain ⟨d, h1, h2, h3, h4⟩ := C64_poses_partial (fun _ => some 7) (exFile_good _) hu hr hst rfl
  obtain ⟨d', h1', h5⟩ := C64_exact_times (fun _ => some 7) (exFile_good _) hu hr hst rfl (ns := [0, 500000000]) (by simp [exFile]; norm_num)
  rw [h1] at h1'
  cases h1'
  obtain ⟨⟨n, pos, ori, ts⟩, he, hn⟩ := List.mem_map.mp ((h3 "head").mpr ⟨⟨"Rigid Body", "head", "Rotation", "X", [0, 90]⟩, by simp [exFile], rfl, rfl⟩)
  simp only at hn
  subst hn
  have hts := h5 _ _ _ _ he
  simp only [List.map_cons, List.map_nil] at hts
  norm_num at hts
  subst hts
  obtain ⟨-, -, -, h6, -⟩ := h4 _ _ _ _ he
  have h7 := h6 1 (by simp [exFile])
  refine ⟨d, pos, ori, h1, he, ?_, ?_⟩
  · rw [h7.position _ _ _ (exFile_pos _)]
    norm_num
  · intro v
    rw [h7.rotation _ _ _ (exFile_rot _)]
    simp [aboutAxis]

/-- In millimetres: the second position should be (0.1, 0.2, 0.3) metres, but is (100, 200, 300). -/
theorem C64_millimetres_is_false : metresPer "Millimeters" = some (1 / 1000) ∧ HeaderSays (exFile "Millimeters") "Length Units" "Millimeters" ∧
    ∃ d pos ori ts, loadOptitrack (fun _ => some 7) (exFile "Millimeters") "numpy" = .ok (.numpy d) ∧ ("head", pos, ori, ts) ∈ d ∧
      vec3 pos 1 [1, 0] = ![100, 200, 300] := by
  have hmm := exFile_says "Millimeters" (k := "Length Units") 3 rfl rfl (by simp)
  refine ⟨by simp [metresPer], hmm, ?_⟩
  have hr : RotationType (exFile "Millimeters") 'Z' 'Y' 'X' := ⟨by decide, .inl (exFile_says _ 2 rfl rfl (by simp))⟩
  obtain ⟨d, ⟨-, h1, -⟩, h2, h3, h4⟩ := load_ok (fun _ => some 7) (exFile_good "Millimeters") (m := 1) (.inr (.inl ⟨_, hmm, by decide, rfl⟩)) hr
    (exFile_says "Millimeters" (k := "Capture Start Time") 1 rfl rfl (by simp)) rfl
  obtain ⟨⟨n, body⟩, he, hn⟩ := List.mem_map.mp ((h3 "head").mpr ⟨⟨"Rigid Body", "head", "Rotation", "X", [0, 90]⟩, by simp [exFile], rfl, rfl⟩)
  simp only at hn
  subst hn
  refine ⟨_, body.position, body.orientation, body.timestamps, h1, List.mem_map.mpr ⟨_, he, rfl⟩, ?_⟩
  rw [((h4 _ he).2.2.2.2 1 (by simp [exFile])).position _ _ _ (exFile_pos _)]
  norm_num

/-- `C64_formats` and the refusals on the same file. -/
example : ∃ dn dp dx, loadOptitrack (fun _ => some 7) (exFile "Centimeters") "numpy" = .ok (.numpy dn) ∧ loadOptitrack (fun _ => some 7) (exFile "Centimeters") "pandas" = .ok (.pandas dp) ∧
    loadOptitrack (fun _ => some 7) (exFile "Centimeters") "xarray" = .ok (.xarray dx) ∧ dp.length = dn.length ∧ dx.length = dn.length := by
  have hr : RotationType (exFile "Centimeters") 'Z' 'Y' 'X' := ⟨by decide, .inl (exFile_says _ 2 rfl rfl (by simp))⟩
  have hu : UnitOk (exFile "Centimeters") (1 / 100) := .inl ⟨_, exFile_says _ 3 rfl rfl (by simp), by decide, by simp [metresPer]⟩
  have hst := exFile_says "Centimeters" (k := "Capture Start Time") 1 rfl rfl (by simp)
  obtain ⟨dn, dp, dx, h1, h2, h3, h4, h5, -⟩ := C64_formats (fun _ => some 7) (exFile_good _) hu hr hst rfl
  exact ⟨dn, dp, dx, h1, h2, h3, h4, h5⟩

example (parse : String → Option ℤ) : ∃ e, loadOptitrack parse (exFile "Meters") "csv" = .error e := C64_format_refused parse _ (by decide)

example : loadOptitrack (fun _ => none) (exFile "Meters") "numpy" = .error .valueError :=
  (C64_missing (fun _ => none) (exFile "Meters") "numpy").2.1 "now" (exFile_says "Meters" (k := "Capture Start Time") 1 rfl rfl (by simp)) rfl

end RBM.Props
