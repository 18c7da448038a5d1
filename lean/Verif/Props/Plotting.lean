import Verif.Spec.Plotting
import Verif.Props.TopLevel
import Verif.Props.Transform
import Verif.Props.TransformStatic
import Verif.Props.LookupExamples
import Verif.Props.Rotations

/-!
C69: plots.
-/

namespace RBM.Props

open RBM.Spec RBM.Plot

/-! ### matplotlib -/

/-- A model of matplotlib that obeys the contract: the limits are the extreme coordinates, widened by 1/20. -/
noncomputable def exLim (l : List ℝ) : ℝ × ℝ := (l.foldr min 0 - 1 / 20, l.foldr max 0 + 1 / 20)

theorem exLim_spec (l : List ℝ) : (exLim l).1 < (exLim l).2 ∧ ∀ c ∈ l, (exLim l).1 ≤ c ∧ c ≤ (exLim l).2 := by
  have h : l.foldr min 0 ≤ 0 ∧ 0 ≤ l.foldr max 0 ∧ ∀ c ∈ l, l.foldr min 0 ≤ c ∧ c ≤ l.foldr max 0 := by
    induction l with
    | nil => simp
    | cons a l ih =>
      obtain ⟨h1, h2, h3⟩ := ih
      simp only [List.foldr_cons]
      refine ⟨(min_le_right _ _).trans h1, h2.trans (le_max_right _ _), ?_⟩
      intro c hc
      rcases List.mem_cons.mp hc with rfl | hc
      · exact ⟨min_le_left _ _, le_max_left _ _⟩
      · exact ⟨(min_le_right _ _).trans (h3 c hc).1, (h3 c hc).2.trans (le_max_right _ _)⟩
  simp only [exLim]
  refine ⟨by linarith, fun c hc => ⟨by linarith [(h.2.2 c hc).1], by linarith [(h.2.2 c hc).2]⟩⟩

noncomputable def exMpl : Mpl :=
  ⟨fun pts => ⟨exLim (pts.map (· 0)), exLim (pts.map (· 1)), exLim (pts.map (· 2))⟩, fun c => (c - 1, c + 1)⟩

/-- The contract can be met. -/
theorem exMpl_law : MplLaw exMpl := by
  refine ⟨fun pts => ⟨⟨(exLim_spec _).1, (exLim_spec _).1, (exLim_spec _).1⟩, fun v hv => ⟨?_, ?_, ?_⟩⟩, fun c => ⟨?_, ?_, ?_⟩⟩
  · exact (exLim_spec _).2 _ (List.mem_map.mpr ⟨v, hv, rfl⟩)
  · exact (exLim_spec _).2 _ (List.mem_map.mpr ⟨v, hv, rfl⟩)
  · exact (exLim_spec _).2 _ (List.mem_map.mpr ⟨v, hv, rfl⟩)
  all_goals simp only [exMpl]; linarith

/-! ### Limits -/

theorem setLim_of_lt (m : Mpl) {p : ℝ × ℝ} (h : p.1 < p.2) : setLim m p = p := by
  rw [setLim, if_neg h.ne]

/-- All axes get the same scale; the middle of every axis is kept and nothing that was visible is cut off. -/
theorem C69_equal_scale (m : Mpl) (a : Axes3) (h : Lims.Proper a.lims) :
    EqualScale (setAxesEqual m a).lims ∧ Lims.Proper (setAxesEqual m a).lims ∧ Shows (setAxesEqual m a).lims a.lims ∧
      (setAxesEqual m a).lims.x.1 + (setAxesEqual m a).lims.x.2 = a.lims.x.1 + a.lims.x.2 ∧
      (setAxesEqual m a).lims.y.1 + (setAxesEqual m a).lims.y.2 = a.lims.y.1 + a.lims.y.2 ∧
      (setAxesEqual m a).lims.z.1 + (setAxesEqual m a).lims.z.2 = a.lims.z.1 + a.lims.z.2 := by
  obtain ⟨hx, hy, hz⟩ := h
  set l := a.lims with hl
  have ax : |l.x.2 - l.x.1| = l.x.2 - l.x.1 := abs_of_pos (by linarith)
  have ay : |l.y.2 - l.y.1| = l.y.2 - l.y.1 := abs_of_pos (by linarith)
  have az : |l.z.2 - l.z.1| = l.z.2 - l.z.1 := abs_of_pos (by linarith)
  obtain ⟨r, hr⟩ : ∃ r, r = 1 / 2 * max (max |l.x.2 - l.x.1| |l.y.2 - l.y.1|) |l.z.2 - l.z.1| := ⟨_, rfl⟩
  have h1 : l.x.2 - l.x.1 ≤ 2 * r := by rw [hr, ax, ay, az]; have := le_max_left (max (l.x.2 - l.x.1) (l.y.2 - l.y.1)) (l.z.2 - l.z.1); have := le_max_left (l.x.2 - l.x.1) (l.y.2 - l.y.1); linarith
  have h2 : l.y.2 - l.y.1 ≤ 2 * r := by rw [hr, ax, ay, az]; have := le_max_left (max (l.x.2 - l.x.1) (l.y.2 - l.y.1)) (l.z.2 - l.z.1); have := le_max_right (l.x.2 - l.x.1) (l.y.2 - l.y.1); linarith
  have h3 : l.z.2 - l.z.1 ≤ 2 * r := by rw [hr, ax, ay, az]; have := le_max_right (max (l.x.2 - l.x.1) (l.y.2 - l.y.1)) (l.z.2 - l.z.1); linarith
  have e : (setAxesEqual m a).lims = ⟨((l.x.1 + l.x.2) / 2 - r, (l.x.1 + l.x.2) / 2 + r), ((l.y.1 + l.y.2) / 2 - r, (l.y.1 + l.y.2) / 2 + r),
      ((l.z.1 + l.z.2) / 2 - r, (l.z.1 + l.z.2) / 2 + r)⟩ := by
    simp only [setAxesEqual, ← hl, ← hr]
    rw [setLim_of_lt, setLim_of_lt, setLim_of_lt] <;> simp only <;> linarith
  rw [e]
  refine ⟨⟨by simp only; ring, by simp only; ring⟩, ⟨by simp only; linarith, by simp only; linarith, by simp only; linarith⟩, ?_, by simp only; ring, by simp only; ring,
    by simp only; ring⟩
  rintro v ⟨⟨a1, a2⟩, ⟨b1, b2⟩, c1, c2⟩
  exact ⟨⟨by simp only; linarith, by simp only; linarith⟩, ⟨by simp only; linarith, by simp only; linarith⟩, by simp only; linarith, by simp only; linarith⟩

theorem autoscale_proper {m : Mpl} (hm : MplLaw m) {ax : Axes3} (h : Lims.Proper ax.lims) (pts : List Vec) : Lims.Proper (autoscale m ax pts).lims := by
  simp only [autoscale]
  split
  · exact (hm.scale _).1
  · exact h

/-- Axes that already have the same scale stay as they are. -/
theorem setAxesEqual_fixed (m : Mpl) {a : Axes3} (h : Lims.Proper a.lims) (he : EqualScale a.lims) : (setAxesEqual m a).lims = a.lims := by
  obtain ⟨hx, hy, hz⟩ := h
  have h3 : |a.lims.z.2 - a.lims.z.1| = a.lims.z.2 - a.lims.z.1 := abs_of_pos (by linarith)
  have h1 : |a.lims.x.2 - a.lims.x.1| = |a.lims.y.2 - a.lims.y.1| := by rw [he.1]
  have h2 : |a.lims.y.2 - a.lims.y.1| = |a.lims.z.2 - a.lims.z.1| := by rw [he.2]
  have g1 := he.1; have g2 := he.2
  simp only [setAxesEqual, h1, h2, h3, max_self]
  rw [setLim_of_lt, setLim_of_lt, setLim_of_lt]
  · rcases a with ⟨⟨⟨x1, x2⟩, ⟨y1, y2⟩, ⟨z1, z2⟩⟩, _⟩
    simp only at *
    simp only [Lims.mk.injEq, Prod.mk.injEq]
    refine ⟨⟨?_, ?_⟩, ⟨?_, ?_⟩, ?_, ?_⟩ <;> linarith
  all_goals simp only; linarith

/-! ### Points -/

theorem rows3_points {arr : ND ℝ} {pts : List Vec} (h : Points arr pts) : rows3 arr = .ok pts := by
  cases h with
  | one h =>
    simp only [rows3, h, ne_eq, not_true, if_false]
    congr 2
    funext i; fin_cases i <;> rfl
  | many n h =>
    simp only [rows3, h, ne_eq, not_true, if_false]
    congr 2
    funext r i; fin_cases i <;> rfl

/-- `plot_points`: the points of the array are plotted; the axes get the same scale. If autoscaling is on (new axes), all points are visible. -/
theorem C69_points_partial {m : Mpl} (hm : MplLaw m) (ax : Axes3) (hax : Lims.Proper ax.lims) {arr : ND ℝ} {pts : List Vec} (h : Points arr pts) :
    (plotPoints m ax arr).2 = .ok pts ∧ (plotPoints m ax arr).1.lines = ax.lines ++ [pts] ∧ EqualScale (plotPoints m ax arr).1.lims ∧
      Lims.Proper (plotPoints m ax arr).1.lims ∧
      (ax.auto = true → ∀ v ∈ ax.data ++ pts, Visible (plotPoints m ax arr).1.lims v) := by
  simp only [plotPoints, rows3_points h]
  obtain ⟨h1, h2, h3, -⟩ := C69_equal_scale m (autoscale m { ax with lines := ax.lines ++ [pts] } pts) (autoscale_proper hm hax pts)
  refine ⟨trivial, rfl, h1, h2, fun ha v hv => h3 v ?_⟩
  simp only [autoscale, ha, if_true]
  exact (hm.scale _).2 v hv

/-- All other shapes are refused and nothing is plotted. -/
theorem C69_points_refused (m : Mpl) (ax : Axes3) (arr : ND ℝ) (h : arr.shape ≠ [3] ∧ ∀ n, arr.shape ≠ [n, 3]) :
    ∃ e, plotPoints m ax arr = (ax, .error e) ∧ ∀ base color length, plotVectors m ax arr base color length = (ax, .error e) := by
  have : ∃ e, rows3 arr = .error e := by
    simp only [rows3]
    split
    · exact ⟨_, rfl⟩
    · rename_i k hk
      rw [if_pos (by rintro rfl; exact h.1 hk)]; exact ⟨_, rfl⟩
    · rename_i n k hk
      rw [if_pos (by rintro rfl; exact h.2 n hk)]; exact ⟨_, rfl⟩
    · exact ⟨_, rfl⟩
  obtain ⟨e, he⟩ := this
  exact ⟨e, by simp only [plotPoints, he], fun _ _ _ => by simp only [plotVectors, he]⟩

/-- A second plot on the same axes should be visible too, but is not: plotting switches autoscaling off. -/
theorem C69_second_plot_is_false {m : Mpl} (hm : MplLaw m) (ax : Axes3) (hax : Lims.Proper ax.lims) {arr : ND ℝ} {pts : List Vec} (h : Points arr pts) :
    ∃ arr' v, Points arr' [v] ∧ (plotPoints m (plotPoints m ax arr).1 arr').2 = .ok [v] ∧
      ¬ Visible (plotPoints m (plotPoints m ax arr).1 arr').1.lims v := by
  obtain ⟨-, -, e1, e2, -⟩ := C69_points_partial hm ax hax h
  have hauto : (plotPoints m ax arr).1.auto = false := by simp only [plotPoints, rows3_points h]; rfl
  set ax' := (plotPoints m ax arr).1 with hax'
  set v : Vec := ![ax'.lims.x.2 + 1, 0, 0] with hv
  have hp : Points (listArr v) [v] := by
    have : vec3 (listArr v) 0 [0] = v := by
      funext i; fin_cases i <;> simp [vec3, listArr, hv, Fin.ofNat]
    have h2 := Points.one (arr := listArr v) rfl
    rwa [this] at h2
  refine ⟨listArr v, v, hp, (C69_points_partial hm ax' e2 hp).1, ?_⟩
  intro hvis
  simp only [plotPoints, rows3_points hp] at hvis
  set b := autoscale m { ax' with lines := ax'.lines ++ [[v]] } [v] with hb
  have hbl : b.lims = ax'.lims := by simp [hb, autoscale, hauto]
  obtain ⟨g1, g2, -, g4, g5, g6⟩ := C69_equal_scale m b (by rw [hbl]; exact e2)
  rw [hbl] at g4 g5 g6
  obtain ⟨⟨-, c⟩, -⟩ := hvis
  have hmax : (setAxesEqual m b).lims.x.2 = ax'.lims.x.2 := by
    have h1 : |ax'.lims.x.2 - ax'.lims.x.1| = |ax'.lims.y.2 - ax'.lims.y.1| := by rw [e1.1]
    have h2 : |ax'.lims.y.2 - ax'.lims.y.1| = |ax'.lims.z.2 - ax'.lims.z.1| := by rw [e1.2]
    have h3 : |ax'.lims.z.2 - ax'.lims.z.1| = ax'.lims.z.2 - ax'.lims.z.1 := abs_of_pos (by linarith [e2.2.2])
    simp only [setAxesEqual, hbl, h1, h2, h3, max_self]
    rw [setLim_of_lt _ (by simp only; linarith [e2.2.2])]
    simp only
    have := e1.1; have := e1.2
    linarith
  rw [hmax] at c
  simp [hv] at c
  linarith

/-! ### Frames -/

theorem worldPoint_static (sq : SquadFn) (x : XrOps) {s : State} {h : List Event} (hr : Reachable s h) {f w : ℕ} {world : FrameRef}
    (hf : f < s.size) (hw : w < s.size) (hb : s.resolve world = .ok w) (hp : PathAll s f w (FrameOk false s)) :
    ∃ A, (∀ τ, IsTransformAt sq s f w τ A) ∧ s.lookupTransform sq f (.byObj w) = .ok (.one A.t, .one A.r, none) ∧
      ∀ p : Vec, ∃ v : ND ℝ, worldPoint sq x s f (some world) p = .ok v ∧ v.ndim = 1 ∧ coords3 v = A.act p := by
  have key : ∀ p : Vec, ∃ A, (∀ τ, IsTransformAt sq s f w τ A) ∧ s.lookupTransform sq f (.byObj w) = .ok (.one A.t, .one A.r, none) ∧
      ∃ v : ND ℝ, worldPoint sq x s f (some world) p = .ok v ∧ v.ndim = 1 ∧ coords3 v = A.act p := by
    intro p
    obtain ⟨A, out, h1, h2, h3, h4, h5⟩ := C15_points_static sq hr hf hw hp (listArr p) ⟨-1, some 0, none, true⟩ (p := 0)
      ⟨by simp [ND.ndim, listArr], Or.inr (by simp [ND.ndim, listArr])⟩ (by simp [ND.ndim, listArr]) rfl rfl
      (by rintro t ht; obtain rfl : t = 0 := by simpa using ht.symm
          exact ⟨by simp [ND.ndim, listArr], Or.inl rfl⟩)
    refine ⟨A, h1, h2, out, ?_, by simp [ND.ndim, h4, listArr], ?_⟩
    · have hf' : s.resolve (.byObj f) = .ok f := by simp [State.resolve, hf]
      simp only [worldPoint, topPoints, transformTop, C56_plain, orDefault, resolveOutof, bind, Except.bind, hf', hb, Option.map, TsArg.toND, h3,
        returned, if_true, packResult]
      rfl
    · have := h5 [0] (by simp [listArr, Valid])
      funext i
      have e1 : vec3 (listArr p) 0 [0] = p := by
        funext i; fin_cases i <;> simp [vec3, listArr, Fin.ofNat]
      rw [e1] at this
      rw [← this]
      fin_cases i <;> rfl
  obtain ⟨A, h1, h2, -⟩ := key 0
  refine ⟨A, h1, h2, fun p => ?_⟩
  obtain ⟨B, -, g2, v, g3⟩ := key p
  rw [h2] at g2
  have : A = B := by
    cases A; cases B; simpa using g2
  subst this
  exact ⟨v, g3⟩

theorem mem_growLim (old : ℝ × ℝ) (a b c d : ℝ) : ∀ y, y = a ∨ y = b ∨ y = c ∨ y = d → (growLim old a b c d).1 ≤ y ∧ y ≤ (growLim old a b c d).2 := by
  intro y hy
  simp only [growLim]
  rcases hy with rfl | rfl | rfl | rfl <;> simp

theorem growLim_lt {old : ℝ × ℝ} (h : old.1 < old.2) (a b c d : ℝ) : (growLim old a b c d).1 < (growLim old a b c d).2 := by
  simp only [growLim]
  exact lt_of_le_of_lt (min_le_left _ _) (lt_of_lt_of_le h (le_max_left _ _))

theorem growLim_le (old : ℝ × ℝ) (a b c d : ℝ) : (growLim old a b c d).1 ≤ old.1 ∧ old.2 ≤ (growLim old a b c d).2 := by
  simp [growLim]

/-- What a successful call does to the axes, given the four points. -/
theorem frame_of_points (m : Mpl) (sq : SquadFn) (x : XrOps) {s : State} (ax : Axes3) {frame : FrameRef} {f : ℕ} {d : FrameData} {world : Option FrameRef}
    {len : ℝ} {A : Pose} (hf : s.resolve frame = .ok f) (hd : s.data f = some d) (ht : d.timestamps = none)
    (hp : ∀ p : Vec, ∃ v : ND ℝ, worldPoint sq x s f world p = .ok v ∧ v.ndim = 1 ∧ coords3 v = A.act p) (hax : Lims.Proper ax.lims) :
    ∃ l, (plotReferenceFrame m sq x s ax frame world len).1 = setAxesEqual m { ax with lims := l, auto := false, arrows := ax.arrows ++ FrameArrows A len } ∧
      (plotReferenceFrame m sq x s ax frame world len).2 = .ok (FrameArrows A len) ∧
      l = ⟨growLim ax.lims.x (A.act 0 0) (A.act ![len, 0, 0] 0) (A.act ![0, len, 0] 0) (A.act ![0, 0, len] 0),
        growLim ax.lims.z (A.act 0 2) (A.act ![len, 0, 0] 2) (A.act ![0, len, 0] 2) (A.act ![0, 0, len] 2), ax.lims.z⟩ := by
  have e0 : (![0, 0, 0] : Vec) = 0 := by funext i; fin_cases i <;> rfl
  obtain ⟨o, o1, o2, o3⟩ := hp ![0, 0, 0]
  rw [e0] at o3
  obtain ⟨px, x1, x2, x3⟩ := hp ![len, 0, 0]
  obtain ⟨py, y1, y2, y3⟩ := hp ![0, len, 0]
  obtain ⟨pz, z1, z2, z3⟩ := hp ![0, 0, len]
  refine ⟨_, ?_, ?_, rfl⟩
  · simp only [plotReferenceFrame, hf, hd, ht, addFrame, o1, x1, y1, z1, o2, x2, y2, z2, o3, x3, y3, z3]
    rw [setLim_of_lt _ (growLim_lt hax.1 _ _ _ _), setLim_of_lt _ (growLim_lt hax.2.2 _ _ _ _)]
    simp [FrameArrows]
  · simp only [plotReferenceFrame, hf, hd, ht, addFrame, o1, x1, y1, z1, o2, x2, y2, z2, o3, x3, y3, z3]
    simp [FrameArrows]

theorem frameArrows_ends (A : Pose) (len : ℝ) (q : Vec → Prop) :
    (∀ ar ∈ FrameArrows A len, ∀ v ∈ arrowEnds ar, q v) ↔ q (A.act 0) ∧ q (A.act ![len, 0, 0]) ∧ q (A.act ![0, len, 0]) ∧ q (A.act ![0, 0, len]) := by
  simp only [FrameArrows, arrowEnds, List.mem_cons, List.not_mem_nil, or_false, forall_eq_or_imp, forall_eq]
  tauto

theorem plotsFrame_of_points (m : Mpl) (sq : SquadFn) (x : XrOps) {s : State} (ax : Axes3) {frame : FrameRef} {f : ℕ} {d : FrameData} {world : Option FrameRef}
    {len : ℝ} {A : Pose} (hf : s.resolve frame = .ok f) (hd : s.data f = some d) (ht : d.timestamps = none)
    (hp : ∀ p : Vec, ∃ v : ND ℝ, worldPoint sq x s f world p = .ok v ∧ v.ndim = 1 ∧ coords3 v = A.act p) (hax : Lims.Proper ax.lims) :
    PlotsFrame ax (plotReferenceFrame m sq x s ax frame world len) A len := by
  obtain ⟨l, h1, h2, h3⟩ := frame_of_points m sq x (len := len) ax hf hd ht hp hax
  have hl : Lims.Proper l := by
    rw [h3]; exact ⟨growLim_lt hax.1 _ _ _ _, growLim_lt hax.2.2 _ _ _ _, hax.2.2⟩
  obtain ⟨g1, g2, g3, -⟩ := C69_equal_scale m { ax with lims := l, auto := false, arrows := ax.arrows ++ FrameArrows A len } hl
  have hx : ∀ c, l.x.1 ≤ c → c ≤ l.x.2 → (setAxesEqual m { ax with lims := l, auto := false, arrows := ax.arrows ++ FrameArrows A len }).lims.x.1 ≤ c ∧
      c ≤ (setAxesEqual m { ax with lims := l, auto := false, arrows := ax.arrows ++ FrameArrows A len }).lims.x.2 := fun c c1 c2 =>
    (g3 ![c, l.y.1, l.z.1] ⟨⟨c1, c2⟩, ⟨le_refl _, hl.2.1.le⟩, le_refl _, hl.2.2.le⟩).1
  have hg := mem_growLim ax.lims.x (A.act 0 0) (A.act ![len, 0, 0] 0) (A.act ![0, len, 0] 0) (A.act ![0, 0, len] 0)
  have hgz := mem_growLim ax.lims.z (A.act 0 2) (A.act ![len, 0, 0] 2) (A.act ![0, len, 0] 2) (A.act ![0, 0, len] 2)
  have hlx : l.x = growLim ax.lims.x (A.act 0 0) (A.act ![len, 0, 0] 0) (A.act ![0, len, 0] 0) (A.act ![0, 0, len] 0) := by rw [h3]
  have hly : l.y = growLim ax.lims.z (A.act 0 2) (A.act ![len, 0, 0] 2) (A.act ![0, len, 0] 2) (A.act ![0, 0, len] 2) := by rw [h3]
  have hlz : l.z = ax.lims.z := by rw [h3]
  rw [← hlx] at hg
  refine ⟨h2, by rw [h1]; rfl, by rw [h1]; exact g1, by rw [h1]; exact g2, ?_, ?_, ?_⟩
  · rw [h1, frameArrows_ends]
    exact ⟨hx _ (hg _ (by tauto)).1 (hg _ (by tauto)).2, hx _ (hg _ (by tauto)).1 (hg _ (by tauto)).2, hx _ (hg _ (by tauto)).1 (hg _ (by tauto)).2,
      hx _ (hg _ (by tauto)).1 (hg _ (by tauto)).2⟩
  · rw [h1]
    have := growLim_le ax.lims.x (A.act 0 0) (A.act ![len, 0, 0] 0) (A.act ![0, len, 0] 0) (A.act ![0, 0, len] 0)
    rw [← hlx] at this
    exact ⟨(hx _ this.1 (by linarith [this.2, hax.1])).1, (hx _ (by linarith [this.1, hax.1]) this.2).2⟩
  · rw [frameArrows_ends, frameArrows_ends, h1]
    have hgl := growLim_le ax.lims.z (A.act 0 2) (A.act ![len, 0, 0] 2) (A.act ![0, len, 0] 2) (A.act ![0, 0, len] 2)
    rw [← hly] at hgl
    have mk : ∀ v : Vec, (l.x.1 ≤ v 0 ∧ v 0 ≤ l.x.2) → (ax.lims.z.1 ≤ v 1 ∧ v 1 ≤ ax.lims.z.2 ∧ ax.lims.z.1 ≤ v 2 ∧ v 2 ≤ ax.lims.z.2) → Visible l v := by
      rintro v ⟨a1, a2⟩ ⟨b1, b2, b3, b4⟩
      exact ⟨⟨a1, a2⟩, ⟨hgl.1.trans b1, b2.trans hgl.2⟩, by rw [hlz]; exact b3, by rw [hlz]; exact b4⟩
    rintro ⟨b0, bx, by', bz⟩
    exact ⟨g3 _ (mk _ (hg _ (by tauto)) b0), g3 _ (mk _ (hg _ (by tauto)) bx), g3 _ (mk _ (hg _ (by tauto)) by'), g3 _ (mk _ (hg _ (by tauto)) bz)⟩

/-- `plot_reference_frame(frame, world_frame)` for a static frame on a path of static frames: the arrows are those of the pose of the frame in the world
frame. (Missing: that they are visible, see `C69_frame_visible_is_false`.) -/
theorem C69_frame_partial (m : Mpl) (sq : SquadFn) (x : XrOps) {s : State} {h : List Event} (hr : Reachable s h) (ax : Axes3) (hax : Lims.Proper ax.lims)
    {frame world : FrameRef} {f w : ℕ} {d : FrameData} (len : ℝ) (hf : s.resolve frame = .ok f) (hw : s.resolve world = .ok w) (hfs : f < s.size)
    (hws : w < s.size) (hd : s.data f = some d) (ht : d.timestamps = none) (hp : PathAll s f w (FrameOk false s)) :
    ∃ A, (∀ τ, IsTransformAt sq s f w τ A) ∧ s.lookupTransform sq f (.byObj w) = .ok (.one A.t, .one A.r, none) ∧
      PlotsFrame ax (plotReferenceFrame m sq x s ax frame (some world) len) A len := by
  obtain ⟨A, h1, h2, h3⟩ := worldPoint_static sq x hr hfs hws hw hp
  exact ⟨A, h1, h2, plotsFrame_of_points m sq x ax hf hd ht h3 hax⟩

/-- Without world frame, the arrows are the coordinate axes. -/
theorem C69_frame_own_partial (m : Mpl) (sq : SquadFn) (x : XrOps) (s : State) (ax : Axes3) (hax : Lims.Proper ax.lims)
    {frame : FrameRef} {f : ℕ} {d : FrameData} (len : ℝ) (hf : s.resolve frame = .ok f) (hd : s.data f = some d) (ht : d.timestamps = none) :
    PlotsFrame ax (plotReferenceFrame m sq x s ax frame none len) Pose.id len := by
  refine plotsFrame_of_points m sq x ax hf hd ht (fun p => ⟨listArr p, rfl, rfl, ?_⟩) hax
  have : (Pose.id).act p = p := by simp [Pose.id, Pose.act, rot_one]
  rw [this]
  funext i; fin_cases i <;> simp [coords3, listArr, Fin.ofNat]

/-- Moving frames are refused and nothing is plotted. -/
theorem C69_frame_moving (m : Mpl) (sq : SquadFn) (x : XrOps) (s : State) (ax : Axes3) {frame : FrameRef} {f : ℕ} {d : FrameData} (world : Option FrameRef)
    (len : ℝ) (hf : s.resolve frame = .ok f) (hd : s.data f = some d) (ht : d.timestamps ≠ none) :
    plotReferenceFrame m sq x s ax frame world len = (ax, .error .notImplementedError) := by
  simp only [plotReferenceFrame, hf, hd]
  rw [if_pos (by simpa [Option.isSome_iff_ne_none] using ht)]

theorem ex_half_turn (v : Vec) : rot (⟨0, 0, 0, 1⟩ : Quat) v = ![-v 0, -v 1, v 2] := by
  refine (rotMat_eq_rot (⟨0, 0, 0, 1⟩ : Quat) (Spec.IsUnitQ.ne_zero (by simp [IsUnitQ, nsq])) v).symm.trans ?_
  funext i
  fin_cases i <;> simp [rotateMatrixForm, rotMat, Matrix.mulVec, dotProduct, Fin.sum_univ_three, nsq] <;> ring

/-- All arrows should be visible, but they are not: the limits of the z axis are never adapted. -/
theorem C69_frame_visible_is_false : ¬ ∀ (m : Mpl), MplLaw m → ∀ (sq : SquadFn), SquadLaw sq → ∀ (x : XrOps) (s : State) (h : List Event), Reachable s h →
    ∀ (ax : Axes3) (frame world : FrameRef) (f w : ℕ) (len : ℝ), Lims.Proper ax.lims → s.resolve frame = .ok f → s.resolve world = .ok w → f < s.size →
    w < s.size → PathAll s f w (FrameOk false s) → ∀ (ax' : Axes3) (arrows : List Arrow),
    plotReferenceFrame m sq x s ax frame (some world) len = (ax', .ok arrows) → ∀ ar ∈ arrows, ∀ v ∈ arrowEnds ar, Visible ax'.lims v := by
  intro hall
  let m : Mpl := exMpl
  let ax : Axes3 := ⟨⟨(0, 1), (0, 1), (0, 1)⟩, true, [], [], [], []⟩
  have hax : Lims.Proper ax.lims := ⟨by norm_num [ax], by norm_num [ax], by norm_num [ax]⟩
  have hlt : 1 < Ex.s4.size ∧ 0 < Ex.s4.size := by rw [Ex.s4_eq]; norm_num
  have h1 := exS_resolve "a" 1 (by rw [Ex.s4_eq]; rfl)
  have h2 := exS_resolve "world" 0 (by rw [Ex.s4_eq]; rfl)
  have hd : Ex.s4.data 1 = some ⟨some (.one ![1, 2, 3], .one ⟨0, 0, 0, 1⟩), none, false⟩ := by rw [Ex.s4_eq]; simp
  have hpar : Ex.s4.parent 1 = some 0 := by rw [Ex.s4_eq]; simp
  have hp : PathAll Ex.s4 1 0 (FrameOk false Ex.s4) := by
    refine ⟨0, [1], [], ⟨.single hpar, .refl, fun d _ h => h⟩, .up (by decide) hpar .here, .here, ?_⟩
    intro i hi
    have : i = 1 := by simpa using hi
    subst this
    simp only [FrameOk, Bool.false_eq_true, if_false]
    exact ⟨⟨![1, 2, 3], ⟨0, 0, 0, 1⟩⟩, ⟨false, hd⟩, Spec.IsUnitQ.ne_zero (by simp [IsUnitQ, nsq])⟩
  obtain ⟨A, -, a2, a3⟩ := worldPoint_static Ex.holdSquad exXr Ex.reach4 hlt.1 hlt.2 h2 hp
  rw [exS_lookup] at a2
  obtain ⟨l, e1, e2, e3⟩ := frame_of_points m Ex.holdSquad exXr (len := 1) ax h1 hd rfl a3 hax
  have hA : A = ⟨![1, 2, 3], ⟨0, 0, 0, 1⟩⟩ := by
    injection a2 with a2
    injection a2 with a4 a5
    injection a5 with a5
    injection a4 with a4
    injection a5 with a5
    cases A
    simp only at a4 a5
    rw [a4, a5]
  have hv := hall m exMpl_law Ex.holdSquad Ex.holdSquad_law exXr Ex.s4 _ Ex.reach4 ax (.byName "a") (.byName "world") 1 0 1 hax h1 h2 hlt.1 hlt.2 hp
    (setAxesEqual m { ax with lims := l, auto := false, arrows := ax.arrows ++ FrameArrows A 1 }) (FrameArrows A 1) (Prod.ext e1 e2)
  rw [frameArrows_ends] at hv
  have hv0 := hv.1.2.2.2
  clear hv hall
  have c : ∀ v : Vec, A.act v = ![1, 2, 3] + ![-v 0, -v 1, v 2] := by
    intro v
    rw [hA]
    funext i
    have := congrFun (ex_half_turn v) i
    simp only [Pose.act, Pi.add_apply, this]
    ring
  have hz : A.act 0 2 = 3 := by simp [c]
  rw [hz] at hv0
  have hl : l = ⟨(0, 1), (0, 4), (0, 1)⟩ := by
    rw [e3]
    have t0 : ∀ v : Vec, A.act v 0 = 1 + -v 0 := fun v => by rw [c]; rfl
    have t2 : ∀ v : Vec, A.act v 2 = 3 + v 2 := fun v => by rw [c]; rfl
    have u0 : (![1, 0, 0] : Vec) 2 = 0 := rfl
    have u1 : (![0, 1, 0] : Vec) 2 = 0 := rfl
    have u2 : (![0, 0, 1] : Vec) 2 = 1 := rfl
    simp only [growLim, t0, t2, u0, u1, u2]
    norm_num [ax]
  have : (setAxesEqual m { ax with lims := l, auto := false, arrows := ax.arrows ++ FrameArrows A 1 }).lims.z.2 = 5 / 2 := by
    simp only [setAxesEqual, hl]
    rw [setLim_of_lt _ (by norm_num)]
    norm_num
  rw [this] at hv0
  norm_num at hv0

/-! ### Vectors and orientations -/

theorem points_shape2 {arr : ND ℝ} {pts : List Vec} (h : Points arr pts) : shape2 arr.shape = [pts.length, 3] := by
  cases h with
  | one h => simp [h, shape2]
  | many n h => simp [h, shape2]

theorem baseRows_ok {n : ℕ} {base : Option (ND ℝ)} {bs : List Vec} (hb : BasePoints n base bs) {arr : ND ℝ} {vs : List Vec} (h : Points arr vs)
    (hn : vs.length = n) : baseRows base arr vs.length = .ok bs := by
  cases hb with
  | origin => rw [hn]; rfl
  | given hb hl =>
    simp only [baseRows, points_shape2 hb, points_shape2 h, hn, hl, ne_eq, not_true, if_false]
    exact rows3_points hb

theorem basePoints_length {n : ℕ} {base : Option (ND ℝ)} {bs : List Vec} (hb : BasePoints n base bs) : bs.length = n := by
  cases hb with
  | origin => simp
  | given hb hl => exact hl

/-- `plot_vectors`: an arrow for every vector, starting in its base point (default: the origin); the axes get the same scale. If autoscaling is on
(new axes), all arrows are visible. -/
theorem C69_vectors_partial {m : Mpl} (hm : MplLaw m) (ax : Axes3) (hax : Lims.Proper ax.lims) {arr : ND ℝ} {vs : List Vec} (h : Points arr vs)
    {base : Option (ND ℝ)} {bs : List Vec} (hb : BasePoints vs.length base bs) (color : Option String) (length : ℝ) :
    ∃ ax', plotVectors m ax arr base color length = (ax', .ok (bs.zip vs)) ∧ PlotsVectors ax ax' color length (bs.zip vs) := by
  refine ⟨?_, ?_, ?_⟩
  rotate_left
  · simp only [plotVectors, rows3_points h, baseRows_ok hb h rfl]
    rfl
  obtain ⟨h1, h2, h3, -⟩ := C69_equal_scale m (autoscale m { ax with quivers := ax.quivers ++ [(color, length, bs.zip vs)] }
        ((bs.zip vs).flatMap fun p => [p.1, p.1 + length • p.2])) (autoscale_proper hm hax _)
  refine ⟨rfl, h1, h2, fun ha p hp => ⟨h3 _ ?_, h3 _ ?_⟩⟩
  · simp only [autoscale, ha, if_true]
    exact (hm.scale _).2 _ (List.mem_append_right _ (List.mem_flatMap.mpr ⟨p, hp, by simp⟩))
  · simp only [autoscale, ha, if_true]
    exact (hm.scale _).2 _ (List.mem_append_right _ (List.mem_flatMap.mpr ⟨p, hp, by simp⟩))

/-- Base points that are not as many as the vectors are refused, and nothing is plotted. -/
theorem C69_vectors_base (m : Mpl) (ax : Axes3) {arr : ND ℝ} {vs : List Vec} (h : Points arr vs) {b : ND ℝ} {bs : List Vec} (hb : Points b bs)
    (hne : bs.length ≠ vs.length) (color : Option String) (length : ℝ) :
    plotVectors m ax arr (some b) color length = (ax, .error .valueError) := by
  simp only [plotVectors, rows3_points h, baseRows, points_shape2 hb, points_shape2 h]
  rw [if_pos (by simpa using hne)]

theorem rotated_points {arr : ND ℝ} {qs : List Quat} (h : Orientations arr qs) (hne : ∀ q ∈ qs, q ≠ 0) (e : Vec) :
    ∃ v, rotateVectorsF arr (listArr e) (oneToOne := false) = .ok v ∧ Points v (qs.map fun q => rot q e) := by
  have he : vec3 (listArr e) 0 [0] = e := by
    funext i; fin_cases i <;> simp [vec3, listArr, Fin.ofNat]
  have hav : AxisIs (-1) (listArr e).ndim 0 := ⟨by simp [ND.ndim, listArr], Or.inr (by simp [ND.ndim, listArr])⟩
  cases h with
  | one h =>
    have hnd : arr.ndim = 1 := by simp [ND.ndim, h]
    obtain ⟨out, o1, o2, o3⟩ := C71_all_pairs arr (listArr e) (axis := -1) (qaxis := -1) (p := 0) (r := 0) hav rfl
      ⟨by omega, Or.inr (by simp [hnd])⟩ (by simp [h]) (by
        intro qi hqi
        rw [h] at hqi
        obtain ⟨a, rfl⟩ : ∃ a, qi = [a] := by
          have := hqi.length
          rcases qi with _ | ⟨a, _ | ⟨b, l⟩⟩ <;> simp at this
          exact ⟨a, rfl⟩
        exact hne _ (List.mem_singleton.mpr rfl))
    have hs : out.shape = [3] := by rw [o2, h, hnd]; rfl
    refine ⟨out, o1, ?_⟩
    have hp := Points.one hs
    have : vec3 out 0 [0] = rot (quat4 arr 0 [0]) e := by
      funext k
      have := o3 [0] [0] (by rw [h]; simp [Valid]) (by simp [listArr, Valid]) k
      rw [he, hnd] at this
      rw [← this]
      fin_cases k <;> rfl
    rwa [this] at hp
  | many n h =>
    have hnd : arr.ndim = 2 := by simp [ND.ndim, h]
    obtain ⟨out, o1, o2, o3⟩ := C71_all_pairs arr (listArr e) (axis := -1) (qaxis := -1) (p := 0) (r := 1) hav rfl
      ⟨by omega, Or.inr (by simp [hnd])⟩ (by simp [h]) (by
        intro qi hqi
        rw [h] at hqi
        obtain ⟨a, b, rfl⟩ : ∃ a b, qi = [a, b] := by
          have := hqi.length
          rcases qi with _ | ⟨a, _ | ⟨b, _ | ⟨c, l⟩⟩⟩ <;> simp at this
          exact ⟨a, b, rfl⟩
        exact hne _ (List.mem_map.mpr ⟨a, List.mem_range.mpr hqi.1, rfl⟩))
    have hs : out.shape = [n, 3] := by rw [o2, h, hnd]; rfl
    refine ⟨out, o1, ?_⟩
    have hp := Points.many n hs
    have : ((List.range n).map fun k => vec3 out 1 [k, 0]) = (((List.range n).map fun k => quat4 arr 1 [k, 0]).map fun q => rot q e) := by
      rw [List.map_map]
      apply List.map_congr_left
      intro k hk
      funext i
      have := o3 [k, 0] [0] (by rw [h]; exact ⟨List.mem_range.mp hk, by norm_num, trivial⟩) (by simp [listArr, Valid]) i
      rw [he, hnd] at this
      simp only [Function.comp]
      rw [← this]
      fin_cases i <;> rfl
    rwa [this] at hp

/-- `plot_quaternions`: for each of the three axes, an arrow of length 1/2 for every orientation, starting in its base point, along the rotated axis. The
quaternions need not be normalised. -/
theorem C69_quaternions_partial {m : Mpl} (hm : MplLaw m) (ax : Axes3) (hax : Lims.Proper ax.lims) {arr : ND ℝ} {qs : List Quat} (h : Orientations arr qs)
    (hne : ∀ q ∈ qs, q ≠ 0) {base : Option (ND ℝ)} {bs : List Vec} (hb : BasePoints qs.length base bs) :
    ∃ ax1 ax2 ax', plotQuaternions m ax arr base = (ax', .ok [bs.zip (qs.map fun q => rot q ![1, 0, 0]), bs.zip (qs.map fun q => rot q ![0, 1, 0]),
        bs.zip (qs.map fun q => rot q ![0, 0, 1])]) ∧
      PlotsVectors ax ax1 (some "r") (1 / 2) (bs.zip (qs.map fun q => rot q ![1, 0, 0])) ∧
      PlotsVectors ax1 ax2 (some "g") (1 / 2) (bs.zip (qs.map fun q => rot q ![0, 1, 0])) ∧
      PlotsVectors ax2 ax' (some "b") (1 / 2) (bs.zip (qs.map fun q => rot q ![0, 0, 1])) := by
  obtain ⟨vx, x1, x2⟩ := rotated_points h hne ![1, 0, 0]
  obtain ⟨vy, y1, y2⟩ := rotated_points h hne ![0, 1, 0]
  obtain ⟨vz, z1, z2⟩ := rotated_points h hne ![0, 0, 1]
  obtain ⟨a1, p1, p2⟩ := C69_vectors_partial hm ax hax x2 (base := base) (bs := bs) (by simpa using hb) (some "r") (1 / 2)
  obtain ⟨a2, q1, q2⟩ := C69_vectors_partial hm a1 p2.2.2.1 y2 (base := base) (bs := bs) (by simpa using hb) (some "g") (1 / 2)
  obtain ⟨a3, r1, r2⟩ := C69_vectors_partial hm a2 q2.2.2.1 z2 (base := base) (bs := bs) (by simpa using hb) (some "b") (1 / 2)
  refine ⟨a1, a2, a3, ?_, p2, q2, r2⟩
  simp only [plotQuaternions, x1, y1, z1, p1, q1, r1]

/-- The identity as array. -/
def exOne : ND ℝ := ⟨[4], fun idx => if idx = [0] then 1 else 0⟩

theorem exOne_orientations : Orientations exOne [1] := by
  have h := Orientations.one (arr := exOne) rfl
  have : quat4 exOne 0 [0] = 1 := by
    apply Quaternion.ext <;> simp [quat4, exOne]
  rwa [this] at h

theorem plotVectors_eq (m : Mpl) (ax : Axes3) {arr : ND ℝ} {vs : List Vec} (h : Points arr vs) (color : Option String) (length : ℝ) :
    plotVectors m ax arr none color length = (setAxesEqual m (autoscale m { ax with quivers := ax.quivers ++ [(color, length, (List.replicate vs.length 0).zip vs)] }
        (((List.replicate vs.length 0).zip vs).flatMap fun p => [p.1, p.1 + length • p.2])), .ok ((List.replicate vs.length 0).zip vs)) := by
  simp only [plotVectors, rows3_points h, baseRows]

/-- On new axes all arrows should be visible, but they are not: the limits are fixed after plotting the x axes. -/
theorem C69_quaternions_visible_is_false : ¬ ∀ (m : Mpl), MplLaw m → ∀ (ax : Axes3), Lims.Proper ax.lims → ax.auto = true → ax.data = [] →
    ∀ (arr : ND ℝ) (qs : List Quat), Orientations arr qs → (∀ q ∈ qs, q ≠ 0) → ∀ (ax' : Axes3) (l : List (List (Vec × Vec))),
      plotQuaternions m ax arr none = (ax', .ok l) → ∀ c ∈ l, ∀ p ∈ c, Visible ax'.lims (p.1 + (1 / 2 : ℝ) • p.2) := by
  intro hall
  let ax : Axes3 := ⟨⟨(0, 1), (0, 1), (0, 1)⟩, true, [], [], [], []⟩
  obtain ⟨vx, x1, x2⟩ := rotated_points exOne_orientations (by simp) ![1, 0, 0]
  obtain ⟨vy, y1, y2⟩ := rotated_points exOne_orientations (by simp) ![0, 1, 0]
  obtain ⟨vz, z1, z2⟩ := rotated_points exOne_orientations (by simp) ![0, 0, 1]
  simp only [List.map_cons, List.map_nil, rot_one] at x2 y2 z2
  have fixed : ∀ a : Axes3, a.lims = ⟨(-1 / 20, 11 / 20), (-3 / 10, 3 / 10), (-3 / 10, 3 / 10)⟩ → a.auto = false → ∀ q pts,
      (setAxesEqual exMpl (autoscale exMpl { a with quivers := q } pts)).lims = a.lims := by
    intro a h1 h2 q pts
    have h3 : (autoscale exMpl { a with quivers := q } pts).lims = a.lims := by simp [autoscale, h2]
    rw [setAxesEqual_fixed, h3]
    · rw [h3, h1]; norm_num [Lims.Proper]
    · rw [h3, h1]; norm_num [EqualScale]
  have e1 : (setAxesEqual exMpl (autoscale exMpl { ax with quivers := ax.quivers ++ [(some "r", (1 / 2 : ℝ), (List.replicate 1 0).zip [![1, 0, 0]])] }
      (((List.replicate 1 0).zip [(![1, 0, 0] : Vec)]).flatMap fun p => [p.1, p.1 + (1 / 2 : ℝ) • p.2]))).lims =
      ⟨(-1 / 20, 11 / 20), (-3 / 10, 3 / 10), (-3 / 10, 3 / 10)⟩ := by
    have u : ∀ a : ℝ, (![a, 0, 0] : Fin 3 → ℝ) 2 = 0 := fun _ => rfl
    norm_num [setAxesEqual, autoscale, exMpl, exLim, setLim, ax, u]
  obtain ⟨a1, hx, f1, g1⟩ : ∃ a, plotVectors exMpl ax vx none (some "r") (1 / 2) = (a, .ok [(0, ![1, 0, 0])]) ∧
      a.lims = ⟨(-1 / 20, 11 / 20), (-3 / 10, 3 / 10), (-3 / 10, 3 / 10)⟩ ∧ a.auto = false :=
    ⟨_, plotVectors_eq exMpl ax x2 (some "r") (1 / 2), e1, rfl⟩
  obtain ⟨a2, hy, f2, g2⟩ : ∃ a, plotVectors exMpl a1 vy none (some "g") (1 / 2) = (a, .ok [(0, ![0, 1, 0])]) ∧ a.lims = a1.lims ∧ a.auto = false :=
    ⟨_, plotVectors_eq exMpl a1 y2 (some "g") (1 / 2), fixed a1 f1 g1 _ _, rfl⟩
  obtain ⟨a3, hz, f3, g3⟩ : ∃ a, plotVectors exMpl a2 vz none (some "b") (1 / 2) = (a, .ok [(0, ![0, 0, 1])]) ∧ a.lims = a2.lims ∧ a.auto = false :=
    ⟨_, plotVectors_eq exMpl a2 z2 (some "b") (1 / 2), fixed a2 (f2.trans f1) g2 _ _, rfl⟩
  have e : plotQuaternions exMpl ax exOne none = (a3, .ok [[(0, ![1, 0, 0])], [(0, ![0, 1, 0])], [(0, ![0, 0, 1])]]) := by
    simp only [plotQuaternions, x1, y1, z1, hx, hy, hz]
  have hv := hall exMpl exMpl_law ax ⟨by norm_num [ax], by norm_num [ax], by norm_num [ax]⟩ rfl rfl exOne [1] exOne_orientations (by simp) _ _ e
    [(0, ![0, 1, 0])] (by simp) (0, ![0, 1, 0]) (by simp)
  have h2 := hv.2.1.2
  rw [f3, f2, f1] at h2
  norm_num at h2

/-- Two points. -/
def exTwo : ND ℝ := ⟨[2, 3], fun idx => if idx = [1, 2] then 5 else 0⟩

/-- Fresh axes of matplotlib. -/
def exAxes : Axes3 := ⟨⟨(0, 1), (0, 1), (0, 1)⟩, true, [], [], [], []⟩

theorem exAxes_proper : Lims.Proper exAxes.lims := ⟨by norm_num [exAxes], by norm_num [exAxes], by norm_num [exAxes]⟩

/-- Two points, two vectors (with the points as base points, or too few of them) and one orientation in fresh axes. -/
example : (∀ v ∈ [vec3 exTwo 1 [0, 0], vec3 exTwo 1 [1, 0]], Visible (plotPoints exMpl exAxes exTwo).1.lims v) ∧
    (∃ ax' l, plotVectors exMpl exAxes exTwo (some exTwo) none 1 = (ax', .ok l)) ∧
    plotVectors exMpl exAxes exTwo (some ⟨[1, 3], fun _ => 0⟩) none 1 = (exAxes, .error .valueError) ∧
    (∃ ax' l, plotQuaternions exMpl exAxes exOne none = (ax', .ok l)) ∧
    ∃ e, plotPoints exMpl exAxes ⟨[4], fun _ => 0⟩ = (exAxes, .error e) := by
  have h2 : Points exTwo ((List.range 2).map fun k => vec3 exTwo 1 [k, 0]) := .many 2 rfl
  have h1 : Points ⟨[1, 3], fun _ => 0⟩ ((List.range 1).map fun k => vec3 ⟨[1, 3], fun _ => 0⟩ 1 [k, 0]) := .many 1 rfl
  refine ⟨?_, ?_, C69_vectors_base exMpl exAxes h2 h1 (by simp) none 1, ?_, ?_⟩
  · intro v hv
    refine (C69_points_partial exMpl_law exAxes exAxes_proper h2).2.2.2.2 rfl v ?_
    simpa [exAxes, List.range_succ] using hv
  · obtain ⟨ax', h, -⟩ := C69_vectors_partial exMpl_law exAxes exAxes_proper h2 (base := some exTwo) (.given h2 (by simp)) none 1
    exact ⟨ax', _, h⟩
  · obtain ⟨_, _, ax', h, -⟩ := C69_quaternions_partial exMpl_law exAxes exAxes_proper exOne_orientations (by simp) .origin
    exact ⟨ax', _, h⟩
  · obtain ⟨e, h, -⟩ := C69_points_refused exMpl exAxes ⟨[4], fun _ => 0⟩ ⟨by simp, by simp⟩
    exact ⟨e, h⟩

end RBM.Props
