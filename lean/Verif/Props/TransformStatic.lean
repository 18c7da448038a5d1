import Verif.Props.TransformMore

/-!
Static arrays through moving frames (C30).
-/

namespace RBM.Props

open RBM Spec

/-- Some frame on the route has timestamps. -/
def Moving (s : State) (l : List ℕ) : Prop := ∃ i ∈ l, ∃ disc y, stampsOf s disc i = some y

/-- What the transform functions get from the matcher for a static array and a moving path. -/
theorem core_moving (sq : SquadFn) (hsq : SquadLaw sq) {s : State} (h : WF s) {a b : ℕ} (ha : a < s.size)
    (hb : b < s.size) (hp : PathAll s a b (FrameOk true s)) {l : List ℕ} (hl : Route s a b l) (hm : Moving s l) (w : ND ℝ) :
    ∃ (m : Matcher) (ts : List ℝ) (T : ℝ → Pose), s.getMatcher a (.byObj b) [⟨w, none⟩] = .ok m ∧
      (∀ τ ∈ ts, IsTransformAt sq s a b τ (T τ) ∧ IsUnitQ (T τ).r) ∧
      m.getTransformation sq = .ok (.many (ts.map fun τ => (T τ).t), .many (ts.map fun τ => (T τ).r), some ts) ∧
      m.getArray1 sq (some ts) = .ok (w.tileN1 ts.length) ∧
      ∃ tl rl, s.lookupTransform sq a (.byObj b) = .ok (.many tl, .many rl, some ts) := by
  obtain ⟨c, la, lb, hc, hla, hlb, hok, rfl⟩ := pathAll_route h hp hl
  have hg' : ∀ i ∈ la ++ lb, ∃ d, s.data i = some d ∧ GoodData d := by simpa [FrameOk] using hok
  obtain ⟨fa, fb, e, h1, h2⟩ := getMatcher_ok h ha hb hc hla hlb (fun i hi => by
    obtain ⟨d, h1, h2⟩ := hg' i hi; exact GoodData.checked h1 h2) [⟨w, none⟩]
  obtain ⟨fa', fb', e', h1', h2'⟩ := getMatcher_ok h ha hb hc hla hlb (fun i hi => by
    obtain ⟨d, h1, h2⟩ := hg' i hi; exact GoodData.checked h1 h2) []
  rw [addArrays_static] at e
  rw [addArrays] at e'
  have hne : ¬ ((la ++ lb.reverse).filterMap (stampsOf s false) = [] ∧ (la ++ lb.reverse).filterMap (stampsOf s true) = []) := by
    rintro ⟨c1, c2⟩
    obtain ⟨i, hi, disc, y, hy⟩ := hm
    cases disc
    · rw [List.filterMap_eq_nil_iff.mp c1 i hi] at hy; simp at hy
    · rw [List.filterMap_eq_nil_iff.mp c2 i hi] at hy; simp at hy
  have key : ∀ (X : List MArray) (fa fb : List MFrame), X.filterMap (·.timestamps) = [] →
      List.Forall₂ (FrameOf s false) la fa → List.Forall₂ (FrameOf s true) lb.reverse fb →
      ∃ (ts : List ℝ) (T : ℝ → Pose), 
        ((∃ x xs, (la ++ lb.reverse).filterMap (stampsOf s false) = x :: xs ∧
            ts = commonStamps x ((la ++ lb.reverse).filterMap (stampsOf s false))) ∨
          ((la ++ lb.reverse).filterMap (stampsOf s false) = [] ∧
            ts = npUnique ((la ++ lb.reverse).filterMap (stampsOf s true)).flatten)) ∧
        (∀ τ ∈ ts, IsTransformAt sq s a b τ (T τ) ∧ IsUnitQ (T τ).r) ∧
        (⟨fa ++ fb, X⟩ : Matcher).getTransformation sq =
          .ok (.many (ts.map fun τ => (T τ).t), .many (ts.map fun τ => (T τ).r), some ts) := by
    intro X fa fb hX h1 h2
    rcases matcher_good sq hsq h1 h2 hok X (by
      intro x hx ats hat
      have : ats ∈ X.filterMap (·.timestamps) := List.mem_filterMap.mpr ⟨x, hx, hat⟩
      rw [hX] at this; simp at this) true with
      ⟨h3, h4, _⟩ | ⟨ts, T, g1, g2, g3, g4⟩
    · simp only [hX, if_true, List.nil_append] at h3
      exact absurd ⟨h3, h4⟩ hne
    · simp only [hX, if_true, List.nil_append] at g2
      refine ⟨ts, T, ?_, fun τ hτ => ⟨(g3 τ hτ).1.isTransformAt hc hla hlb, (g3 τ hτ).2⟩, ?_⟩
      · rcases g2 with g2 | ⟨g2, _, g3⟩
        · exact .inl g2
        · exact .inr ⟨g2, g3⟩
      · rcases g4 with g4 | ⟨g4, g5, _⟩
        · exact g4
        · exfalso; apply hne; simp [g4, g5]
  obtain ⟨ts, T, k1, k2, k3⟩ := key [⟨w, none⟩] fa fb (by simp) h1 h2
  obtain ⟨ts', T', k1', k2', k3'⟩ := key [] fa' fb' (by simp) h1' h2'
  have hts : ts' = ts := by
    rcases k1 with ⟨x, xs, hx, k1⟩ | ⟨hx, k1⟩ <;> rcases k1' with ⟨x', xs', hx', k1'⟩ | ⟨hx', k1'⟩
    · rw [hx] at hx'; cases hx'; rw [k1, k1']
    · rw [hx] at hx'; simp at hx'
    · rw [hx] at hx'; simp at hx'
    · rw [k1, k1']
  subst hts
  refine ⟨_, ts', T, e, k2, k3, getArray1_of (by simp [resampleArray]), ts'.map fun τ => (T' τ).t,
    ts'.map fun τ => (T' τ).r, ?_⟩
  · simp only [State.lookupTransform, e', bind, Except.bind, k3']

theorem vec3_tile {w : ND ℝ} (hs : w.shape = [3]) (n i : ℕ) : vec3 (w.tileN1 n) 1 [i, 0] = vec3 w 0 [0] := by
  funext k; fin_cases k <;> simp [vec3, ND.tileN1, hs]

/-- Arrays that hold a single vector `x`: shape `(3,)` or `(1, 3)`. -/
structure OneRow (w : ND ℝ) (x : Vec) : Prop where
  axis : ∃ p, AxisIs (-1) w.ndim p ∧ w.shape.getD p 0 = 3
  shape : ∀ n, (w.tileN1 n).shape = [n, 3]
  value : ∀ n i, vec3 (w.tileN1 n) 1 [i, 0] = x

theorem oneRow_flat {w : ND ℝ} (hw : w.shape = [3]) : OneRow w (vec3 w 0 [0]) :=
  ⟨⟨0, ⟨by simp [ND.ndim, hw], .inr (by simp [ND.ndim, hw])⟩, by simp [hw]⟩, fun n => by simp [ND.tileN1, hw],
    fun n i => vec3_tile hw n i⟩

theorem oneRow_row {w : ND ℝ} (hw : w.shape = [1, 3]) : OneRow w (vec3 w 1 [0, 0]) :=
  ⟨⟨1, ⟨by simp [ND.ndim, hw], .inr (by simp [ND.ndim, hw])⟩, by simp [hw]⟩, fun n => by simp [ND.tileN1, hw],
    fun n i => by funext k; fin_cases k <;> simp [vec3, ND.tileN1, hw, Nat.mod_one]⟩

/-- One static vector, for any harmless time axis. -/
theorem row_vector (sq : SquadFn) (hsq : SquadLaw sq) {s : State} {h : List Event} (hr : Reachable s h)
    {a b : ℕ} (ha : a < s.size) (hb : b < s.size) (hp : PathAll s a b (FrameOk true s)) {l : List ℕ}
    (hl : Route s a b l) (hm : Moving s l) (w : ND ℝ) {x : Vec} (hw : OneRow w x) (rt : Bool) (ta : Option ℤ) (hta : NoSwap ta 2) :
    ∃ out ts tl rl, s.transformVectors sq a w (.byObj b) { timeAxis := ta, returnTimestamps := rt } = .ok (returned rt out (some ts)) ∧
      s.lookupTransform sq a (.byObj b) = .ok (.many tl, .many rl, some ts) ∧ out.shape = [ts.length, 3] ∧
      ∀ (i : ℕ) τ, ts[i]? = some τ → ∃ A, IsTransformAt sq s a b τ A ∧ vec3 out 1 [i, 0] = rot A.r x := by
  obtain ⟨m, ts, T, e1, hT, e2, e3, tl, rl, e4⟩ := core_moving sq hsq hr.wf ha hb hp hl hm w
  have hts : (w.tileN1 ts.length).shape = [ts.length, 3] := hw.shape _
  obtain ⟨R, r1, r2, r3⟩ := rotateF_many (ts.map fun τ => (T τ).r) (by
      intro q hq
      obtain ⟨τ, hτ, rfl⟩ := List.mem_map.mp hq
      exact (hT τ hτ).2) (w.tileN1 ts.length) (axis := -1) (p := 1) (by simp [ND.ndim, hts, normAxis]) (by omega)
      (by simp [hts]) (by simp [hts])
  obtain ⟨p, hax, hsp⟩ := hw.axis
  obtain ⟨out, o1, o2, o3⟩ := undo_noSwap (R := R) (ta := ta) (by simpa [ND.ndim, r2, hts] using hta)
  refine ⟨out, ts, tl, rl, ?_, e4, by rw [o2, r2, hts], ?_⟩
  · simp only [State.transformVectors, State.transformVectorsCore, validateInput_static hax hsp,
      bind, Except.bind, e1, e2, e3, r1, Pure.pure, Except.pure, o1, pyReturn_eq]
  · intro i τ hi
    refine ⟨T τ, (hT τ (List.mem_of_getElem? hi)).1, ?_⟩
    apply vec3_of_entries (by simp)
    intro c
    rw [o3 _ (by simp [ND.ndim, r2, hts]), r3 _ (by
      rw [hts]; exact ⟨(List.getElem?_eq_some_iff.mp hi).1, c.2, trivial⟩), ← vec3_eq, vec3_set, hw.value]
    congr 2
    simp [List.getD_eq_getElem?_getD, hi]

theorem single_vector (sq : SquadFn) (hsq : SquadLaw sq) {s : State} {h : List Event} (hr : Reachable s h)
    {a b : ℕ} (ha : a < s.size) (hb : b < s.size) (hp : PathAll s a b (FrameOk true s)) {l : List ℕ}
    (hl : Route s a b l) (hm : Moving s l) (w : ND ℝ) (hw : w.shape = [3]) (rt : Bool) (ta : Option ℤ) (hta : NoSwap ta 2) :
    ∃ out ts tl rl, s.transformVectors sq a w (.byObj b) { timeAxis := ta, returnTimestamps := rt } = .ok (returned rt out (some ts)) ∧
      s.lookupTransform sq a (.byObj b) = .ok (.many tl, .many rl, some ts) ∧ out.shape = [ts.length, 3] ∧
      ∀ (i : ℕ) τ, ts[i]? = some τ → ∃ A, IsTransformAt sq s a b τ A ∧ vec3 out 1 [i, 0] = rot A.r (vec3 w 0 [0]) :=
  row_vector sq hsq hr ha hb hp hl hm w (oneRow_flat hw) rt ta hta

/-- A single static vector through moving frames: its coordinates at every timestamp of the
lookup. -/
theorem C30_single_vector_partial (sq : SquadFn) (hsq : SquadLaw sq) {s : State} {h : List Event} (hr : Reachable s h)
    {a b : ℕ} (ha : a < s.size) (hb : b < s.size) (hp : PathAll s a b (FrameOk true s)) {l : List ℕ}
    (hl : Route s a b l) (hm : Moving s l) (w : ND ℝ) (hw : w.shape = [3]) (rt : Bool) :
    ∃ out ts tl rl, s.transformVectors sq a w (.byObj b) { returnTimestamps := rt } = .ok (returned rt out (some ts)) ∧
      s.lookupTransform sq a (.byObj b) = .ok (.many tl, .many rl, some ts) ∧ out.shape = [ts.length, 3] ∧
      ∀ (i : ℕ) τ, ts[i]? = some τ → ∃ A, IsTransformAt sq s a b τ A ∧ vec3 out 1 [i, 0] = rot A.r (vec3 w 0 [0]) :=
  single_vector sq hsq hr ha hb hp hl hm w hw rt (some 0) (by intro t ht; cases ht; exact ⟨by omega, .inl rfl⟩)

/-- One static point, for any harmless time axis. -/
theorem row_point (sq : SquadFn) (hsq : SquadLaw sq) {s : State} {h : List Event} (hr : Reachable s h)
    {a b : ℕ} (ha : a < s.size) (hb : b < s.size) (hp : PathAll s a b (FrameOk true s)) {l : List ℕ}
    (hl : Route s a b l) (hm : Moving s l) (w : ND ℝ) {x : Vec} (hw : OneRow w x) (rt : Bool) (ta : Option ℤ) (hta : NoSwap ta 2) :
    ∃ out ts tl rl, s.transformPoints sq a w (.byObj b) { timeAxis := ta, returnTimestamps := rt } = .ok (returned rt out (some ts)) ∧
      s.lookupTransform sq a (.byObj b) = .ok (.many tl, .many rl, some ts) ∧ out.shape = [ts.length, 3] ∧
      ∀ (i : ℕ) τ, ts[i]? = some τ → ∃ A, IsTransformAt sq s a b τ A ∧ vec3 out 1 [i, 0] = A.act x := by
  obtain ⟨m, ts, T, e1, hT, e2, e3, tl, rl, e4⟩ := core_moving sq hsq hr.wf ha hb hp hl hm w
  have hts : (w.tileN1 ts.length).shape = [ts.length, 3] := hw.shape _
  obtain ⟨R, r1, r2, r3⟩ := rotateF_many (ts.map fun τ => (T τ).r) (by
      intro q hq
      obtain ⟨τ, hτ, rfl⟩ := List.mem_map.mp hq
      exact (hT τ hτ).2) (w.tileN1 ts.length) (axis := -1) (p := 1) (by simp [ND.ndim, hts, normAxis]) (by omega)
      (by simp [hts]) (by simp [hts])
  obtain ⟨p, hax, hsp⟩ := hw.axis
  have hRd : (w.tileN1 ts.length).ndim = R.ndim := by simp [ND.ndim, r2]
  obtain ⟨S, s1, s2, s3⟩ := add_many_vec R (n := ts.length) (sh := []) (by rw [r2, hts]; rfl)
    (ts.map fun τ => (T τ).t) (.inl (by simp))
  rw [← hRd] at s1
  obtain ⟨out, o1, o2, o3⟩ := undo_noSwap (R := S) (ta := ta) (by simpa [ND.ndim, s2, r2, hts] using hta)
  refine ⟨out, ts, tl, rl, ?_, e4, by rw [o2, s2, r2, hts], ?_⟩
  · simp only [State.transformPoints, State.transformPointsCore, validateInput_static hax hsp,
      bind, Except.bind, e1, e2, e3, r1, s1, Pure.pure, Except.pure, o1, pyReturn_eq]
  · intro i τ hi
    have hil := (List.getElem?_eq_some_iff.mp hi).1
    refine ⟨T τ, (hT τ (List.mem_of_getElem? hi)).1, ?_⟩
    apply vec3_of_entries (by simp)
    intro c
    have hc := c.2
    have hset : [i, 0].set 1 c.val = i :: ([] ++ [c.val]) := rfl
    have hidx : (if (ts.map fun τ => (T τ).t).length = 1 then 0 else i) = i := by
      simp only [List.length_map]; split <;> omega
    rw [o3 _ (by simp [ND.ndim, s2, r2, hts]), hset, s3 i [] c hil trivial hc, hidx, ← hset, r3 _ (by
      rw [hts]; exact ⟨hil, hc, trivial⟩), ← vec3_eq, vec3_set, hw.value]
    simp only [Pose.act, Pi.add_apply]
    congr 2
    · simp [List.getD_eq_getElem?_getD, hi]
    · simp [List.getD_eq_getElem?_getD, hi]

theorem single_point (sq : SquadFn) (hsq : SquadLaw sq) {s : State} {h : List Event} (hr : Reachable s h)
    {a b : ℕ} (ha : a < s.size) (hb : b < s.size) (hp : PathAll s a b (FrameOk true s)) {l : List ℕ}
    (hl : Route s a b l) (hm : Moving s l) (w : ND ℝ) (hw : w.shape = [3]) (rt : Bool) (ta : Option ℤ) (hta : NoSwap ta 2) :
    ∃ out ts tl rl, s.transformPoints sq a w (.byObj b) { timeAxis := ta, returnTimestamps := rt } = .ok (returned rt out (some ts)) ∧
      s.lookupTransform sq a (.byObj b) = .ok (.many tl, .many rl, some ts) ∧ out.shape = [ts.length, 3] ∧
      ∀ (i : ℕ) τ, ts[i]? = some τ → ∃ A, IsTransformAt sq s a b τ A ∧ vec3 out 1 [i, 0] = A.act (vec3 w 0 [0]) :=
  row_point sq hsq hr ha hb hp hl hm w (oneRow_flat hw) rt ta hta

/-- A single static point through moving frames. -/
theorem C30_single_point_partial (sq : SquadFn) (hsq : SquadLaw sq) {s : State} {h : List Event} (hr : Reachable s h)
    {a b : ℕ} (ha : a < s.size) (hb : b < s.size) (hp : PathAll s a b (FrameOk true s)) {l : List ℕ}
    (hl : Route s a b l) (hm : Moving s l) (w : ND ℝ) (hw : w.shape = [3]) (rt : Bool) :
    ∃ out ts tl rl, s.transformPoints sq a w (.byObj b) { returnTimestamps := rt } = .ok (returned rt out (some ts)) ∧
      s.lookupTransform sq a (.byObj b) = .ok (.many tl, .many rl, some ts) ∧ out.shape = [ts.length, 3] ∧
      ∀ (i : ℕ) τ, ts[i]? = some τ → ∃ A, IsTransformAt sq s a b τ A ∧ vec3 out 1 [i, 0] = A.act (vec3 w 0 [0]) :=
  single_point sq hsq hr ha hb hp hl hm w hw rt (some 0) (by intro t ht; cases ht; exact ⟨by omega, .inl rfl⟩)

/-- An array of one row `(1, 3)` gives what the single vector gives. -/
theorem C30_row_vector_partial (sq : SquadFn) (hsq : SquadLaw sq) {s : State} {h : List Event} (hr : Reachable s h)
    {a b : ℕ} (ha : a < s.size) (hb : b < s.size) (hp : PathAll s a b (FrameOk true s)) {l : List ℕ}
    (hl : Route s a b l) (hm : Moving s l) (w : ND ℝ) (hw : w.shape = [1, 3]) (rt : Bool) :
    ∃ out ts tl rl, s.transformVectors sq a w (.byObj b) { returnTimestamps := rt } = .ok (returned rt out (some ts)) ∧
      s.lookupTransform sq a (.byObj b) = .ok (.many tl, .many rl, some ts) ∧ out.shape = [ts.length, 3] ∧
      ∀ (i : ℕ) τ, ts[i]? = some τ → ∃ A, IsTransformAt sq s a b τ A ∧ vec3 out 1 [i, 0] = rot A.r (vec3 w 1 [0, 0]) :=
  row_vector sq hsq hr ha hb hp hl hm w (oneRow_row hw) rt (some 0) (by intro t ht; cases ht; exact ⟨by omega, .inl rfl⟩)

/-- An array of one row `(1, 3)` gives what the single point gives. -/
theorem C30_row_point_partial (sq : SquadFn) (hsq : SquadLaw sq) {s : State} {h : List Event} (hr : Reachable s h)
    {a b : ℕ} (ha : a < s.size) (hb : b < s.size) (hp : PathAll s a b (FrameOk true s)) {l : List ℕ}
    (hl : Route s a b l) (hm : Moving s l) (w : ND ℝ) (hw : w.shape = [1, 3]) (rt : Bool) :
    ∃ out ts tl rl, s.transformPoints sq a w (.byObj b) { returnTimestamps := rt } = .ok (returned rt out (some ts)) ∧
      s.lookupTransform sq a (.byObj b) = .ok (.many tl, .many rl, some ts) ∧ out.shape = [ts.length, 3] ∧
      ∀ (i : ℕ) τ, ts[i]? = some τ → ∃ A, IsTransformAt sq s a b τ A ∧ vec3 out 1 [i, 0] = A.act (vec3 w 1 [0, 0]) :=
  row_point sq hsq hr ha hb hp hl hm w (oneRow_row hw) rt (some 0) (by intro t ht; cases ht; exact ⟨by omega, .inl rfl⟩)

theorem single_orientation (sq : SquadFn) (hsq : SquadLaw sq) {s : State} {h : List Event} (hr : Reachable s h)
    {a b : ℕ} (ha : a < s.size) (hb : b < s.size) (hp : PathAll s a b (FrameOk true s)) {l : List ℕ}
    (hl : Route s a b l) (hm : Moving s l) (w : ND ℝ) (x : Quat)
    (hw : (w.shape = [4] ∧ x = quat4 w 0 [0]) ∨ (w.shape = [1, 4] ∧ x = quat4 w 1 [0, 0])) (rt : Bool) (ta : Option ℤ) (hta : NoSwap ta 2) :
    ∃ out ts tl rl, s.transformQuaternions sq a w (.byObj b) { timeAxis := ta, returnTimestamps := rt } = .ok (returned rt out (some ts)) ∧
      s.lookupTransform sq a (.byObj b) = .ok (.many tl, .many rl, some ts) ∧ out.shape = [ts.length, 4] ∧
      ∀ (i : ℕ) τ, ts[i]? = some τ → ∃ A, IsTransformAt sq s a b τ A ∧ quat4 out 1 [i, 0] = A.r * x := by
  obtain ⟨m, ts, T, e1, hT, e2, e3, tl, rl, e4⟩ := core_moving sq hsq hr.wf ha hb hp hl hm w
  have hts : (w.tileN1 ts.length).shape = [ts.length, 4] := by rcases hw with ⟨hw, -⟩ | ⟨hw, -⟩ <;> simp [ND.tileN1, hw]
  have hval : ∀ i, quat4 (w.tileN1 ts.length) 1 [i, 0] = x := by
    intro i
    rcases hw with ⟨hw, rfl⟩ | ⟨hw, rfl⟩ <;> simp [quat4, ND.tileN1, hw, Nat.mod_one] <;> rfl
  have hv : validateInput w (-1) 4 none ta = .ok (w, none) := by
    rcases hw with ⟨hw, -⟩ | ⟨hw, -⟩
    · have hax : AxisIs (-1) w.ndim 0 := ⟨by simp [ND.ndim, hw], .inr (by simp [ND.ndim, hw])⟩
      exact validateInput_static hax (show w.shape.getD 0 0 = 4 by simp [hw]) _
    · have hax : AxisIs (-1) w.ndim 1 := ⟨by simp [ND.ndim, hw], .inr (by simp [ND.ndim, hw])⟩
      exact validateInput_static hax (show w.shape.getD 1 0 = 4 by simp [hw]) _
  have hax : AxisIs (-1) (w.tileN1 ts.length).ndim 1 := ⟨by simp [ND.ndim, hts], .inr (by simp [ND.ndim, hts])⟩
  obtain ⟨w2, rq, aq, P, R, q1, q2, q3, q4, q5, q6, q7⟩ := quat_mul_many (ts.map fun τ => (T τ).r) (w.tileN1 ts.length) hax (by simp [hts]) (by omega) (by simp [hts])
  obtain ⟨out, o1, o2, o3⟩ := undo_noSwap (R := R) (ta := ta) (by
    rw [show R.ndim = 2 by simp [ND.ndim, q6, hts]]; exact hta)
  refine ⟨out, ts, tl, rl, ?_, e4, by rw [o2, q6, hts], ?_⟩
  · simp only [State.transformQuaternions, State.transformQuaternionsCore, hv,
      bind, Except.bind, e1, e2, e3, q1, q2, q3, q4, q5, Pure.pure, Except.pure, o1, pyReturn_eq]
  · intro i τ hi
    refine ⟨T τ, (hT τ (List.mem_of_getElem? hi)).1, ?_⟩
    have hv' : Valid (w.tileN1 ts.length).shape [i, 0] := by
      rw [hts]; exact ⟨(List.getElem?_eq_some_iff.mp hi).1, by norm_num, trivial⟩
    have := q7 _ hv'
    rw [hval] at this
    have he : ([i, 0].getD 0 0 : ℕ) = i := rfl
    rw [he] at this
    have hg : (ts.map fun τ => (T τ).r).getD i 0 = (T τ).r := by simp [List.getD_eq_getElem?_getD, hi]
    rw [hg] at this
    rw [← this]
    have hl : ∀ c, ([i, 0].set 1 c).length = R.ndim := by intro c; simp [ND.ndim, q6, hts]
    simp only [quat4, o3 _ (hl _)]
    rfl

/-- A single static orientation, `(4,)` or `(1, 4)`, through moving frames: its orientation in the
target frame at every timestamp of the lookup. -/
theorem C30_single_orientation_partial (sq : SquadFn) (hsq : SquadLaw sq) {s : State} {h : List Event} (hr : Reachable s h)
    {a b : ℕ} (ha : a < s.size) (hb : b < s.size) (hp : PathAll s a b (FrameOk true s)) {l : List ℕ}
    (hl : Route s a b l) (hm : Moving s l) (w : ND ℝ) (x : Quat)
    (hw : (w.shape = [4] ∧ x = quat4 w 0 [0]) ∨ (w.shape = [1, 4] ∧ x = quat4 w 1 [0, 0])) (rt : Bool) :
    ∃ out ts tl rl, s.transformQuaternions sq a w (.byObj b) { returnTimestamps := rt } = .ok (returned rt out (some ts)) ∧
      s.lookupTransform sq a (.byObj b) = .ok (.many tl, .many rl, some ts) ∧ out.shape = [ts.length, 4] ∧
      ∀ (i : ℕ) τ, ts[i]? = some τ → ∃ A, IsTransformAt sq s a b τ A ∧ quat4 out 1 [i, 0] = A.r * x :=
  single_orientation sq hsq hr ha hb hp hl hm w x hw rt (some 0) (by intro t ht; cases ht; exact ⟨by omega, .inl rfl⟩)

/-- Several static vectors or points `(k, 3)`, `k ≥ 2`, through moving frames: `np.tile` stacks the
copies along the first axis, and the call raises `ValueError` whenever the lookup has two or more
timestamps. Hence the property is violated. -/
theorem C30_several_fail (sq : SquadFn) (hsq : SquadLaw sq) {s : State} {h : List Event} (hr : Reachable s h)
    {a b : ℕ} (ha : a < s.size) (hb : b < s.size) (hp : PathAll s a b (FrameOk true s)) {l : List ℕ}
    (hl : Route s a b l) (hm : Moving s l) (w : ND ℝ) {k : ℕ} (hk : 2 ≤ k) (hw : w.shape = [k, 3]) (rt : Bool) :
    ∃ tl rl ts, s.lookupTransform sq a (.byObj b) = .ok (.many tl, .many rl, some ts) ∧
      (2 ≤ ts.length → s.transformVectors sq a w (.byObj b) { returnTimestamps := rt } = .error .valueError ∧
        s.transformPoints sq a w (.byObj b) { returnTimestamps := rt } = .error .valueError) := by
  obtain ⟨m, ts, T, e1, hT, e2, e3, tl, rl, e4⟩ := core_moving sq hsq hr.wf ha hb hp hl hm w
  refine ⟨tl, rl, ts, e4, fun hn => ?_⟩
  have hts : (w.tileN1 ts.length).shape = [k * ts.length, 3] := by simp [ND.tileN1, hw]
  have hnd : (w.tileN1 ts.length).ndim = 2 := by simp [ND.ndim, hts]
  obtain ⟨Q, q1, q2, _⟩ := expand_quats (ts.map fun τ => (T τ).r) (d := 2) (le_refl 2)
  have hrot : rotateVectorsF (expandSingletonAxes (ND.ofQuats (.many (ts.map fun τ => (T τ).r))) (w.tileN1 ts.length).ndim)
      (w.tileN1 ts.length) (-1) = .error .valueError := by
    rw [hnd]
    simp only [rotateVectorsF]
    cases hsw : (expandSingletonAxes (ND.ofQuats (.many (ts.map fun τ => (T τ).r))) 2).swapaxesZ (-1) (-1) with
    | error e => rw [hsw] at q1; simp [bind, Except.bind] at q1
    | ok X =>
      rw [hsw] at q1
      simp only [bind, Except.bind] at q1 ⊢
      simp only [q1]
      have hqn : Q.ndim = 1 := by simp [ND.ndim, q2]
      have hlt : ts.length ≠ k * ts.length := by nlinarith
      simp only [rotateVectorsQ, hqn, hnd]
      simp only [show normAxis (-1) 2 = some 1 by simp [normAxis], hts]
      have hnm : nonmatching Q.shape ([k * ts.length, 3].eraseIdx 1) = true := by
        have h1 : ts.length ≠ 1 := by omega
        have h2 : k * ts.length ≠ 1 := by nlinarith
        rw [q2]
        simp [nonmatching, h1, h2, hlt]
      simp only [List.eraseIdx_cons_succ, List.eraseIdx_cons_zero] at hnm
      simp [hnm]
  have hax : AxisIs (-1) w.ndim 1 := ⟨by simp [ND.ndim, hw], .inr (by simp [ND.ndim, hw])⟩
  constructor
  · simp only [State.transformVectors, State.transformVectorsCore, validateInput_static hax (show w.shape.getD 1 0 = 3 by simp [hw]),
      bind, Except.bind, e1, e2, e3, hrot]
  · simp only [State.transformPoints, State.transformPointsCore, validateInput_static hax (show w.shape.getD 1 0 = 3 by simp [hw]),
      bind, Except.bind, e1, e2, e3, hrot]

theorem ex_moving : Moving Ex.m3 [1, 2] := ⟨1, by simp, false, [0, 1, 2], by rw [Ex.m3_eq]; simp [stampsOf, Ex.dataM]⟩

/-- Non-vacuous for one point. -/
example : ∃ out ts tl rl, Ex.m3.transformPoints Ex.holdSquad 1 (Ex.arr1 [1, 2, 3]) (.byObj 2) {} = .ok (returned false out (some ts)) ∧
      Ex.m3.lookupTransform Ex.holdSquad 1 (.byObj 2) = .ok (.many tl, .many rl, some ts) ∧ out.shape = [ts.length, 3] ∧
      ∀ (i : ℕ) τ, ts[i]? = some τ → ∃ A, IsTransformAt Ex.holdSquad Ex.m3 1 2 τ A ∧ vec3 out 1 [i, 0] = A.act (vec3 (Ex.arr1 [1, 2, 3]) 0 [0]) :=
  C30_single_point_partial _ Ex.holdSquad_law Ex.reachM (by rw [Ex.m3_eq]; norm_num) (by rw [Ex.m3_eq]; norm_num) ex_pathAll_moving
    ex_route_moving ex_moving (Ex.arr1 [1, 2, 3]) rfl false

/-- The same path: an array of one row, and an orientation. -/
example : ∃ out ts tl rl, Ex.m3.transformPoints Ex.holdSquad 1 (Ex.arr2 3 [[1, 2, 3]]) (.byObj 2) {} = .ok (returned false out (some ts)) ∧
      Ex.m3.lookupTransform Ex.holdSquad 1 (.byObj 2) = .ok (.many tl, .many rl, some ts) ∧ out.shape = [ts.length, 3] ∧
      ∀ (i : ℕ) τ, ts[i]? = some τ → ∃ A, IsTransformAt Ex.holdSquad Ex.m3 1 2 τ A ∧ vec3 out 1 [i, 0] = A.act (vec3 (Ex.arr2 3 [[1, 2, 3]]) 1 [0, 0]) :=
  C30_row_point_partial _ Ex.holdSquad_law Ex.reachM (by rw [Ex.m3_eq]; norm_num) (by rw [Ex.m3_eq]; norm_num) ex_pathAll_moving
    ex_route_moving ex_moving (Ex.arr2 3 [[1, 2, 3]]) rfl false

example : ∃ out ts tl rl, Ex.m3.transformQuaternions Ex.holdSquad 1 (Ex.arr1 [0, 0, 0, 1]) (.byObj 2) {} = .ok (returned false out (some ts)) ∧
      Ex.m3.lookupTransform Ex.holdSquad 1 (.byObj 2) = .ok (.many tl, .many rl, some ts) ∧ out.shape = [ts.length, 4] ∧
      ∀ (i : ℕ) τ, ts[i]? = some τ → ∃ A, IsTransformAt Ex.holdSquad Ex.m3 1 2 τ A ∧ quat4 out 1 [i, 0] = A.r * quat4 (Ex.arr1 [0, 0, 0, 1]) 0 [0] :=
  C30_single_orientation_partial _ Ex.holdSquad_law Ex.reachM (by rw [Ex.m3_eq]; norm_num) (by rw [Ex.m3_eq]; norm_num) ex_pathAll_moving
    ex_route_moving ex_moving (Ex.arr1 [0, 0, 0, 1]) _ (.inl ⟨rfl, rfl⟩) false

/-- C30 is false: two static points cannot be transformed along the example path, although every
single point can. -/
theorem C30_several_is_false : ¬ ∀ (sq : SquadFn), SquadLaw sq → ∀ (s : State) (h : List Event), Reachable s h →
    ∀ (a b : ℕ), a < s.size → b < s.size → PathAll s a b (FrameOk true s) → ∀ (w : ND ℝ) (k : ℕ), w.shape = [k, 3] →
      ∃ res, s.transformPoints sq a w (.byObj b) {} = .ok res := by
  intro hall
  obtain ⟨res, e⟩ := hall _ Ex.holdSquad_law _ _ Ex.reachM 1 2 (by rw [Ex.m3_eq]; norm_num) (by rw [Ex.m3_eq]; norm_num)
    ex_pathAll_moving (Ex.arr2 3 [[1, 2, 3], [4, 5, 6]]) 2 rfl
  obtain ⟨tl, rl, ts, e1, e2⟩ := C30_several_fail _ Ex.holdSquad_law Ex.reachM (a := 1) (b := 2) (by rw [Ex.m3_eq]; norm_num) (by rw [Ex.m3_eq]; norm_num)
    ex_pathAll_moving ex_route_moving ex_moving (Ex.arr2 3 [[1, 2, 3], [4, 5, 6]]) (le_refl 2) rfl false
  have hc : [1, 2].filterMap (stampsOf Ex.m3 false) = [[0, 1, 2]] := by
    rw [Ex.m3_eq]; simp [stampsOf, Ex.dataM, Ex.dataD]
  obtain ⟨out, ho, _, ho2⟩ := C20_timestamps _ Ex.holdSquad_law Ex.reachM (a := 1) (b := 2) (by rw [Ex.m3_eq]; norm_num) (by rw [Ex.m3_eq]; norm_num)
    ex_pathAll_moving ex_route_moving e1 hc
  cases ho
  have : ts = [0, 1, 2] := by
    rw [ho2]; simp [List.filter_cons, InRange]
  rw [(e2 (by simp [this])).2] at e
  simp at e

end RBM.Props
