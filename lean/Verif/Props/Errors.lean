import Verif.Lemmas.Errors
import Verif.Props.NearbyExamples
import Verif.Lemmas.Example3

/-!
C100: errors of recorded poses add up along the path and are not amplified.
-/

namespace RBM.Props

open RBM.Spec

/-- How far apart unit quaternions turn a vector: at most twice their distance. -/
theorem C100_turned {q q' : Quat} (hq : IsUnitQ q) (hq' : IsUnitQ q') : TurnedBy (2 * Real.sqrt (nsq (q' - q))) q q' := turnedBy_unit hq hq'

section
variable {sq : SquadFn} {s s' : State} {h h' : List Event} {a b : ℕ} {l : List ℕ} {τ : ℝ} {ε η : ℕ → ℝ}

/-- `lookup_transform` for recordings that differ by measurement errors: the orientations differ by at most the sum of the turns; a point that is
at most `R i` away from the origin of frame `i`, for every frame on the path with an uncertain orientation, is mapped to points that are at most the sum of the
errors `ε i + η i * R i` apart. -/
theorem C100_lookup (hsq : SquadLaw sq) (hr : Reachable s h) (hr' : Reachable s' h') (ha : a < s.size) (hb : b < s.size)
    (hre : Rerecorded s s') (hp : PathAll s a b (FrameOk true s)) (hp' : PathAll s' a b (FrameOk true s')) (hl : Route s a b l)
    (hoff : ∀ i ∈ l, ∀ d d', s.data i = some d → s'.data i = some d' → OffBy τ (ε i) (η i) d d') {A : Pose}
    (hA : GivesAt (s.lookupTransform sq a (.byObj b)) τ A) :
    ∃ A' : Pose, GivesAt (s'.lookupTransform sq a (.byObj b)) τ A' ∧ TurnedBy (l.map η).sum A.r A'.r ∧
      ∀ (p : Vec) (R : ℕ → ℝ), (∀ i ∈ l, η i ≠ 0 → ∀ B, IsTransformAt sq s a i τ B → Spec.dist (B.act p) 0 ≤ R i) →
        Spec.dist (A'.act p) (A.act p) ≤ (l.map fun i => ε i + η i * R i).sum := by
  have ha' : a < s'.size := by rw [hre.size]; exact ha
  have hb' : b < s'.size := by rw [hre.size]; exact hb
  obtain ⟨B, hB⟩ : ∃ B, GivesAt (s'.lookupTransform sq a (.byObj b)) τ B := by
    rcases hA with e | ⟨tl, rl, ts, k, e, hk, _, _⟩
    · obtain ⟨t', r', e'⟩ := lookup_rerecorded hsq hr.wf hr'.wf ha hb hre hp hp' e
      obtain ⟨t0, r0, rfl, rfl⟩ := (C22_every_lookup sq hr' ha' hb' (hre.route hl) e').2.1 rfl
      exact ⟨⟨t0, r0⟩, .inl e'⟩
    · obtain ⟨t', r', e'⟩ := lookup_rerecorded hsq hr.wf hr'.wf ha hb hre hp hp' e
      exact C24_rows_covered sq hsq hr' ha' hb' hp' e' τ (List.mem_of_getElem? hk)
  obtain ⟨h1, h2⟩ := transformAt_off (mv := true) (fun _ => hsq) hr.wf hr'.wf hre hp hp' hl hoff
    (givesAt_isTransformAt hr.wf (fun _ => hsq) ha hb hp hA) (givesAt_isTransformAt hr'.wf (fun _ => hsq) ha' hb' hp' hB)
  refine ⟨B, hB, h1, fun p R hR => ?_⟩
  have := h2 p p R hR
  rwa [sdist_self, zero_add] at this

/-- Errors of the positions only: the looked-up positions differ by at most the sum of the errors, orientations are the same rotations. -/
theorem C100_positions (hsq : SquadLaw sq) (hr : Reachable s h) (hr' : Reachable s' h') (ha : a < s.size) (hb : b < s.size)
    (hre : Rerecorded s s') (hp : PathAll s a b (FrameOk true s)) (hp' : PathAll s' a b (FrameOk true s')) (hl : Route s a b l)
    (hoff : ∀ i ∈ l, ∀ d d', s.data i = some d → s'.data i = some d' → OffBy τ (ε i) 0 d d') {A : Pose}
    (hA : GivesAt (s.lookupTransform sq a (.byObj b)) τ A) :
    ∃ A' : Pose, GivesAt (s'.lookupTransform sq a (.byObj b)) τ A' ∧ Spec.dist A'.t A.t ≤ (l.map ε).sum ∧ ∀ v, rot A'.r v = rot A.r v := by
  obtain ⟨A', h1, h2, h3⟩ := C100_lookup (η := fun _ => 0) hsq hr hr' ha hb hre hp hp' hl hoff hA
  refine ⟨A', h1, ?_, fun v => ?_⟩
  · have h5 := h3 0 (fun _ => 0) (fun i _ hi => absurd rfl hi)
    simpa [Pose.act] using h5
  · have := h2 v
    rw [List.map_const', List.sum_replicate, smul_zero, zero_mul] at this
    exact sdist_eq_zero (le_antisymm this (sdist_nonneg _ _))

variable {ats : List ℝ} {p q : ℕ} {ta : ℤ} {v v' : ND ℝ} {o : TArgs}

/-- `transform_points`: a row of the result is off by at most the error of the transformed point plus the errors of the frames on the path. -/
theorem C100_points (hsq : SquadLaw sq) (hr : Reachable s h) (hr' : Reachable s' h') (ha : a < s.size) (hb : b < s.size)
    (hre : Rerecorded s s') (hp : PathAll s a b (FrameOk true s)) (hp' : PathAll s' a b (FrameOk true s')) (hl : Route s a b l)
    (hoff : ∀ i ∈ l, ∀ d d', s.data i = some d → s'.data i = some d' → OffBy τ (ε i) (η i) d d')
    (hax : AxisIs o.axis v.ndim p) (h3 : v.shape.getD p 0 = 3) (hta : o.timeAxis = some ta)
    (hq : AxisIs ta v.ndim q) (hts : o.timestamps = some (ofList ats)) (htd : TimedArray v q ats)
    (hp0 : p ≠ 0) (hpq : p ≠ q) (hlast : p + 1 = v.ndim) (hshape : v'.shape = v.shape) {i k : ℕ}
    (hi : (outStamps s l ats)[i]? = some τ) (hk : ats[k]? = some τ) :
    ∃ out out', s.transformPoints sq a v (.byObj b) o = .ok (returned o.returnTimestamps out (some (outStamps s l ats))) ∧
      s'.transformPoints sq a v' (.byObj b) o = .ok (returned o.returnTimestamps out' (some (outStamps s l ats))) ∧ out'.shape = out.shape ∧
      ∀ idx, Valid v.shape idx → ∀ R : ℕ → ℝ,
        (∀ i ∈ l, η i ≠ 0 → ∀ B, IsTransformAt sq s a i τ B → Spec.dist (B.act (vec3 v p (idx.set q k))) 0 ≤ R i) →
        Spec.dist (vec3 out' p (idx.set q i)) (vec3 out p (idx.set q i)) ≤
          Spec.dist (vec3 v' p (idx.set q k)) (vec3 v p (idx.set q k)) + (l.map fun i => ε i + η i * R i).sum := by
  have hnd : v'.ndim = v.ndim := by simp only [ND.ndim, hshape]
  obtain ⟨out, e1, e2, e3⟩ := C15_points_timed sq hsq hr ha hb hp hl v o hax h3 hta hq hts htd hp0 hpq hlast
  obtain ⟨out', e1', e2', e3'⟩ := C15_points_timed sq hsq hr' (by rw [hre.size]; exact ha) (by rw [hre.size]; exact hb) hp' (hre.route hl)
    v' o (by rw [hnd]; exact hax) (by rw [hshape]; exact h3) hta (by rw [hnd]; exact hq) hts
    ⟨by rw [hnd]; exact htd.axis, by rw [hshape]; exact htd.length, htd.two, htd.sorted⟩ hp0 hpq (by rw [hnd]; exact hlast)
  rw [rerecorded_outStamps hre] at e1' e2' e3'
  obtain ⟨A, hA, f1⟩ := e3 i k τ hi hk
  obtain ⟨B, hB, f2⟩ := e3' i k τ hi hk
  obtain ⟨h1, h2⟩ := transformAt_off (mv := true) (fun _ => hsq) hr.wf hr'.wf hre hp hp' hl hoff hA hB
  refine ⟨out, out', e1, e1', by rw [e2, e2', hshape], fun idx hidx R hR => ?_⟩
  rw [f2 idx (by rw [hshape]; exact hidx), f1 idx hidx]
  exact h2 _ _ R hR

/-- `transform_vectors`: errors of positions have no influence, errors of orientations are proportional to the length of the vector. -/
theorem C100_vectors (hsq : SquadLaw sq) (hr : Reachable s h) (hr' : Reachable s' h') (ha : a < s.size) (hb : b < s.size)
    (hre : Rerecorded s s') (hp : PathAll s a b (FrameOk true s)) (hp' : PathAll s' a b (FrameOk true s')) (hl : Route s a b l)
    (hoff : ∀ i ∈ l, ∀ d d', s.data i = some d → s'.data i = some d' → OffBy τ (ε i) (η i) d d')
    (hax : AxisIs o.axis v.ndim p) (h3 : v.shape.getD p 0 = 3) (hta : o.timeAxis = some ta)
    (hq : AxisIs ta v.ndim q) (hts : o.timestamps = some (ofList ats)) (htd : TimedArray v q ats)
    (hp0 : p ≠ 0) (hpq : p ≠ q) (hlast : p + 1 = v.ndim ∨ 4 ∉ v.shape) (hshape : v'.shape = v.shape) {i k : ℕ}
    (hi : (outStamps s l ats)[i]? = some τ) (hk : ats[k]? = some τ) :
    ∃ out out', s.transformVectors sq a v (.byObj b) o = .ok (returned o.returnTimestamps out (some (outStamps s l ats))) ∧
      s'.transformVectors sq a v' (.byObj b) o = .ok (returned o.returnTimestamps out' (some (outStamps s l ats))) ∧ out'.shape = out.shape ∧
      ∀ idx, Valid v.shape idx → Spec.dist (vec3 out' p (idx.set q i)) (vec3 out p (idx.set q i)) ≤
        Spec.dist (vec3 v' p (idx.set q k)) (vec3 v p (idx.set q k)) + (l.map η).sum * Spec.dist (vec3 v p (idx.set q k)) 0 := by
  have hnd : v'.ndim = v.ndim := by simp only [ND.ndim, hshape]
  obtain ⟨out, e1, e2, e3⟩ := C15_vectors_timed sq hsq hr ha hb hp hl v o hax h3 hta hq hts htd hp0 hpq hlast
  obtain ⟨out', e1', e2', e3'⟩ := C15_vectors_timed sq hsq hr' (by rw [hre.size]; exact ha) (by rw [hre.size]; exact hb) hp' (hre.route hl)
    v' o (by rw [hnd]; exact hax) (by rw [hshape]; exact h3) hta (by rw [hnd]; exact hq) hts
    ⟨by rw [hnd]; exact htd.axis, by rw [hshape]; exact htd.length, htd.two, htd.sorted⟩ hp0 hpq (by rw [hnd, hshape]; exact hlast)
  rw [rerecorded_outStamps hre] at e1' e2' e3'
  obtain ⟨A, hA, f1⟩ := e3 i k τ hi hk
  obtain ⟨B, hB, f2⟩ := e3' i k τ hi hk
  obtain ⟨h1, h2⟩ := transformAt_off (mv := true) (fun _ => hsq) hr.wf hr'.wf hre hp hp' hl hoff hA hB
  refine ⟨out, out', e1, e1', by rw [e2, e2', hshape], fun idx hidx => ?_⟩
  rw [f2 idx (by rw [hshape]; exact hidx), f1 idx hidx]
  have nB := isTransformAt_ne hr'.wf (fun _ => hsq) hp' hB
  have t := sdist_triangle (rot B.r (vec3 v' p (idx.set q k))) (rot B.r (vec3 v p (idx.set q k))) (rot A.r (vec3 v p (idx.set q k)))
  rw [sdist_rot nB] at t
  have := h1 (vec3 v p (idx.set q k))
  linarith

/-- Arrays without timestamps and static frames (also with orientations that are not unit). -/
theorem C100_static (hr : Reachable s h) (hr' : Reachable s' h') (ha : a < s.size) (hb : b < s.size)
    (hre : Rerecorded s s') (hp : PathAll s a b (FrameOk false s)) (hp' : PathAll s' a b (FrameOk false s')) (hl : Route s a b l)
    (hoff : ∀ i ∈ l, ∀ d d', s.data i = some d → s'.data i = some d' → OffBy τ (ε i) (η i) d d')
    (hax : AxisIs o.axis v.ndim p) (hlast : p + 1 = v.ndim) (h3 : v.shape.getD p 0 = 3) (hts : o.timestamps = none) (hta : NoSwap o.timeAxis v.ndim)
    (hshape : v'.shape = v.shape) :
    ∃ out out', s.transformPoints sq a v (.byObj b) o = .ok (returned o.returnTimestamps out none) ∧
      s'.transformPoints sq a v' (.byObj b) o = .ok (returned o.returnTimestamps out' none) ∧ out'.shape = out.shape ∧
      ∀ idx, Valid v.shape idx → ∀ R : ℕ → ℝ,
        (∀ i ∈ l, η i ≠ 0 → ∀ B, IsTransformAt sq s a i τ B → Spec.dist (B.act (vec3 v p idx)) 0 ≤ R i) →
        Spec.dist (vec3 out' p idx) (vec3 out p idx) ≤ Spec.dist (vec3 v' p idx) (vec3 v p idx) + (l.map fun i => ε i + η i * R i).sum := by
  have hnd : v'.ndim = v.ndim := by simp only [ND.ndim, hshape]
  obtain ⟨A, out, hA, _, e1, e2, e3⟩ := C15_points_static sq hr ha hb hp v o hax hlast h3 hts hta
  obtain ⟨B, out', hB, _, e1', e2', e3'⟩ := C15_points_static sq hr' (by rw [hre.size]; exact ha) (by rw [hre.size]; exact hb) hp' v' o
    (by rw [hnd]; exact hax) (by rw [hnd]; exact hlast) (by rw [hshape]; exact h3) hts (by rw [hnd]; exact hta)
  obtain ⟨_, h2⟩ := transformAt_off (mv := false) (by simp) hr.wf hr'.wf hre hp hp' hl hoff (hA τ) (hB τ)
  refine ⟨out, out', e1, e1', by rw [e2, e2', hshape], fun idx hidx R hR => ?_⟩
  rw [e3' idx (by rw [hshape]; exact hidx), e3 idx hidx]
  exact h2 _ _ R hR

end

/-- The tree in which the second position of frame `m` is (9, 9, 9) instead of (1, 0, 0): off by at most 16 (`C100_positions`). -/
theorem exOff (τ : ℝ) : ∀ i ∈ [1, 2], ∀ d d', Ex.m3.data i = some d → n3.data i = some d' → OffBy τ (if i = 1 then 16 else 0) 0 d d' := by
  intro i hi d d' hd hd'
  rw [Ex.m3_eq] at hd
  rw [n3_eq] at hd'
  simp only [List.mem_cons, List.not_mem_nil, or_false] at hi
  rcases hi with rfl | rfl
  · simp [dataN3] at hd hd'
    subst hd; subst hd'
    refine .between (fun k t t' h1 h2 => ?_) (le_refl _)
    match k with
    | 0 => cases h1; cases h2; rw [sdist_self]; norm_num
    | 1 =>
      cases h1; cases h2
      refine Real.sqrt_le_iff.mpr ⟨by norm_num, ?_⟩
      simp [dot]; norm_num
    | 2 => cases h1; cases h2; rw [sdist_self]; norm_num
    | k + 3 => simp at h1
  · simp [dataN3] at hd hd'
    subst hd; subst hd'
    refine .discrete (fun k t t' h1 h2 => ?_) fun k r r' h1 h2 => ?_
    · rw [h1] at h2; cases h2; rw [sdist_self]; norm_num
    · rw [h1] at h2; cases h2; exact turnedBy_refl (le_refl _) _

example (τ : ℝ) (A : Pose) (hA : GivesAt (Ex.m3.lookupTransform stepSquad 1 (.byObj 2)) τ A) :
    ∃ A' : Pose, GivesAt (n3.lookupTransform stepSquad 1 (.byObj 2)) τ A' ∧ Spec.dist A'.t A.t ≤ 16 ∧ ∀ v, rot A'.r v = rot A.r v := by
  obtain ⟨h', hr'⟩ := reachN
  have hsz : Ex.m3.size = 3 := by rw [Ex.m3_eq]
  obtain ⟨A', h1, h2, h3⟩ := C100_positions stepSquad_law Ex.reachM hr' (by rw [hsz]; omega) (by rw [hsz]; omega) rerecordedN ex_pathAll_moving
    ex_pathAll_N ex_route_moving (exOff τ) hA
  exact ⟨A', h1, h2.trans (by norm_num), h3⟩

/-! ### a static frame with an uncertain orientation -/

/-- A frame turned about z, with orientation `w + z k`, one unit from the world frame. -/
def argsW (w z : ℝ) : FrameArgs := { translation := some (Ex.arr1 [1, 0, 0]), rotation := some (Ex.arr1 [w, 0, 0, z]) }
noncomputable def stW (w z : ℝ) : State := (Ex.u1.step (.registerFrame (some "a") (some (.byName "world")) (argsW w z) false)).1
def quatW (w z : ℝ) : Quat := ⟨w, 0, 0, z⟩

set_option linter.unusedSimpArgs false in
theorem stW_eq (w z : ℝ) : stW w z = ⟨2,
    fun i => if i = 1 then some "a" else if i = 0 then some "world" else none,
    fun i => if i = 1 then some 0 else none,
    fun i => if i = 0 then [1] else [],
    fun i => if i = 1 then some ⟨some (.one ![1, 0, 0], .one (quatW w z)), none, false⟩ else if i = 0 then some ⟨none, none, false⟩ else none,
    [("world", 0), ("a", 1)]⟩ := by
  simp [stW, Ex.u1, State.step, State.registerFrame, State.construct, verifyRoot,
    State.register, State.resolve, State.alloc, State.setData, State.setParent, State.checkLoop,
    State.detach, State.attach, State.pathReverse, chainUp, dictGet, dictSet, State.init,
    initArrays, argsW, initTimestamps, initTranslationArg, initRotationArg, Ex.arr1, Ex.arr2,
    List.lookup, Function.update_apply, Pure.pure, bind, Except.bind, Except.pure, vecRows, quatRows,
    List.range_succ]
  refine ⟨?_, ?_, ?_, ?_⟩
  · funext i; simp only [Function.update_apply]
  · funext i; simp only [Function.update_apply]
  · funext i; simp only [Function.update_apply]
  · funext i; simp only [Function.update_apply, quatW]; split_ifs <;> simp_all
    funext k; fin_cases k <;> rfl

theorem reachW (w z : ℝ) : ∃ h, Reachable (stW w z) h :=
  ⟨_, .step (.registerFrame (some "a") (some (.byName "world")) (argsW w z) false) (.step (.registerFrame (some "world") none {} false) .init trivial) trivial⟩

theorem pathW {w z : ℝ} (h : w ^ 2 + z ^ 2 = 1) : PathAll (stW w z) 1 0 (FrameOk false (stW w z)) ∧ Route (stW w z) 1 0 [1] ∧ IsUnitQ (quatW w z) := by
  have hu : IsUnitQ (quatW w z) := by simp [IsUnitQ, nsq, quatW]; linarith
  have hp : (stW w z).parent 1 = some 0 := by rw [stW_eq]; simp
  have hc : NearestCommon (stW w z) 1 0 0 := ⟨.single hp, .refl, fun d _ hd2 => hd2⟩
  have hpt : PathTo (stW w z).parent 0 1 [1] := .up (by decide) hp .here
  refine ⟨⟨0, [1], [], hc, hpt, .here, ?_⟩, ⟨0, [1], [], hc, hpt, .here, rfl⟩, hu⟩
  intro i hi
  simp only [List.append_nil, List.mem_singleton] at hi
  subst hi
  simp only [FrameOk, Bool.false_eq_true, if_false]
  exact ⟨⟨![1, 0, 0], quatW w z⟩, ⟨false, by rw [stW_eq]; simp⟩, hu.ne_zero⟩

/-- The point (3, 4, 0) of the frame, 5 units from its origin, is off by at most 10 times the distance of the quaternions (`C100_static`). -/
example {w z w' z' : ℝ} (h : w ^ 2 + z ^ 2 = 1) (h' : w' ^ 2 + z' ^ 2 = 1) :
    ∃ out out', (stW w z).transformPoints stepSquad 1 (Ex.arr1 [3, 4, 0]) (.byObj 0) {} = .ok (returned false out none) ∧
      (stW w' z').transformPoints stepSquad 1 (Ex.arr1 [3, 4, 0]) (.byObj 0) {} = .ok (returned false out' none) ∧
      Spec.dist (vec3 out' 0 [0]) (vec3 out 0 [0]) ≤ 10 * Real.sqrt ((w' - w) ^ 2 + (z' - z) ^ 2) := by
  obtain ⟨_, hr⟩ := reachW w z
  obtain ⟨_, hr'⟩ := reachW w' z'
  obtain ⟨hp, hl, hu⟩ := pathW h
  obtain ⟨hp', _, hu'⟩ := pathW h'
  have hre : Rerecorded (stW w z) (stW w' z') := by
    refine ⟨by rw [stW_eq, stW_eq], by rw [stW_eq, stW_eq], fun i disc => ?_⟩
    rw [stW_eq, stW_eq]
    simp only [stampsOf]
    split_ifs <;> rfl
  have hsz : (stW w z).size = 2 := by rw [stW_eq]
  have hsh : (Ex.arr1 [3, 4, 0]).shape = [3] := rfl
  obtain ⟨out, out', e1, e2, _, e3⟩ := C100_static (sq := stepSquad) (τ := 0) (ε := fun _ => 0) (η := fun _ => 2 * Real.sqrt (nsq (quatW w' z' - quatW w z)))
    (v := Ex.arr1 [3, 4, 0]) (v' := Ex.arr1 [3, 4, 0]) (o := {}) (p := 0) hr hr' (by rw [hsz]; omega) (by rw [hsz]; omega) hre hp hp' hl
    (fun i hi d d' hd hd' => by
      simp only [List.mem_singleton] at hi
      subst hi
      rw [stW_eq] at hd hd'
      simp at hd hd'
      subst hd; subst hd'
      exact .static (by rw [sdist_self]) (C100_turned hu hu'))
    (by simp [AxisIs, ND.ndim, hsh]) (by simp [ND.ndim, hsh]) (by simp [hsh]) rfl (by simp [NoSwap, AxisIs, ND.ndim, hsh]) rfl
  refine ⟨out, out', e1, e2, ?_⟩
  have hv : vec3 (Ex.arr1 [3, 4, 0]) 0 [0] = ![3, 4, 0] := by simp [vec3, Ex.arr1]
  have h5 : Spec.dist (![3, 4, 0] : Vec) 0 = 5 := by
    rw [Spec.dist, Real.sqrt_eq_iff_mul_self_eq (by simp [dot]; norm_num) (by norm_num)]
    simp [dot]; norm_num
  have := e3 [0] (by simp [Valid, hsh]) (fun _ => 5) (fun i hi _ B hB => by
    simp only [List.mem_singleton] at hi
    subst hi
    rw [isTransformAt_self hr.wf hB, hv]
    simp only [Pose.act, Pose.id, rot_one, add_zero]
    exact h5.le)
  rw [sdist_self] at this
  have e : nsq (quatW w' z' - quatW w z) = (w' - w) ^ 2 + (z' - z) ^ 2 := by
    rw [nsq, Quaternion.re_sub, Quaternion.imI_sub, Quaternion.imJ_sub, Quaternion.imK_sub]
    simp [quatW]
  rw [e] at this
  simp only [List.map_cons, List.map_nil, List.sum_cons, List.sum_nil] at this
  linarith

end RBM.Props
