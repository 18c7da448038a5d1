import Verif.Lemmas.Nearby
import Verif.Props.TransformQuat
import Verif.Props.TransformLaws
import Verif.Props.Stamps

/-!
C97: a sample of a recording influences results only near the time it was taken.
-/

namespace RBM.Props

open RBM.Spec

theorem rerecorded_outStamps {s s' : State} (h : Rerecorded s s') (l : List ℕ) (ats : List ℝ) : outStamps s' l ats = outStamps s l ats := by
  have : stampsOf s' false = stampsOf s false := funext fun i => h.stamps i false
  simp only [outStamps, this]

theorem route_ok {s : State} (hw : WF s) {a b : ℕ} {l : List ℕ} (hp : PathAll s a b (FrameOk true s)) (hl : Route s a b l) :
    ∀ i ∈ l, FrameOk true s i := by
  obtain ⟨c, la, lb, _, _, _, hok, rfl⟩ := pathAll_route hw hp hl
  exact fun i hi => hok i (by simpa using hi)

section
variable {sq : SquadFn} {s s' : State} {h h' : List Event} {a b : ℕ} {l : List ℕ} {τ : ℝ}

theorem lookup_near (hsq : SquadLaw sq) (hn : SquadNear sq) (hr : Reachable s h) (hr' : Reachable s' h') (ha : a < s.size) (hb : b < s.size)
    (hre : Rerecorded s s') (hp : PathAll s a b (FrameOk true s)) (hp' : PathAll s' a b (FrameOk true s')) (hl : Route s a b l)
    (hag : ∀ i ∈ l, ∀ d d', s.data i = some d → s'.data i = some d' → AgreeNear τ d d') {A : Pose}
    (hA : GivesAt (s.lookupTransform sq a (.byObj b)) τ A) : GivesAt (s'.lookupTransform sq a (.byObj b)) τ A := by
  have ha' : a < s'.size := by rw [hre.size]; exact ha
  have hb' : b < s'.size := by rw [hre.size]; exact hb
  have h1 := transformAt_near hsq hn hr.wf hr'.wf hre hp hp' hl hag (givesAt_isTransformAt hr.wf (fun _ => hsq) ha hb hp hA)
  obtain ⟨B, hB⟩ : ∃ B, GivesAt (s'.lookupTransform sq a (.byObj b)) τ B := by
    rcases hA with e | ⟨tl, rl, ts, k, e, hk, _, _⟩
    · obtain ⟨t', r', e'⟩ := lookup_rerecorded hsq hr.wf hr'.wf ha hb hre hp hp' e
      obtain ⟨t0, r0, rfl, rfl⟩ := (C22_every_lookup sq hr' ha' hb' (hre.route hl) e').2.1 rfl
      exact ⟨⟨t0, r0⟩, .inl e'⟩
    · obtain ⟨t', r', e'⟩ := lookup_rerecorded hsq hr.wf hr'.wf ha hb hre hp hp' e
      exact C24_rows_covered sq hsq hr' ha' hb' hp' e' τ (List.mem_of_getElem? hk)
  have h2 := givesAt_isTransformAt hr'.wf (fun _ => hsq) ha' hb' hp' hB
  rw [isTransformAt_unique hr'.wf (fun _ => hsq) hp' h1 h2]
  exact hB

/-- The timestamps that a lookup returns do not depend on the recorded positions and orientations. -/
theorem C97_timestamps (hsq : SquadLaw sq) (hr : Reachable s h) (hr' : Reachable s' h') (ha : a < s.size) (hb : b < s.size)
    (hre : Rerecorded s s') (hp : PathAll s a b (FrameOk true s)) (hp' : PathAll s' a b (FrameOk true s')) {t : Arr Vec} {r : Arr Quat}
    {ts : Option (List ℝ)} (he : s.lookupTransform sq a (.byObj b) = .ok (t, r, ts)) :
    ∃ t' r', s'.lookupTransform sq a (.byObj b) = .ok (t', r', ts) :=
  lookup_rerecorded hsq hr.wf hr'.wf ha hb hre hp hp' he

/-- If all frames on the path have the same samples near `τ`, then `lookup_transform` gives the same transformation for `τ`. -/
theorem C97_lookup (hsq : SquadLaw sq) (hn : SquadNear sq) (hr : Reachable s h) (hr' : Reachable s' h') (ha : a < s.size) (hb : b < s.size)
    (hre : Rerecorded s s') (hp : PathAll s a b (FrameOk true s)) (hp' : PathAll s' a b (FrameOk true s')) (hl : Route s a b l)
    (hag : ∀ i ∈ l, ∀ d d', s.data i = some d → s'.data i = some d' → AgreeNear τ d d') (A : Pose) :
    GivesAt (s.lookupTransform sq a (.byObj b)) τ A ↔ GivesAt (s'.lookupTransform sq a (.byObj b)) τ A :=
  ⟨lookup_near hsq hn hr hr' ha hb hre hp hp' hl hag,
    lookup_near hsq hn hr' hr (by rw [hre.size]; exact ha) (by rw [hre.size]; exact hb) hre.symm hp' hp (hre.route hl)
      fun i hi d d' hd hd' => (hag i hi d' d hd' hd).symm⟩

/-- One changed position: results at the neighbouring samples and beyond them are unaffected. -/
theorem C97_position (hsq : SquadLaw sq) (hn : SquadNear sq) (hr : Reachable s h) (hr' : Reachable s' h') (ha : a < s.size) (hb : b < s.size)
    (hre : Rerecorded s s') (hp : PathAll s a b (FrameOk true s)) (hp' : PathAll s' a b (FrameOk true s')) (hl : Route s a b l)
    {f j : ℕ} {ev : List ℝ} {d d' : FrameData} (hd : s.data f = some d) (hd' : s'.data f = some d') (hrep : ReplacedPosition ev j d d')
    (hsame : ∀ i, i ≠ f → s'.data i = s.data i)
    (hτ : (∃ i x, i < j ∧ ev[i]? = some x ∧ τ ≤ x) ∨ (∃ i x, j < i ∧ ev[i]? = some x ∧ x ≤ τ)) (A : Pose) :
    GivesAt (s.lookupTransform sq a (.byObj b)) τ A ↔ GivesAt (s'.lookupTransform sq a (.byObj b)) τ A := by
  refine C97_lookup hsq hn hr hr' ha hb hre hp hp' hl (fun i hi d1 d2 h1 h2 => ?_) A
  obtain ⟨d0, hd0, hg⟩ := frameOk_true.mp (route_ok hr.wf hp hl i hi)
  rw [hd0] at h1; cases h1
  by_cases hif : i = f
  · subst hif
    rw [hd] at hd0; cases hd0
    rw [hd'] at h2; cases h2
    cases hrep with
    | mk t =>
      cases hg with
      | continuous _ _ _ hs _ =>
        refine .continuous (fun k hk => ?_) fun k _ => rfl
        have hne : j ≠ k := by
          rintro rfl
          refine not_matters hs (le_refl 1) ?_ hk
          rcases hτ with ⟨i, x, h1, h2⟩ | ⟨i, x, h1, h2⟩
          · exact .inl ⟨i, x, h1, h2⟩
          · exact .inr (.inl ⟨i, x, h1, h2⟩)
        rw [List.getElem?_set_ne hne]
  · rw [hsame i hif, hd0] at h2; cases h2
    exact agreeNear_refl hg

/-- One changed sample (position and orientation): results at and beyond the second neighbours, and at every other sample
time, are unaffected. -/
theorem C97_sample (hsq : SquadLaw sq) (hn : SquadNear sq) (hr : Reachable s h) (hr' : Reachable s' h') (ha : a < s.size) (hb : b < s.size)
    (hre : Rerecorded s s') (hp : PathAll s a b (FrameOk true s)) (hp' : PathAll s' a b (FrameOk true s')) (hl : Route s a b l)
    {f j : ℕ} {ev : List ℝ} {d d' : FrameData} (hd : s.data f = some d) (hd' : s'.data f = some d') (hrep : Replaced ev j d d')
    (hsame : ∀ i, i ≠ f → s'.data i = s.data i)
    (hτ : (∃ i x, i + 2 ≤ j ∧ ev[i]? = some x ∧ τ ≤ x) ∨ (∃ i x, j + 2 ≤ i ∧ ev[i]? = some x ∧ x ≤ τ) ∨
      (∃ i, i ≠ j ∧ ev[i]? = some τ)) (A : Pose) :
    GivesAt (s.lookupTransform sq a (.byObj b)) τ A ↔ GivesAt (s'.lookupTransform sq a (.byObj b)) τ A := by
  refine C97_lookup hsq hn hr hr' ha hb hre hp hp' hl (fun i hi d1 d2 h1 h2 => ?_) A
  obtain ⟨d0, hd0, hg⟩ := frameOk_true.mp (route_ok hr.wf hp hl i hi)
  rw [hd0] at h1; cases h1
  by_cases hif : i = f
  · subst hif
    rw [hd] at hd0; cases hd0
    rw [hd'] at h2; cases h2
    cases hrep with
    | mk t r =>
      cases hg with
      | continuous _ _ _ hs _ =>
        refine .continuous (fun k hk => ?_) fun k hk => ?_
        · have hne : j ≠ k := by
            rintro rfl
            refine not_matters hs (le_refl 1) ?_ hk
            rcases hτ with ⟨i, x, h1, h2⟩ | ⟨i, x, h1, h2⟩ | h1
            · exact .inl ⟨i, x, by omega, h2⟩
            · exact .inr (.inl ⟨i, x, by omega, h2⟩)
            · exact .inr (.inr h1)
          rw [List.getElem?_set_ne hne]
        · have hne : j ≠ k := by
            rintro rfl
            exact not_matters hs (by omega) hτ hk
          rw [List.getElem?_set_ne hne]
  · rw [hsame i hif, hd0] at h2; cases h2
    exact agreeNear_refl hg

variable {ats : List ℝ} {p q : ℕ} {ta : ℤ} {v v' : ND ℝ} {o : TArgs}

/-- Vectors: a row of `transform_vectors` depends on the vectors of the array at its own time and on the samples of the frames near it. -/
theorem C97_vectors (hsq : SquadLaw sq) (hn : SquadNear sq) (hr : Reachable s h) (hr' : Reachable s' h') (ha : a < s.size) (hb : b < s.size)
    (hre : Rerecorded s s') (hp : PathAll s a b (FrameOk true s)) (hp' : PathAll s' a b (FrameOk true s')) (hl : Route s a b l)
    (hag : ∀ i ∈ l, ∀ d d', s.data i = some d → s'.data i = some d' → AgreeNear τ d d')
    (hax : AxisIs o.axis v.ndim p) (h3 : v.shape.getD p 0 = 3) (hta : o.timeAxis = some ta)
    (hq : AxisIs ta v.ndim q) (hts : o.timestamps = some (ofList ats)) (htd : TimedArray v q ats)
    (hp0 : p ≠ 0) (hpq : p ≠ q) (h4 : p + 1 = v.ndim ∨ 4 ∉ v.shape) (hshape : v'.shape = v.shape) {i k : ℕ}
    (hi : (outStamps s l ats)[i]? = some τ) (hk : ats[k]? = some τ)
    (hv : ∀ idx, Valid v.shape idx → vec3 v' p (idx.set q k) = vec3 v p (idx.set q k)) :
    ∃ out out', s.transformVectors sq a v (.byObj b) o = .ok (returned o.returnTimestamps out (some (outStamps s l ats))) ∧
      s'.transformVectors sq a v' (.byObj b) o = .ok (returned o.returnTimestamps out' (some (outStamps s l ats))) ∧ out'.shape = out.shape ∧
      ∀ idx, Valid v.shape idx → vec3 out' p (idx.set q i) = vec3 out p (idx.set q i) := by
  have hnd : v'.ndim = v.ndim := by simp only [ND.ndim, hshape]
  obtain ⟨out, e1, e2, e3⟩ := C15_vectors_timed sq hsq hr ha hb hp hl v o hax h3 hta hq hts htd hp0 hpq h4
  obtain ⟨out', e1', e2', e3'⟩ := C15_vectors_timed sq hsq hr' (by rw [hre.size]; exact ha) (by rw [hre.size]; exact hb) hp' (hre.route hl)
    v' o (by rw [hnd]; exact hax) (by rw [hshape]; exact h3) hta (by rw [hnd]; exact hq) hts
    ⟨by rw [hnd]; exact htd.axis, by rw [hshape]; exact htd.length, htd.two, htd.sorted⟩ hp0 hpq (by rw [hnd, hshape]; exact h4)
  rw [rerecorded_outStamps hre] at e1' e2' e3'
  refine ⟨out, out', e1, e1', by rw [e2, e2', hshape], fun idx hidx => ?_⟩
  obtain ⟨A, hA, f1⟩ := e3 i k τ hi hk
  obtain ⟨B, hB, f2⟩ := e3' i k τ hi hk
  rw [f2 idx (by rw [hshape]; exact hidx), f1 idx hidx, hv idx hidx,
    isTransformAt_unique hr'.wf (fun _ => hsq) hp' hB (transformAt_near hsq hn hr.wf hr'.wf hre hp hp' hl hag hA)]

/-- Points. -/
theorem C97_points (hsq : SquadLaw sq) (hn : SquadNear sq) (hr : Reachable s h) (hr' : Reachable s' h') (ha : a < s.size) (hb : b < s.size)
    (hre : Rerecorded s s') (hp : PathAll s a b (FrameOk true s)) (hp' : PathAll s' a b (FrameOk true s')) (hl : Route s a b l)
    (hag : ∀ i ∈ l, ∀ d d', s.data i = some d → s'.data i = some d' → AgreeNear τ d d')
    (hax : AxisIs o.axis v.ndim p) (h3 : v.shape.getD p 0 = 3) (hta : o.timeAxis = some ta)
    (hq : AxisIs ta v.ndim q) (hts : o.timestamps = some (ofList ats)) (htd : TimedArray v q ats)
    (hp0 : p ≠ 0) (hpq : p ≠ q) (hlast : p + 1 = v.ndim) (hshape : v'.shape = v.shape) {i k : ℕ}
    (hi : (outStamps s l ats)[i]? = some τ) (hk : ats[k]? = some τ)
    (hv : ∀ idx, Valid v.shape idx → vec3 v' p (idx.set q k) = vec3 v p (idx.set q k)) :
    ∃ out out', s.transformPoints sq a v (.byObj b) o = .ok (returned o.returnTimestamps out (some (outStamps s l ats))) ∧
      s'.transformPoints sq a v' (.byObj b) o = .ok (returned o.returnTimestamps out' (some (outStamps s l ats))) ∧ out'.shape = out.shape ∧
      ∀ idx, Valid v.shape idx → vec3 out' p (idx.set q i) = vec3 out p (idx.set q i) := by
  have hnd : v'.ndim = v.ndim := by simp only [ND.ndim, hshape]
  obtain ⟨out, e1, e2, e3⟩ := C15_points_timed sq hsq hr ha hb hp hl v o hax h3 hta hq hts htd hp0 hpq hlast
  obtain ⟨out', e1', e2', e3'⟩ := C15_points_timed sq hsq hr' (by rw [hre.size]; exact ha) (by rw [hre.size]; exact hb) hp' (hre.route hl)
    v' o (by rw [hnd]; exact hax) (by rw [hshape]; exact h3) hta (by rw [hnd]; exact hq) hts
    ⟨by rw [hnd]; exact htd.axis, by rw [hshape]; exact htd.length, htd.two, htd.sorted⟩ hp0 hpq (by rw [hnd]; exact hlast)
  rw [rerecorded_outStamps hre] at e1' e2' e3'
  refine ⟨out, out', e1, e1', by rw [e2, e2', hshape], fun idx hidx => ?_⟩
  obtain ⟨A, hA, f1⟩ := e3 i k τ hi hk
  obtain ⟨B, hB, f2⟩ := e3' i k τ hi hk
  rw [f2 idx (by rw [hshape]; exact hidx), f1 idx hidx, hv idx hidx,
    isTransformAt_unique hr'.wf (fun _ => hsq) hp' hB (transformAt_near hsq hn hr.wf hr'.wf hre hp hp' hl hag hA)]

/-- Orientations. -/
theorem C97_quaternions (hsq : SquadLaw sq) (hn : SquadNear sq) (hr : Reachable s h) (hr' : Reachable s' h') (ha : a < s.size) (hb : b < s.size)
    (hre : Rerecorded s s') (hp : PathAll s a b (FrameOk true s)) (hp' : PathAll s' a b (FrameOk true s')) (hl : Route s a b l)
    (hag : ∀ i ∈ l, ∀ d d', s.data i = some d → s'.data i = some d' → AgreeNear τ d d')
    (hax : AxisIs o.axis v.ndim p) (h4 : v.shape.getD p 0 = 4) (hta : o.timeAxis = some ta)
    (hq : AxisIs ta v.ndim q) (hts : o.timestamps = some (ofList ats)) (htd : TimedArray v q ats) (hp0 : p ≠ 0) (hpq : p ≠ q)
    (hlast : (v.ndim = 2 ∧ ∀ i < ats.length, IsUnitQ (quat4 v 1 [i, 0])) ∨ (swapL 0 q v.shape).getLast? ≠ some 4)
    (hlast' : (v'.ndim = 2 ∧ ∀ i < ats.length, IsUnitQ (quat4 v' 1 [i, 0])) ∨ (swapL 0 q v'.shape).getLast? ≠ some 4)
    (hshape : v'.shape = v.shape) {i k : ℕ} (hi : (outStamps s l ats)[i]? = some τ) (hk : ats[k]? = some τ)
    (hv : ∀ idx, Valid v.shape idx → quat4 v' p (idx.set q k) = quat4 v p (idx.set q k)) :
    ∃ out out', s.transformQuaternions sq a v (.byObj b) o = .ok (returned o.returnTimestamps out (some (outStamps s l ats))) ∧
      s'.transformQuaternions sq a v' (.byObj b) o = .ok (returned o.returnTimestamps out' (some (outStamps s l ats))) ∧ out'.shape = out.shape ∧
      ∀ idx, Valid v.shape idx → quat4 out' p (idx.set q i) = quat4 out p (idx.set q i) := by
  have hnd : v'.ndim = v.ndim := by simp only [ND.ndim, hshape]
  obtain ⟨out, e1, e2, e3⟩ := C16_orientations_timed sq hsq hr ha hb hp hl v o hax h4 hta hq hts htd hp0 hpq hlast
  obtain ⟨out', e1', e2', e3'⟩ := C16_orientations_timed sq hsq hr' (by rw [hre.size]; exact ha) (by rw [hre.size]; exact hb) hp' (hre.route hl)
    v' o (by rw [hnd]; exact hax) (by rw [hshape]; exact h4) hta (by rw [hnd]; exact hq) hts
    ⟨by rw [hnd]; exact htd.axis, by rw [hshape]; exact htd.length, htd.two, htd.sorted⟩ hp0 hpq hlast'
  rw [rerecorded_outStamps hre] at e1' e2' e3'
  refine ⟨out, out', e1, e1', by rw [e2, e2', hshape], fun idx hidx => ?_⟩
  obtain ⟨A, hA, f1⟩ := e3 i k τ hi hk
  obtain ⟨B, hB, f2⟩ := e3' i k τ hi hk
  rw [f2 idx (by rw [hshape]; exact hidx), f1 idx hidx, hv idx hidx,
    isTransformAt_unique hr'.wf (fun _ => hsq) hp' hB (transformAt_near hsq hn hr.wf hr'.wf hre hp hp' hl hag hA)]

end

end RBM.Props
