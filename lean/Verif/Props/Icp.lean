import Verif.Lemmas.Icp
import Verif.Props.FitTransform

/-!
`iterative_closest_point` (C48).
-/

namespace RBM.Props

open RBM RBM.Spec

theorem meanGap_perm {C : Set Vec} {l m : List Vec} (h : l.Perm m) : meanGap C l = meanGap C m := by
  rw [meanGap, meanGap, (h.map _).sum_eq, h.length_eq]

theorem run_perm {C : Set Vec} {ids ids' : List (List ℕ)} (hp : ids.Perm ids') {x : List ℕ → Vec} {tol prev : ℝ} {n : ℕ} {P0 : Pose}
    {Ps : List Pose} (h : IcpRun C ids x tol prev n P0 Ps) : IcpRun C ids' x tol prev n P0 Ps := by
  have he : errors C ids x prev Ps = errors C ids' x prev Ps := by
    rw [errors, errors]
    congr 1
    apply List.map_congr_left
    intro P _
    exact meanGap_perm (hp.map _)
  refine ⟨h.head, h.count, ?_, ?_, ?_⟩
  · intro k P P' h1 h2
    obtain ⟨m, hm, S, hS, hP'⟩ := h.step k P P' h1 h2
    exact ⟨m, fun i hi => hm i (hp.mem_iff.mpr hi), S, bestMotion_perm (hp.map _) hS, fun i hi => hP' i (hp.mem_iff.mpr hi)⟩
  · rw [← he]; exact h.going
  · rw [← he]; exact h.stop

theorem mem_cloud {b : ND ℝ} {p : ℕ} {ids : List (List ℕ)} (h : Lists ids b.shape p) (w : Vec) :
    w ∈ cloud b p ↔ w ∈ ids.map (vec3 b p) := by
  simp only [cloud, Set.mem_setOf_eq, List.mem_map]
  constructor
  · rintro ⟨j, hj, rfl⟩
    exact ⟨j, (h.2 j).mpr hj, rfl⟩
  · rintro ⟨j, hj, rfl⟩
    exact ⟨j, (h.2 j).mp hj, rfl⟩

/-- `iterative_closest_point`, for point sets of any sizes and layouts, any initial motion with nonzero quaternion, any tolerance
and any number of iterations: it makes a run of the algorithm (at most `max_iterations` steps, each a least squares motion
onto nearest points), and the returned translation and unit quaternion move every point exactly to where the last step
put it. -/
theorem C48_run {ext : FitExt} (he : FitLaw ext) {nn : List Vec → Vec → ℕ} (hnn : NnLaw nn) {v1 v2 : PyArr} {dim : Option String}
    {axis : Option ℤ} {p p' : ℕ} (h : Clouds v1 v2 dim axis p p') {ids : List (List ℕ)} (hids : Lists ids v1.data.shape p) (hne : ids ≠ [])
    (hne2 : (cloud v2.data p').Nonempty) {init : Option (Vec × Quat)} (hi : (startPose init).r ≠ 0) (n : ℕ) (tol : ℝ) :
    ∃ tr rr t q Ps L, iterativeClosestPoint ext nn v1 v2 dim axis init n tol = .ok (tr, rr) ∧ TransResult v1 tr t ∧ QuatResult v1 rr q ∧
      IcpRun (cloud v2.data p') ids (vec3 v1.data p) tol 0 n (startPose init) Ps ∧ Ps.getLast? = some L ∧ IsUnitQ q ∧
      ∀ i, Valid (v1.data.shape.set p 1) i → (Pose.mk t q).act (vec3 v1.data p i) = L.act (vec3 v1.data p i) := by
  have hr := reshape_clouds h (same := false) (by simp)
  have hl1 := rowIds_lists (clouds_lt h)
  have hlt' : p' < v2.data.shape.length := h.second.1
  have hl2 := rowIds_lists hlt'
  have hperm := hl1.perm hids
  have hne' : rowIds v1.data.shape p ≠ [] := by
    intro e
    rw [e] at hperm
    exact hne hperm.symm.eq_nil
  obtain ⟨w, hw⟩ := hne2
  have hw' := (mem_cloud hl2 w).mp hw
  have hstart : icpStart ((rowIds v1.data.shape p).map (vec3 v1.data p)) init =
      (.ok ((rowIds v1.data.shape p).map fun i => (startPose init).act (vec3 v1.data p i)) : Res (List Vec)) := by
    cases init with
    | none =>
      simp only [icpStart, startPose, Pose.act, rot_one, add_zero]
    | some tr =>
      obtain ⟨t, r⟩ := tr
      simp only [icpStart, moveRows_ok (show r ≠ 0 from hi), startPose, Pose.act, List.map_map]
      rfl
  obtain ⟨Ps, hloop, hrun, hPs⟩ := icpLoop_ok he hnn (List.ne_nil_of_mem hw') (mem_cloud hl2) hne' (x := vec3 v1.data p) tol n
    (startPose init) 0 hi
  set L := Ps.getLastD (startPose init) with hL
  have hLr : L.r ≠ 0 := by
    rw [hL]
    cases e : Ps.getLast? with
    | none =>
      have : Ps = [] := List.getLast?_eq_none_iff.mp e
      subst this
      exact hi
    | some Q =>
      rw [List.getLastD_eq_getLast?, e]
      exact hPs Q (List.mem_of_getLast? e)
  have hlast : ((Ps.map fun P' => (rowIds v1.data.shape p).map fun i => P'.act (vec3 v1.data p i)).getLastD
      ((rowIds v1.data.shape p).map fun i => (startPose init).act (vec3 v1.data p i))) =
      (rowIds v1.data.shape p).map fun i => L.act (vec3 v1.data p i) := by
    rw [hL, List.getLastD_eq_getLast?, List.getLastD_eq_getLast?, List.getLast?_map]
    cases Ps.getLast? <;> rfl
  obtain ⟨t, r, hf, hb⟩ := fitTransform_best he (l1 := (rowIds v1.data.shape p).map (vec3 v1.data p))
    (l2 := (rowIds v1.data.shape p).map fun i => L.act (vec3 v1.data p i)) (by simp) (by simpa using hne')
  obtain ⟨u, hu, hur⟩ := exists_unit_rot hLr
  have hex := exact_of_best hb (P0 := ⟨L.t, u⟩) hu (by
    intro z hz
    rw [zip_map_same] at hz
    obtain ⟨i, -, rfl⟩ := List.mem_map.mp hz
    simp only [Pose.act, hur])
  refine ⟨packTrans v1.isDa t, packQuat v1.isDa r, t, r, startPose init :: Ps, L, ?_, transResult_pack v1 t, quatResult_pack v1 r,
    run_perm hperm hrun, ?_, hb.1, ?_⟩
  · simp only [iterativeClosestPoint, hr, icpRows, hstart, hloop, hlast, hf, bind, Except.bind]
    rfl
  · rw [hL, List.getLastD_eq_getLast?]
    cases e : Ps.getLast? with
    | none =>
      have : Ps = [] := List.getLast?_eq_none_iff.mp e
      subst this
      rfl
    | some Q => rw [List.getLast?_cons, e]
  · intro i hi'
    exact hex (vec3 v1.data p i, L.act (vec3 v1.data p i)) (by
      rw [zip_map_same]
      exact List.mem_map.mpr ⟨i, (hl1.2 i).mpr hi', rfl⟩)

/-- In every run the sum of the squared distances to the nearest points never increases from one iteration to a later one. -/
theorem C48_monotone {C : Set Vec} {ids : List (List ℕ)} {x : List ℕ → Vec} {tol prev : ℝ} {n : ℕ} {P0 : Pose} {Ps : List Pose}
    (h : IcpRun C ids x tol prev n P0 Ps) {j k : ℕ} (hjk : j ≤ k) {P Q : Pose} (hP : Ps[j]? = some P) (hQ : Ps[k]? = some Q) :
    matchError C (ids.map fun i => Q.act (x i)) ≤ matchError C (ids.map fun i => P.act (x i)) := by
  induction k, hjk using Nat.le_induction generalizing Q with
  | base =>
    rw [hP] at hQ
    cases hQ
    exact le_rfl
  | succ k hjk ih =>
    have hk : k < Ps.length := by
      by_contra hcon
      rw [List.getElem?_eq_none (by omega)] at hQ
      cases hQ
    exact (step_error (h.step k _ _ (List.getElem?_eq_getElem hk) hQ)).trans (ih (List.getElem?_eq_getElem hk))

/-- The returned motion matches the points at least as well as the initial one. -/
theorem C48_improves {ext : FitExt} (he : FitLaw ext) {nn : List Vec → Vec → ℕ} (hnn : NnLaw nn) {v1 v2 : PyArr} {dim : Option String}
    {axis : Option ℤ} {p p' : ℕ} (h : Clouds v1 v2 dim axis p p') {ids : List (List ℕ)} (hids : Lists ids v1.data.shape p) (hne : ids ≠ [])
    (hne2 : (cloud v2.data p').Nonempty) {init : Option (Vec × Quat)} (hi : (startPose init).r ≠ 0) (n : ℕ) (tol : ℝ) :
    ∃ tr rr t q, iterativeClosestPoint ext nn v1 v2 dim axis init n tol = .ok (tr, rr) ∧ TransResult v1 tr t ∧ QuatResult v1 rr q ∧
      IsUnitQ q ∧ matchError (cloud v2.data p') (ids.map fun i => (Pose.mk t q).act (vec3 v1.data p i)) ≤
        matchError (cloud v2.data p') (ids.map fun i => (startPose init).act (vec3 v1.data p i)) := by
  obtain ⟨tr, rr, t, q, Ps, L, e, e1, e2, hrun, hL, hq, hact⟩ := C48_run he hnn h hids hne hne2 hi n tol
  refine ⟨tr, rr, t, q, e, e1, e2, hq, ?_⟩
  have : (ids.map fun i => (Pose.mk t q).act (vec3 v1.data p i)) = ids.map fun i => L.act (vec3 v1.data p i) :=
    List.map_congr_left fun i hi => hact i ((hids.2 i).mp hi)
  rw [this]
  rw [List.getLast?_eq_getElem?] at hL
  have h0 : Ps[0]? = some (startPose init) := by rw [← List.head?_eq_getElem?]; exact hrun.head
  exact C48_monotone hrun (Nat.zero_le _) h0 hL

theorem gap_zero {b : ND ℝ} {p : ℕ} (hp : p < b.shape.length) (hne : (cloud b p).Nonempty) {v : Vec} (h : gap (cloud b p) v ≤ 0) :
    v ∈ cloud b p := by
  have hl := rowIds_lists hp
  obtain ⟨w, hw⟩ := hne
  have hne : (rowIds b.shape p).map (vec3 b p) ≠ [] := List.ne_nil_of_mem ((mem_cloud hl w).mp hw)
  obtain ⟨nn, hnn⟩ := exists_nnLaw
  obtain ⟨u, hu, hn⟩ := hnn _ v hne
  have hu' := (mem_cloud hl u).mpr (List.mem_of_getElem? hu)
  have := gap_eq hu' fun z hz => hn z ((mem_cloud hl z).mp hz)
  rw [this] at h
  rw [sqDist_eq_zero h]
  exact hu'

/-- If the initial motion already puts every point on a point of the second set, so does the returned one. -/
theorem C48_exact {ext : FitExt} (he : FitLaw ext) {nn : List Vec → Vec → ℕ} (hnn : NnLaw nn) {v1 v2 : PyArr} {dim : Option String}
    {axis : Option ℤ} {p p' : ℕ} (h : Clouds v1 v2 dim axis p p') {i0 : List ℕ} (hne : Valid (v1.data.shape.set p 1) i0)
    {init : Option (Vec × Quat)} (hi : (startPose init).r ≠ 0) (n : ℕ) (tol : ℝ)
    (hex : ∀ i, Valid (v1.data.shape.set p 1) i → (startPose init).act (vec3 v1.data p i) ∈ cloud v2.data p') :
    ∃ tr rr t q, iterativeClosestPoint ext nn v1 v2 dim axis init n tol = .ok (tr, rr) ∧ TransResult v1 tr t ∧ QuatResult v1 rr q ∧
      IsUnitQ q ∧ ∀ i, Valid (v1.data.shape.set p 1) i → (Pose.mk t q).act (vec3 v1.data p i) ∈ cloud v2.data p' := by
  have hids := rowIds_lists (clouds_lt h)
  have hne2 : (cloud v2.data p').Nonempty := ⟨_, hex i0 hne⟩
  obtain ⟨tr, rr, t, q, e, e1, e2, hq, hle⟩ := C48_improves he hnn h hids (List.ne_nil_of_mem ((hids.2 i0).mpr hne)) hne2 hi n tol
  refine ⟨tr, rr, t, q, e, e1, e2, hq, fun i hi' => ?_⟩
  have h0 : matchError (cloud v2.data p') ((rowIds v1.data.shape p).map fun i => (startPose init).act (vec3 v1.data p i)) ≤ 0 := by
    rw [matchError, List.map_map]
    refine (sum_le_sum_map _ (g := fun _ => 0) ?_).trans (by simp)
    intro j hj
    refine (gap_le (hex j ((hids.2 j).mp hj))).trans ?_
    simp [sqDist, dot]
  have hlt' : p' < v2.data.shape.length := h.second.1
  apply gap_zero hlt' hne2
  refine le_trans (List.single_le_sum ?_ _ ?_) (hle.trans h0)
  · intro y hy
    obtain ⟨z, -, rfl⟩ := List.mem_map.mp hy
    apply Real.sInf_nonneg
    rintro _ ⟨u, -, rfl⟩
    exact sqDist_nonneg _ _
  · rw [List.map_map]
    exact List.mem_map.mpr ⟨i, (hids.2 i).mpr hi', rfl⟩

/-- An initial quaternion of zero is an error. -/
theorem C48_zero_quaternion {ext : FitExt} {nn : List Vec → Vec → ℕ} {v1 v2 : PyArr} {dim : Option String}
    {axis : Option ℤ} {p p' : ℕ} (h : Clouds v1 v2 dim axis p p') (t : Vec) (n : ℕ) (tol : ℝ) :
    iterativeClosestPoint ext nn v1 v2 dim axis (some (t, 0)) n tol = .error .zeroDivisionError := by
  have hr := reshape_clouds h (same := false) (by simp)
  simp only [iterativeClosestPoint, hr, icpRows, icpStart, moveRows, rotateVectors, if_true, bind, Except.bind]

/-- No points to move: an error, however many iterations are allowed. -/
theorem C48_no_points {ext : FitExt} {nn : List Vec → Vec → ℕ} {v1 v2 : PyArr} {dim : Option String}
    {axis : Option ℤ} {p p' : ℕ} (h : Clouds v1 v2 dim axis p p') (hids : Lists [] v1.data.shape p)
    {init : Option (Vec × Quat)} (hi : (startPose init).r ≠ 0) (n : ℕ) (tol : ℝ) :
    iterativeClosestPoint ext nn v1 v2 dim axis init n tol = .error .linAlgError := by
  have hr := reshape_clouds h (same := false) (by simp)
  have e : rowIds v1.data.shape p = [] := ((rowIds_lists (clouds_lt h)).perm hids).eq_nil
  rw [e] at hr
  have hstart : icpStart [] init = (.ok [] : Res (List Vec)) := by
    cases init with
    | none => rfl
    | some tr => obtain ⟨t, r⟩ := tr; simp only [icpStart, moveRows_ok (show r ≠ 0 from hi), List.map_nil]
  simp only [iterativeClosestPoint, hr, icpRows, List.map_nil, hstart, bind, Except.bind]
  cases n with
  | zero => simp [icpLoop, fitTransform]
  | succ n => simp [icpLoop, icpStep, gather, fitTransform, bind, Except.bind]

/-- No points to match: an error, unless there are no iterations. -/
theorem C48_no_targets {ext : FitExt} {nn : List Vec → Vec → ℕ} {v1 v2 : PyArr} {dim : Option String}
    {axis : Option ℤ} {p p' : ℕ} (h : Clouds v1 v2 dim axis p p') {i0 : List ℕ} (hne : Valid (v1.data.shape.set p 1) i0)
    (hids : Lists [] v2.data.shape p') {init : Option (Vec × Quat)} (hi : (startPose init).r ≠ 0) (n : ℕ) (tol : ℝ) :
    iterativeClosestPoint ext nn v1 v2 dim axis init (n + 1) tol = .error .indexError := by
  have hr := reshape_clouds h (same := false) (by simp)
  have hlt' : p' < v2.data.shape.length := h.second.1
  have e : rowIds v2.data.shape p' = [] := ((rowIds_lists hlt').perm hids).eq_nil
  have hl1 := rowIds_lists (clouds_lt h)
  obtain ⟨i, k, hk⟩ : ∃ i k, rowIds v1.data.shape p = i :: k := by
    have := (hl1.2 i0).mpr hne
    cases hc : rowIds v1.data.shape p with
    | nil => rw [hc] at this; cases this
    | cons i k => exact ⟨i, k, rfl⟩
  rw [e, hk] at hr
  have hstart : ∃ a l, icpStart ((i :: k).map (vec3 v1.data p)) init = (.ok (a :: l) : Res (List Vec)) := by
    cases init with
    | none => exact ⟨_, _, rfl⟩
    | some tr => obtain ⟨t, r⟩ := tr; simp only [icpStart, moveRows_ok (show r ≠ 0 from hi)]; exact ⟨_, _, rfl⟩
  obtain ⟨a, l, hs⟩ := hstart
  rw [List.map_cons] at hs
  simp only [iterativeClosestPoint, hr, icpRows, hs, bind, Except.bind, icpLoop, icpStep, List.map_nil, List.map_cons, gather,
    List.getElem?_nil]

/-- The hypotheses are met: three points, two points to match, an initial shift. -/
example : ∃ ext nn, FitLaw ext ∧ NnLaw nn ∧ ∃ tr rr t q,
    iterativeClosestPoint ext nn (.nd (fitArr [![3, 0, 0], ![0, 2, 0], ![0, 0, 1]])) (.nd (fitArr [![1, 1, 0], ![0, -2, 0]])) none none
      (some (![1, 2, 3], ⟨1, 1, 0, 0⟩)) 20 (1 / 1000) = .ok (tr, rr) ∧ TransResult (.nd (fitArr [![3, 0, 0], ![0, 2, 0], ![0, 0, 1]])) tr t ∧
      QuatResult (.nd (fitArr [![3, 0, 0], ![0, 2, 0], ![0, 0, 1]])) rr q ∧ IsUnitQ q := by
  obtain ⟨ext, he⟩ := exists_fitLaw
  obtain ⟨nn, hn⟩ := exists_nnLaw
  obtain ⟨tr, rr, t, q, e, e1, e2, hq, -⟩ := C48_improves he hn (fitArr_clouds [![3, 0, 0], ![0, 2, 0], ![0, 0, 1]] [![1, 1, 0], ![0, -2, 0]])
    (rowPos_lists 3) (by simp [rowPos]) ⟨vec3 (fitArr [![1, 1, 0], ![0, -2, 0]]) 1 [0, 0], [0, 0], by simp [Valid, fitArr, PyArr.data], rfl⟩
    (init := some (![1, 2, 3], ⟨1, 1, 0, 0⟩)) (by
      intro hh
      have := congrArg (·.re) hh
      simp [startPose] at this) 20 (1 / 1000)
  exact ⟨ext, nn, he, hn, tr, rr, t, q, e, e1, e2, hq⟩

/-- `C48_exact`: two of three target points, shifted; the initial estimate is the inverse shift. -/
example : ∃ ext nn, FitLaw ext ∧ NnLaw nn ∧ ∃ tr rr t q,
    iterativeClosestPoint ext nn (.nd (fitArr [![1, 0, 0], ![0, 2, 0]])) (.nd (fitArr [![2, 0, 0], ![5, 5, 5], ![1, 2, 0]])) none none
      (some (![1, 0, 0], 1)) 20 (1 / 1000) = .ok (tr, rr) ∧ TransResult (.nd (fitArr [![1, 0, 0], ![0, 2, 0]])) tr t ∧
      QuatResult (.nd (fitArr [![1, 0, 0], ![0, 2, 0]])) rr q ∧
      (Pose.mk t q).act ![1, 0, 0] ∈ cloud (fitArr [![2, 0, 0], ![5, 5, 5], ![1, 2, 0]]) 1 := by
  obtain ⟨ext, he⟩ := exists_fitLaw
  obtain ⟨nn, hn⟩ := exists_nnLaw
  have hv : ∀ k, k < 2 → Valid ((PyArr.nd (fitArr [![1, 0, 0], ![0, 2, 0]])).data.shape.set 1 1) [k, 0] := by
    intro k hk
    simp [Valid, fitArr, PyArr.data, hk]
  have hw : ∀ k, k < 3 → Valid ((fitArr [![2, 0, 0], ![5, 5, 5], ![1, 2, 0]]).shape.set 1 1) [k, 0] := by
    intro k hk
    simp [Valid, fitArr, hk]
  obtain ⟨tr, rr, t, q, e, e1, e2, -, e3⟩ := C48_exact he hn (fitArr_clouds [![1, 0, 0], ![0, 2, 0]] [![2, 0, 0], ![5, 5, 5], ![1, 2, 0]])
    (hv 0 (by decide)) (init := some (![1, 0, 0], 1)) one_ne_zero 20 (1 / 1000) (by
      intro i hi
      obtain ⟨k, hk, rfl⟩ := List.mem_map.mp (((rowPos_lists 2).2 i).mpr hi)
      rw [show (PyArr.nd (fitArr [![1, 0, 0], ![0, 2, 0]])).data = fitArr [![1, 0, 0], ![0, 2, 0]] from rfl, fitArr_row]
      have : k < 2 := List.mem_range.mp hk
      interval_cases k
      · refine ⟨[0, 0], hw 0 (by decide), ?_⟩
        rw [show (PyArr.nd (fitArr [![2, 0, 0], ![5, 5, 5], ![1, 2, 0]])).data = fitArr [![2, 0, 0], ![5, 5, 5], ![1, 2, 0]] from rfl, fitArr_row]
        simp only [startPose, Pose.act, rot_one]
        ext i; fin_cases i <;> simp <;> norm_num
      · refine ⟨[2, 0], hw 2 (by decide), ?_⟩
        rw [show (PyArr.nd (fitArr [![2, 0, 0], ![5, 5, 5], ![1, 2, 0]])).data = fitArr [![2, 0, 0], ![5, 5, 5], ![1, 2, 0]] from rfl, fitArr_row]
        simp only [startPose, Pose.act, rot_one]
        ext i; fin_cases i <;> simp)
  have := e3 [0, 0] (hv 0 (by decide))
  rw [show (PyArr.nd (fitArr [![1, 0, 0], ![0, 2, 0]])).data = fitArr [![1, 0, 0], ![0, 2, 0]] from rfl, fitArr_row] at this
  exact ⟨ext, nn, he, hn, tr, rr, t, q, e, e1, e2, this⟩

/-- The three error cases on arrays of points. -/
example (ext : FitExt) (nn : List Vec → Vec → ℕ) :
    iterativeClosestPoint ext nn (.nd (fitArr [![1, 0, 0]])) (.nd (fitArr [![2, 0, 0]])) none none (some (0, 0)) 20 (1 / 1000) = .error .zeroDivisionError ∧
    iterativeClosestPoint ext nn (.nd (fitArr [])) (.nd (fitArr [![2, 0, 0]])) none none none 20 (1 / 1000) = .error .linAlgError ∧
    iterativeClosestPoint ext nn (.nd (fitArr [![1, 0, 0]])) (.nd (fitArr [])) none none none 20 (1 / 1000) = .error .indexError :=
  ⟨C48_zero_quaternion (fitArr_clouds _ _) _ _ _, C48_no_points (fitArr_clouds [] _) (rowPos_lists 0) (init := none) one_ne_zero _ _,
    C48_no_targets (fitArr_clouds _ []) (i0 := [0, 0]) (by simp [Valid, fitArr, PyArr.data]) (rowPos_lists 0) (init := none) one_ne_zero _ _⟩

end RBM.Props
