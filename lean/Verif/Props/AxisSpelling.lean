import Verif.Lemmas.AxisTransform
import Verif.Model.Velocity
import Verif.Model.Qinterp
import Verif.Model.Coords
import Verif.Model.Utils
import Verif.Model.Estimators
import Verif.Props.Axes
import Verif.Props.MoreExamples

/-!
C88: an axis may be counted from the front or from the back.
-/

namespace RBM.Props

open RBM.Spec

theorem sameTime {n : ℕ} {i j : Option ℤ} (h : SameAxisOpt n i j) : SameTime n i j := by
  rcases h with ⟨rfl, rfl⟩ | ⟨k, l, rfl, rfl, h⟩
  · trivial
  · exact h.norm

section
variable {sq : SquadFn} {ext : Ext} {s : State} {a : ℕ} {arr : ND ℝ} {dst : FrameRef} {o : TArgs} {i : ℤ} {tb : Option ℤ}

/-- `transform_vectors` with the spatial axis and the time axis written in either way. -/
theorem C88_vectors (h : SameAxis arr.ndim o.axis i) (ht : SameAxisOpt arr.ndim o.timeAxis tb) {out : ND ℝ} {ts : Option (List ℝ)}
    (hk : AxesKept arr o.timestamps ts) (hr : s.transformVectors sq a arr dst { o with returnTimestamps := true } = .ok (.withTs out ts)) (b : Bool) :
    s.transformVectors sq a arr dst { o with axis := i, timeAxis := tb, returnTimestamps := b } = .ok (returned b out ts) := by
  rw [transformVectors_same h.norm (sameTime ht) hk hr b]
  cases b <;> rfl

/-- `transform_points`, arrays with two axes or more (one point: `C15_points_static`). -/
theorem C88_points (h2 : 2 ≤ arr.ndim) (h : SameAxis arr.ndim o.axis i) (ht : SameAxisOpt arr.ndim o.timeAxis tb) {out : ND ℝ} {ts : Option (List ℝ)}
    (hk : AxesKept arr o.timestamps ts) (hr : s.transformPoints sq a arr dst { o with returnTimestamps := true } = .ok (.withTs out ts)) (b : Bool) :
    s.transformPoints sq a arr dst { o with axis := i, timeAxis := tb, returnTimestamps := b } = .ok (returned b out ts) := by
  rw [transformPoints_same h2 h.norm (sameTime ht) hk hr b]
  cases b <;> rfl

/-- `transform_quaternions`, arrays with two axes or more. -/
theorem C88_orientations (h2 : 2 ≤ arr.ndim) (h : SameAxis arr.ndim o.axis i) (ht : SameAxisOpt arr.ndim o.timeAxis tb) {out : ND ℝ} {ts : Option (List ℝ)}
    (hk : AxesKept arr o.timestamps ts) (hr : s.transformQuaternions sq a arr dst { o with returnTimestamps := true } = .ok (.withTs out ts)) (b : Bool) :
    s.transformQuaternions sq a arr dst { o with axis := i, timeAxis := tb, returnTimestamps := b } = .ok (returned b out ts) := by
  rw [transformQuaternions_same h2 h.norm (sameTime ht) hk hr b]
  cases b <;> rfl

/-- `transform_angular_velocity` and `transform_linear_velocity` of a time series: the same outcome, errors included. -/
theorem C88_velocities (h2 : arr.ndim = 2) (hts : o.timestamps ≠ none) (h : SameAxis arr.ndim o.axis i) (ht : SameAxisOpt arr.ndim o.timeAxis tb)
    (what : String) (mf rf : Option FrameRef) (outlier cutoff : Option ℝ) :
    s.transformAngularVelocity ext a arr dst what { o with axis := i, timeAxis := tb } cutoff = s.transformAngularVelocity ext a arr dst what o cutoff ∧
    s.transformLinearVelocity ext a arr dst what mf rf { o with axis := i, timeAxis := tb } outlier cutoff =
      s.transformLinearVelocity ext a arr dst what mf rf o outlier cutoff := by
  have key : ∀ dst (b : Bool), s.transformVectors ext.squad a arr dst { o with axis := i, timeAxis := tb, returnTimestamps := b } =
      s.transformVectors ext.squad a arr dst { o with returnTimestamps := b } := fun dst b =>
    transformVectors_eq (o := { o with returnTimestamps := b }) h2 hts h.norm (sameTime ht)
  have key' : ∀ dst, s.transformVectors ext.squad a arr dst { o with axis := i, timeAxis := tb } = s.transformVectors ext.squad a arr dst o :=
    fun dst => key dst o.returnTimestamps
  have kA : ∀ dst ang angTs, s.addAngular ext a arr dst { o with axis := i, timeAxis := tb } ang angTs = s.addAngular ext a arr dst o ang angTs := by
    intro dst ang angTs
    simp only [State.addAngular, key]
  have kL : ∀ dst lin ang l1 l2 tr l3, s.addLinear ext a arr dst { o with axis := i, timeAxis := tb } lin ang l1 l2 tr l3 =
      s.addLinear ext a arr dst o lin ang l1 l2 tr l3 := by
    intro dst lin ang l1 l2 tr l3
    simp only [State.addLinear, key]
  constructor
  · simp only [State.transformAngularVelocity, kA, key']
  · simp only [State.transformLinearVelocity, kL, key']

/-- The same for velocities of any shape, with timestamps or along a static path without timestamps, whenever the vectors can be transformed at all. -/
theorem C88_velocities_any {b : ℕ} (h : SameAxis arr.ndim o.axis i) (ht : SameAxisOpt arr.ndim o.timeAxis tb) {out : ND ℝ} {ts : Option (List ℝ)}
    (hk : AxesKept arr o.timestamps ts) (hv : s.transformVectors ext.squad a arr (.byObj b) { o with returnTimestamps := true } = .ok (.withTs out ts))
    (what : String) (mf rf : Option FrameRef) (outlier cutoff : Option ℝ) :
    s.transformAngularVelocity ext a arr (.byObj b) what { o with axis := i, timeAxis := tb } cutoff =
      s.transformAngularVelocity ext a arr (.byObj b) what o cutoff ∧
    s.transformLinearVelocity ext a arr (.byObj b) what mf rf { o with axis := i, timeAxis := tb } outlier cutoff =
      s.transformLinearVelocity ext a arr (.byObj b) what mf rf o outlier cutoff := by
  have refl : ∀ {n : ℕ} {i j : ℤ}, SameAxis n i j → SameAxis n i i := fun h => by obtain ⟨p, h1, _⟩ := h; exact ⟨p, h1, h1⟩
  have reflO : SameAxisOpt arr.ndim o.timeAxis o.timeAxis := by
    rcases ht with ⟨e1, e2⟩ | ⟨k, l, e1, e2, e3⟩
    · exact .inl ⟨e1, e1⟩
    · exact .inr ⟨k, k, e1, e1, refl e3⟩
  have key : ∀ rt : Bool, s.transformVectors ext.squad a arr (.byObj b) { o with axis := i, timeAxis := tb, returnTimestamps := rt } =
      s.transformVectors ext.squad a arr (.byObj b) { o with returnTimestamps := rt } := fun rt =>
    (C88_vectors h ht hk hv rt).trans (C88_vectors (refl h) reflO hk hv rt).symm
  have key' : s.transformVectors ext.squad a arr (.byObj b) { o with axis := i, timeAxis := tb } = s.transformVectors ext.squad a arr (.byObj b) o :=
    key o.returnTimestamps
  have kA : ∀ ang angTs, s.addAngular ext a arr (.byObj b) { o with axis := i, timeAxis := tb } ang angTs =
      s.addAngular ext a arr (.byObj b) o ang angTs := by
    intro ang angTs
    simp only [State.addAngular, key]
  have kL : ∀ lin ang l1 l2 tr l3, s.addLinear ext a arr (.byObj b) { o with axis := i, timeAxis := tb } lin ang l1 l2 tr l3 =
      s.addLinear ext a arr (.byObj b) o lin ang l1 l2 tr l3 := by
    intro lin ang l1 l2 tr l3
    simp only [State.addLinear, key]
  have hr : s.resolve (.byObj b) = .ok b := rfl
  constructor
  · simp only [State.transformAngularVelocity, kA, key']
  · simp only [State.transformLinearVelocity, kL, key', hr, bind, Except.bind]

end

/-- `rotate_vectors`, for quaternions of quaternion dtype and as float arrays. -/
theorem C88_rotate_vectors {v : ND ℝ} {i j : ℤ} (h : SameAxis v.ndim i j) (b : Bool) :
    (∀ q : ND Quat, rotateVectorsQ q v i b = rotateVectorsQ q v j b) ∧
    ∀ (q : ND ℝ) (k l : ℤ), SameAxis q.ndim k l → rotateVectorsF q v i k b = rotateVectorsF q v j l b :=
  ⟨fun _ => rotateVectorsQ_same h.norm b, fun _ _ _ h' => rotateVectorsF_same h.norm h'.norm b⟩

theorem asFloat_ndim {x : ND ℝ} {q : ND Quat} (h : asQuatArray x = .ok q) : (asFloatArray q).ndim = x.ndim := by
  rw [← asQuatArray_ndim h]
  simp [asFloatArray, ND.ndim]

/-- `qinv`. -/
theorem C88_qinv {q : ND ℝ} {i j : ℤ} (h : SameAxis q.ndim i j) : qinv (.float q) i = qinv (.float q) j := by
  simp only [qinv, bind]
  rw [swapaxesZ_same h.norm rfl]
  refine bind_same fun q1 h1 => bind_same fun q2 h2 => bind_same fun q3 h3 => ?_
  have hn : (asFloatArray q3).ndim = q.ndim := by
    rw [← swapaxesZ_ndim h1, ← asFloat_ndim h2]
    simp only [npQInv] at h3
    split_ifs at h3
    cases h3
    rfl
  rw [swapaxesZ_same (i' := -1) (j' := j) rfl (by rw [hn]; exact h.norm)]

theorem toQuats_same {n : ℕ} {i j : ℤ} (h : SameAxis n i j) {qs : List (ND ℝ)} (hq : ∀ q ∈ qs, q.ndim = n) :
    toQuats i (qs.map .float) = toQuats j (qs.map .float) ∧ ∀ l, toQuats i (qs.map .float) = .ok l → ∀ x ∈ l, x.ndim + 1 = n := by
  induction qs with
  | nil => exact ⟨rfl, fun l hl => by cases hl; simp⟩
  | cons q qs ih =>
    obtain ⟨ih1, ih2⟩ := ih fun x hx => hq x (by simp [hx])
    have hn := hq q (by simp)
    constructor
    · simp only [List.map_cons, toQuats, bind]
      rw [swapaxesZ_same (i' := j) (j' := -1) (by rw [hn]; exact h.norm) rfl, ih1]
    · intro l hl
      simp only [List.map_cons, toQuats, bind] at hl
      obtain ⟨q1, h1, hl⟩ := bind_ok' hl
      obtain ⟨q2, h2, hl⟩ := bind_ok' hl
      obtain ⟨r, h3, hl⟩ := bind_ok' hl
      cases hl
      intro x hx
      rcases List.mem_cons.mp hx with rfl | hx
      · rw [asQuatArray_ndim h2, swapaxesZ_ndim h1, hn]
      · exact ih2 r h3 x hx

theorem qreduce_ndim {n : ℕ} {l : List (ND Quat)} (hl : ∀ x ∈ l, x.ndim + 1 = n) {q : ND Quat} (h : qreduce l = .ok q) : q.ndim + 1 = n := by
  cases l with
  | nil => cases h
  | cons x l =>
    simp only [qreduce] at h
    have key : ∀ (l : List (ND Quat)) (acc : ND Quat), (∀ x ∈ l, x.ndim + 1 = n) → acc.ndim + 1 = n →
        l.foldlM (fun acc x => ND.bop (fun a b => a * b) acc x) acc = .ok q → q.ndim + 1 = n := by
      intro l
      induction l with
      | nil => intro acc _ ha h; cases h; exact ha
      | cons y l ih =>
        intro acc hl ha h
        rw [List.foldlM_cons] at h
        obtain ⟨acc', h1, h⟩ := bind_ok' h
        refine ih acc' (fun x hx => hl x (by simp [hx])) ?_ h
        have := hl y (by simp)
        rw [bop_ndim h1]
        omega
    exact key l (x.map fun x => 1 * x) (fun y hy => hl y (by simp [hy])) (hl x (by simp)) h

/-- `qmul` of float arrays with equally many axes. -/
theorem C88_qmul {n : ℕ} {i j : ℤ} (h : SameAxis n i j) {qs : List (ND ℝ)} (hq : ∀ q ∈ qs, q.ndim = n) : qmul (qs.map .float) i = qmul (qs.map .float) j := by
  obtain ⟨h1, h2⟩ := toQuats_same h hq
  simp only [qmul, bind]
  rw [h1] at h2 ⊢
  by_cases hl : (qs.map QArr.float).length < 2
  · rw [if_pos hl, if_pos hl]
  rw [if_neg hl, if_neg hl]
  by_cases hf : (qs.map QArr.float).all (fun x => !x.isQuat) = true
  · rw [if_pos hf, if_pos hf]
    refine bind_same fun l e => bind_same fun q e' => ?_
    have hn := qreduce_ndim (h2 l e) e'
    rw [swapaxesZ_same (i' := -1) (j' := j) rfl (by
      have : (asFloatArray q).ndim = n := by rw [← hn]; simp [asFloatArray, ND.ndim]
      rw [this]; exact h.norm)]
  · rw [if_neg hf, if_neg hf]

/-- `qinterp`: here even numbers beyond the range of axes are accepted, only the remainder matters. -/
theorem C88_qinterp (sq : SquadFn) (tin tout : List ℝ) {i j : ℤ} {k l : ℤ} :
    (∀ q : ND ℝ, i % q.ndim = j % q.ndim → k % q.ndim = l % q.ndim → qinterp sq (.float q) tin tout i k = qinterp sq (.float q) tin tout j l) ∧
    ∀ q : ND Quat, i % q.ndim = j % q.ndim → qinterp sq (.quat q) tin tout i k = qinterp sq (.quat q) tin tout j l := by
  have hp : ∀ {n : ℕ} {a b : ℤ}, a % n = b % n → pyModAxis a n = pyModAxis b n := by
    intro n a b h
    simp only [pyModAxis, h]
  constructor
  · intro q h1 h2
    simp only [qinterp, hp h1, hp h2]
  · intro q h1
    simp only [qinterp, hp h1]

section
variable {arr : ND ℝ} {i j : ℤ}

theorem take_same (h : SameAxis arr.ndim i j) (k : ℕ) : arr.take k i = arr.take k j := by
  simp only [ND.take, h.norm]

theorem take_ndim {k : ℕ} {c : ND ℝ} (h : arr.take k i = .ok c) : c.ndim + 1 = arr.ndim := by
  simp only [ND.take] at h
  split at h
  · cases h
  · rename_i p e
    have hp := normAxis_lt e
    split_ifs at h
    cases h
    simp only [ND.ndim] at *
    rw [List.length_eraseIdx_of_lt hp]
    omega

theorem norm_same (h : SameAxis arr.ndim i j) : arr.norm i = arr.norm j := by
  simp only [ND.norm, h.norm]

theorem norm_ndim {c : ND ℝ} (h : arr.norm i = .ok c) : c.ndim + 1 = arr.ndim := by
  simp only [ND.norm] at h
  split at h
  · cases h
  · rename_i p e
    have hp := normAxis_lt e
    cases h
    simp only [ND.ndim] at *
    rw [List.length_eraseIdx_of_lt hp]
    omega

theorem stack_same (h : SameAxis arr.ndim i j) {x : ND ℝ} (hx : x.ndim + 1 = arr.ndim) (l : List (ND ℝ)) : x.stack l i = x.stack l j := by
  simp only [ND.stack, hx, h.norm]

theorem checkAxis_same (h : SameAxis arr.ndim i j) (n : ℕ) : checkAxis arr i n = checkAxis arr j n := by
  simp only [checkAxis]
  rw [pyShape_same h.norm]

/-- The coordinate conversions. -/
theorem C88_coordinates (h : SameAxis arr.ndim i j) : cartesianToPolar arr i = cartesianToPolar arr j ∧ polarToCartesian arr i = polarToCartesian arr j ∧
    cartesianToSpherical arr i = cartesianToSpherical arr j ∧ sphericalToCartesian arr i = sphericalToCartesian arr j := by
  refine ⟨?_, ?_, ?_, ?_⟩
  · simp only [cartesianToPolar, bind]
    rw [checkAxis_same h, norm_same h, take_same h, take_same h]
    refine bind_same fun _ _ => bind_same fun r hr => bind_same fun y hy => bind_same fun x hx => bind_same fun phi hp => ?_
    exact stack_same h (norm_ndim hr) _
  · simp only [polarToCartesian, bind]
    rw [checkAxis_same h, take_same h, take_same h]
    refine bind_same fun _ _ => bind_same fun r hr => bind_same fun phi hp => bind_same fun x hx => bind_same fun y hy => ?_
    refine stack_same h ?_ _
    have e1 := take_ndim hr
    have e2 := take_ndim hp
    have e3 := bop_ndim hx
    have : (phi.map Real.cos).ndim = phi.ndim := rfl
    omega
  · simp only [cartesianToSpherical, bind]
    rw [checkAxis_same h, norm_same h, take_same h, take_same h, take_same h]
    refine bind_same fun _ _ => bind_same fun r hr => bind_same fun z hz => bind_same fun zr hzr => ?_
    split_ifs
    · rfl
    · refine bind_same fun y hy => bind_same fun x hx => bind_same fun phi hp => ?_
      exact stack_same h (norm_ndim hr) _
  · simp only [sphericalToCartesian, bind]
    rw [checkAxis_same h, take_same h, take_same h, take_same h]
    refine bind_same fun _ _ => bind_same fun r hr => bind_same fun th ht => bind_same fun phi hp => bind_same fun s hs => bind_same fun x hx =>
      bind_same fun y hy => bind_same fun z hz => ?_
    refine stack_same h ?_ _
    have e1 := take_ndim hr
    have e2 := take_ndim hp
    have e4 := take_ndim ht
    have e3 := bop_ndim hx
    have e5 := bop_ndim hs
    have : (phi.map Real.cos).ndim = phi.ndim := rfl
    have : (th.map Real.sin).ndim = th.ndim := rfl
    omega

end

/-! ### Estimates -/

theorem mod_same {n : ℕ} {i j : ℤ} (h : SameAxis n i j) : i % n = j % n := by
  obtain ⟨p, ⟨_, h1⟩, ⟨_, h2⟩⟩ := h
  rcases h1 with rfl | rfl <;> rcases h2 with rfl | rfl <;> simp

theorem default_same {n : ℕ} {i j : ℤ} (h : SameAxis n i j) (hi : i ≠ 0) (hj : j ≠ 0) (d : ℤ) : SameAxis n (orDefault (some i) d) (orDefault (some j) d) := by
  simpa [orDefault, hi, hj] using h

theorem zero_same {n : ℕ} {i j : ℤ} (h : SameAxis n i j) : SameAxis n (orDefault (some i) 0) (orDefault (some j) 0) := by
  have e : ∀ i : ℤ, orDefault (some i) 0 = i := by
    intro i
    simp only [orDefault]
    split_ifs with h
    · exact h.symm
    · rfl
  rw [e, e]
  exact h

theorem estimateLinear_same (ext : Ext) {arr : ND ℝ} (ts : List ℝ) {i j : ℤ} (h : SameAxis arr.ndim i j) (outlier cutoff : Option ℝ) :
    estimateLinear ext arr ts i outlier cutoff = estimateLinear ext arr ts j outlier cutoff := by
  simp only [estimateLinear, npGradient, h.norm]

theorem estimateAngular_same (ext : Ext) {arr : ND ℝ} (ts : List ℝ) {i j k l : ℤ} (h : SameAxis arr.ndim i j) (h' : SameAxis arr.ndim k l) (mode : String)
    (outlier cutoff : Option ℝ) : estimateAngular ext arr ts i k mode outlier cutoff = estimateAngular ext arr ts j l mode outlier cutoff := by
  simp only [estimateAngular, angularAxes, mod_same h, mod_same h']

/-- `estimate_linear_velocity` and `estimate_angular_velocity` of plain arrays. `axis=0` counts as missing and is excluded; `time_axis=0` is the default. -/
theorem C88_estimates (ext : Ext) (x : XrOps) {arr : ND ℝ} {i j k l : ℤ} (h : SameAxis arr.ndim i j) (hi : i ≠ 0) (hj : j ≠ 0) (h' : SameAxis arr.ndim k l)
    (ts : ND ℝ) (mode : String) (outlier cutoff : Option ℝ) :
    estimateLinearVelocity ext x (.nd arr) none (some i) (.arr ts) (some k) outlier cutoff =
      estimateLinearVelocity ext x (.nd arr) none (some j) (.arr ts) (some l) outlier cutoff ∧
    estimateAngularVelocity ext x (.nd arr) none (some i) (.arr ts) (some k) mode outlier cutoff =
      estimateAngularVelocity ext x (.nd arr) none (some j) (.arr ts) (some l) mode outlier cutoff := by
  have e1 := default_same h hi hj (-1)
  have e2 := zero_same h'
  generalize ha : orDefault (some i) (-1) = a at e1
  generalize hb : orDefault (some j) (-1) = b at e1
  generalize hc : orDefault (some k) 0 = c at e2
  generalize hd : orDefault (some l) 0 = d at e2
  simp only [estimateLinearVelocity, estimateAngularVelocity, maybeUnpack, checkAxes, ha, hb, hc, hd, mod_same e1, mod_same e2]
  constructor
  · split_ifs
    · rfl
    · rfl
    · simp only [bind, Except.bind]
      cases stampList (some ts) with
      | error e => rfl
      | ok t =>
        simp only [Option.getD_some]
        rw [estimateLinear_same ext t e2]
  · split_ifs
    · rfl
    · rfl
    · simp only [bind, Except.bind]
      cases stampList (some ts) with
      | error e => rfl
      | ok t =>
        simp only [Option.getD_some]
        rw [estimateAngular_same ext t e1 e2]

theorem reshape_same {a b : ND ℝ} (hn : a.ndim = b.ndim) {i j : ℤ} (h : SameAxis a.ndim i j) (hi : i ≠ 0) (hj : j ≠ 0) (c : Bool) :
    reshapeVectors (.nd a) (.nd b) (some i) none c = reshapeVectors (.nd a) (.nd b) (some j) none c := by
  have e : ∀ i : ℤ, i ≠ 0 → ∀ d, orDefault (some i) d = i := fun i hi d => by simp [orDefault, hi]
  have hb : SameAxis b.ndim i j := hn ▸ h
  simp only [reshapeVectors, maybeUnpack, checkAxes, unpackNoTime, e _ hi, e _ hj, mod_same h]
  split_ifs
  · rfl
  · rfl
  · simp only [bind, Except.bind]
    rw [pyShape_same (sh := a.shape) h.norm, pyShape_same (sh := b.shape) hb.norm, swapaxesZ_same (a := a) (j' := -1) h.norm rfl,
      swapaxesZ_same (a := b) (j' := -1) hb.norm rfl]

/-- `best_fit_rotation`, `best_fit_transform`, `iterative_closest_point` of plain arrays with equally many axes. -/
theorem C88_fits (ext : FitExt) (nn : List Vec → Vec → ℕ) {a b : ND ℝ} (hn : a.ndim = b.ndim) {i j : ℤ} (h : SameAxis a.ndim i j) (hi : i ≠ 0) (hj : j ≠ 0)
    (init : Option (Vec × Quat)) (maxIter : ℕ) (tol : ℝ) :
    bestFitRotation ext (.nd a) (.nd b) none (some i) = bestFitRotation ext (.nd a) (.nd b) none (some j) ∧
    bestFitTransform ext (.nd a) (.nd b) none (some i) = bestFitTransform ext (.nd a) (.nd b) none (some j) ∧
    iterativeClosestPoint ext nn (.nd a) (.nd b) none (some i) init maxIter tol = iterativeClosestPoint ext nn (.nd a) (.nd b) none (some j) init maxIter tol := by
  simp only [bestFitRotation, bestFitTransform, iterativeClosestPoint, reshape_same hn h hi hj]
  exact ⟨trivial, trivial, trivial⟩

theorem sumKeep_same {a : ND ℝ} {i j : ℤ} (h : SameAxis a.ndim i j) : a.sumKeep i = a.sumKeep j := by
  simp only [ND.sumKeep, h.norm]

theorem sumKeep_ndim {a c : ND ℝ} {i : ℤ} (h : a.sumKeep i = .ok c) : c.ndim = a.ndim := by
  simp only [ND.sumKeep] at h
  split at h <;> cases h
  simp [ND.ndim]

theorem npCrossAxis_same {a b : ND ℝ} (hn : a.ndim = b.ndim) {i j : ℤ} (h : SameAxis a.ndim i j) : npCrossAxis a b i = npCrossAxis a b j := by
  have hb : SameAxis b.ndim i j := hn ▸ h
  simp only [npCrossAxis, h.norm, hb.norm]
  cases e1 : normAxis j a.ndim with
  | none => rfl
  | some p =>
    cases e2 : normAxis j b.ndim with
    | none => rfl
    | some p' =>
      simp only
      cases ec : crossLast (a.moveaxis p (a.ndim - 1)) (b.moveaxis p' (b.ndim - 1)) with
      | error e => rfl
      | ok c =>
        simp only
        have hp := normAxis_lt e1
        have hp' := normAxis_lt e2
        have hc : c.ndim = a.ndim := by
          rw [crossLast_ndim ec, moveaxis_ndim hp (by omega), moveaxis_ndim hp' (by omega), hn, max_self]
        rw [hc, h.norm]

theorem concat2_same {a b : ND ℝ} {i j : ℤ} (h : SameAxis a.ndim i j) : a.concat2 b i = a.concat2 b j := by
  simp only [ND.concat2, h.norm]

theorem concat2_ndim {a b c : ND ℝ} {i : ℤ} (h : a.concat2 b i = .ok c) : c.ndim = a.ndim := by
  simp only [ND.concat2] at h
  split at h
  · cases h
  · split_ifs at h
    cases h
    simp [ND.ndim]

/-- `shortest_arc_rotation` of plain arrays with equally many axes. -/
theorem C88_shortest_arc (x : XrOps) {a b : ND ℝ} (hn : a.ndim = b.ndim) {i j : ℤ} (h : SameAxis a.ndim i j) (hi : i ≠ 0) (hj : j ≠ 0) :
    shortestArcRotation x (.nd a) b none (some i) = shortestArcRotation x (.nd a) b none (some j) := by
  have e : ∀ i : ℤ, i ≠ 0 → ∀ d, orDefault (some i) d = i := fun i hi d => by simp [orDefault, hi]
  have hb : SameAxis b.ndim i j := hn ▸ h
  simp only [shortestArcRotation, unpackNoTime, e _ hi, e _ hj, bind, Except.bind]
  have key : shortestArc a b i = shortestArc a b j := by
    simp only [shortestArc, bind]
    rw [sumKeep_same (a := a.map fun x => x ^ 2) h, sumKeep_same (a := b.map fun x => x ^ 2) hb, npCrossAxis_same hn h]
    refine bind_same fun sn1 h1 => bind_same fun sn2 h2 => bind_same fun prod hp => ?_
    have hpn : prod.ndim = a.ndim := by rw [bop_ndim hp, hn, max_self]
    rw [sumKeep_same (a := prod) (by rw [hpn]; exact h)]
    refine bind_same fun d12 hd => bind_same fun c12 hc => bind_same fun ss hss => bind_same fun re hre => ?_
    have hren : re.ndim = a.ndim := by
      have e1 : sn1.ndim = a.ndim := sumKeep_ndim (a := a.map fun x => x ^ 2) h1
      have e2 : sn2.ndim = b.ndim := sumKeep_ndim (a := b.map fun x => x ^ 2) h2
      have e3 := sumKeep_ndim hd
      have e4 := bop_ndim hss
      have e5 := bop_ndim hre
      have e6 : (ss.map Real.sqrt).ndim = ss.ndim := rfl
      rw [e5, e6, e4, e3, e1, e2, hpn, ← hn]; simp
    rw [concat2_same (by rw [hren]; exact h)]
    refine bind_same fun rotation hr => ?_
    rw [sumKeep_same (a := rotation.map fun x => x ^ 2) (by
      show SameAxis rotation.ndim i j
      rw [concat2_ndim hr, hren]; exact h)]
  rw [key]

end RBM.Props
