import Verif.Props.LinearTransform

/-!
C38 end to end: twists and linear velocity transformations for rigid motions that the numerical differentiation reproduces.
-/

namespace RBM.Props

open RBM.Spec

theorem sharedStamps_all {ts : List ℝ} (h : StrictlyIncreasing ts) {l : List (Option (List ℝ))} (hl : ∀ x ∈ l, x = none ∨ x = some ts) (hm : some ts ∈ l) :
    sharedStamps l = some ts := by
  have key : ∀ y ∈ l.filterMap id, y = ts := by
    intro y hy
    rw [List.mem_filterMap] at hy
    obtain ⟨x, hx, e⟩ := hy
    rcases hl x hx with rfl | rfl
    · cases e
    · exact (Option.some.inj e).symm
  have hne : ts ∈ l.filterMap id := List.mem_filterMap.mpr ⟨_, hm, rfl⟩
  simp only [sharedStamps]
  cases hf : l.filterMap id with
  | nil => rw [hf] at hne; cases hne
  | cons y ys =>
    rw [hf] at key
    have : y = ts := key y (by simp)
    subst this
    simp only [commonStamps]
    rw [List.filter_eq_self.mpr]
    intro τ hτ
    simp only [decide_eq_true_eq]
    intro z hz
    rw [key z hz]
    exact inRange_mem h hτ

section

variable {ext : Ext} {s : State} {h : List Event} {a b m : ℕ} {l : List ℕ}

/-- `lookup_twist` of a frame that moves uniformly while it turns: at every timestamp exactly the velocity and the angular velocity. -/
theorem C38_twist_exact (hsq : SquadLaw ext.squad) (hf : FiltLaw ext) (x : XrOps) (hr : Reachable s h) (ha : a < s.size) (hb : b < s.size)
    (hp : PathAll s a b (FrameOk true s))
    {tl : List Vec} {rl : List Quat} {ts : List ℝ} (he : s.lookupTransform ext.squad a (.byObj b) = .ok (.many tl, .many rl, some ts))
    (hacc : ext.derivErr ts = none) (h2ts : 2 ≤ ts.length) (rt st : Bool) {q : ℝ → Quat} (hu : ∀ t, IsUnitQ (q t)) {c V : Vec}
    (hmove : ∀ τ ∈ ts, ∀ A, IsTransformAt ext.squad s a b τ A → A.t = c + τ • V ∧ A.r = q τ)
    (hd : ∀ (k : ℕ) τ, ts[k]? = some τ → HasDerivAt q (quatDeriv ext rl ts k) τ) :
    ∃ lin ang, s.lookupTwist ext a (some (.byObj b)) (some (.byObj b)) { returnTimestamps := rt, allowStatic := st } =
        .ok (if rt then .triple lin ang (some ts) else .pair lin ang) ∧
      IsSeries lin (some ts) ∧ IsSeries ang (some ts) ∧
      (∀ τ v, SampleAt lin (some ts) τ v → v = V) ∧ (∀ τ w, SampleAt ang (some ts) τ w → IsSpaceRate q τ w) := by
  obtain ⟨hinc, _, _, _⟩ := lookup_rows hsq hr ha hb hp he
  have hres : s.resolveOr a (some (.byObj b)) = .ok b := resolveOr_obj b
  have hst : outStamps s [] ts = ts := outStamps_nil hinc
  obtain ⟨lin, l1, l2, l3⟩ := C36_lookup_uniform hsq hf x hr ha hb hb hres hres hp pathAll_self route_self he
    { returnTimestamps := true, allowStatic := st } rfl (by intro c hc; cases hc) (by rw [hst]; exact h2ts) (fun τ hτ A hA => (hmove τ hτ A hA).1)
  rw [hst] at l1 l2 l3
  obtain ⟨ang, a1, a2, a3⟩ := C37_lookup_exact hsq x hr ha hb hres hres hp he hacc h2ts true st hu (fun τ hτ A hA => (hmove τ hτ A hA).2) hd
  obtain ⟨lin', ang', ots, t1, t2, t3, t4, t5, t6⟩ := C38_twist hres hres he { returnTimestamps := rt, allowStatic := st } l1 a1 l2 a2
  rw [sharedStamps_all hinc (by simp) (by simp)] at t2
  subst t2
  refine ⟨lin', ang', t1, ⟨t3, l2.2⟩, ⟨t4, l2.2⟩, fun τ v hv => ?_, fun τ w hw => a3 τ w (t6 τ w hw)⟩
  obtain ⟨k, hk, _⟩ := id hv
  have hs := valueAt_sample l2 (t5 τ v hv) (fun y hy => by rw [← Option.some.inj hy]; exact List.mem_of_getElem? hk)
  obtain ⟨B, hB, e⟩ := l3 τ v hs
  obtain rfl := isTransformAt_self hr.wf hB
  rw [e]; exact rot_one _

/-- Changing the reference frame of a linear velocity, end to end: if the old reference frame moves uniformly in the new one while it turns, and the
array holds the velocity of the moving frame in the old one, the result at every timestamp is the velocity of the moving frame in the new one. -/
theorem C38_exact_uniform (hsq : SquadLaw ext.squad) (hf : FiltLaw ext) (x : XrOps) (hr : Reachable s h) (ha : a < s.size) (hb : b < s.size) (hm : m < s.size)
    (hp : PathAll s a b (FrameOk true s)) (hpm : PathAll s m a (FrameOk true s)) (hl : Route s a b l)
    {arr : ND ℝ} {ats : Option (List ℝ)} (hs : IsSeries arr ats)
    {tl : List Vec} {rl : List Quat} {ts : List ℝ} (he : s.lookupTransform ext.squad a (.byObj b) = .ok (.many tl, .many rl, some ts))
    {tr : Arr Vec} {ro : Arr Quat} {trTs : Option (List ℝ)} (hem : s.lookupTransform ext.squad m (.byObj a) = .ok (tr, ro, trTs))
    (h2 : ∀ y, arrayStamps s l (some ts) ats = some y ∨ arrayStamps s l (some ts) trTs = some y ∨ trTs = some y → 2 ≤ y.length)
    (hacc : ext.derivErr ts = none) (h2ts : 2 ≤ ts.length) {q : ℝ → Quat} (hu : ∀ t, IsUnitQ (q t)) {c V : Vec}
    (hmove : ∀ τ ∈ ts, ∀ A, IsTransformAt ext.squad s a b τ A → A.t = c + τ • V ∧ A.r = q τ)
    (hd : ∀ (k : ℕ) τ, ts[k]? = some τ → HasDerivAt q (quatDeriv ext rl ts k) τ)
    {mref : FrameRef} (hmref : s.resolve mref = .ok m) (rf : Option FrameRef) (rt : Bool) :
    ∃ out ots, s.transformLinearVelocity ext a arr (.byObj b) "reference_frame" (some mref) rf
        { timestamps := stampArg ats, returnTimestamps := rt } none none = .ok (returned rt out ots) ∧
      ots = sharedStamps [arrayStamps s l (some ts) ats, some ts, some ts, arrayStamps s l (some ts) trTs] ∧ out.shape = seriesShape ots ∧
      ∀ τ w, τ ∈ ts → (∀ y, arrayStamps s l (some ts) trTs = some y → τ ∈ y) → SampleAt out ots τ w →
        ∀ p : ℝ → Vec, (∀ C, IsTransformAt ext.squad s m a τ C → C.t = p τ) → (∀ w, SampleAt arr ats τ w → HasDerivAt p w τ) →
          HasDerivAt (fun t => rot (q t) (p t) + (c + t • V)) w τ := by
  obtain ⟨lin, ang, t1, t2, t3, t4, t5⟩ := C38_twist_exact hsq hf x hr ha hb hp he hacc h2ts true true hu hmove hd
  obtain ⟨out, ots, o1, o2, o3, o4⟩ := C38_exact hsq hr ha hb hm hp hpm hl hs he hem h2 (outlier := none) (cutoff := none) t1 t2 t3 hmref rf rt
  refine ⟨out, ots, o1, o2, o3, fun τ w hτ hτ' hw p hpos harr => ?_⟩
  refine o4 τ w ?_ hw q (fun t => c + t • V) p (fun A hA => (hmove τ hτ A hA).2) hpos ?_ (t5 τ) harr
  · rintro y (hy | hy)
    · rw [← Option.some.inj hy]; exact hτ
    · exact hτ' y hy
  · intro v hv
    rw [t4 τ v hv]
    have := ((hasDerivAt_id τ).smul_const V).const_add c
    simpa using this

/-- Changing the moving frame of a linear velocity, end to end: the new moving frame moves uniformly in the old one while it turns (orientation `R`), the
old moving frame turns in the reference frame `w` (orientation `q`), and the array holds the velocity of the old moving frame at `T`. The result at
every timestamp, expressed in the new moving frame, is its velocity in the reference frame. -/
theorem C38_exact_moving_uniform (hsq : SquadLaw ext.squad) (hf : FiltLaw ext) (x : XrOps) (hr : Reachable s h) {w : ℕ} (ha : a < s.size) (hb : b < s.size)
    (hw : w < s.size) (hp : PathAll s a b (FrameOk true s)) (hp' : PathAll s b a (FrameOk true s)) (hpw : PathAll s a w (FrameOk true s)) (hl : Route s a b l)
    {arr : ND ℝ} {ats : Option (List ℝ)} (hs : IsSeries arr ats)
    {t : Arr Vec} {r : Arr Quat} {lts : Option (List ℝ)} (he : s.lookupTransform ext.squad a (.byObj b) = .ok (t, r, lts))
    {tl : List Vec} {rl : List Quat} {ts : List ℝ} (heb : s.lookupTransform ext.squad b (.byObj a) = .ok (.many tl, .many rl, some ts))
    {rf : Option FrameRef} (hrf : s.resolveOr a rf = .ok w)
    {tl' : List Vec} {rl' : List Quat} {ts' : List ℝ} (hew : s.lookupTransform ext.squad a (.byObj w) = .ok (.many tl', .many rl', some ts'))
    (h2 : ∀ y, arrayStamps s l lts ats = some y ∨ y = outStamps s l ts ∨ y = outStamps s l ts' ∨ y = ts → 2 ≤ y.length)
    (hacc : ext.derivErr ts' = none) {q R : ℝ → Quat} (hu : ∀ t, IsUnitQ (q t)) {c V : Vec}
    (hmove : ∀ τ ∈ ts, ∀ A, IsTransformAt ext.squad s b a τ A → A.t = c + τ • V ∧ A.r = R τ)
    (hq : ∀ τ ∈ ts', ∀ A, IsTransformAt ext.squad s a w τ A → A.r = q τ)
    (hd : ∀ (k : ℕ) τ, ts'[k]? = some τ → HasDerivAt q (quatDeriv ext rl' ts' k) τ) (mf : Option FrameRef) (rt : Bool) :
    ∃ out ots, s.transformLinearVelocity ext a arr (.byObj b) "moving_frame" mf rf
        { timestamps := stampArg ats, returnTimestamps := rt } none none = .ok (returned rt out ots) ∧
      ots = sharedStamps [arrayStamps s l lts ats, some (outStamps s l ts), some (outStamps s l ts'), some (outStamps s l ts)] ∧ out.shape = seriesShape ots ∧
      ∀ τ v, τ ∈ outStamps s l ts → τ ∈ outStamps s l ts' → SampleAt out ots τ v →
        ∀ T : ℝ → Vec, (∀ v, SampleAt arr ats τ v → HasDerivAt T (rot (q τ) v) τ) →
          HasDerivAt (fun t => rot (q t) (c + t • V) + T t) (rot (q τ * R τ) v) τ := by
  obtain ⟨lin, l1, l2, l3⟩ := C36_lookup_uniform hsq hf x hr hb ha hb (reference := some (.byObj a)) (representIn := some (.byObj b)) (resolveOr_obj ..)
    (resolveOr_obj ..) hp' hp hl heb
    { returnTimestamps := true, allowStatic := true } rfl (by intro c hc; cases hc) (h2 _ (.inr (.inl rfl))) (fun τ hτ A hA => (hmove τ hτ A hA).1)
  obtain ⟨v, v1, hfin, hrate⟩ := angular_estimate_exact hsq x hr ha hw hpw hew hacc hu hq hd
  obtain ⟨ang, a1, a2, a3⟩ := C37_lookup hsq x hr ha hw hb (representIn := some (.byObj b)) hrf (resolveOr_obj ..) hpw hp hl hew
    { returnTimestamps := true, allowStatic := true } v1 hfin (h2 _ (.inr (.inr (.inl rfl))))
  obtain ⟨out, ots, o1, o2, o3, o4⟩ := C38_exact_moving hsq hr ha hb hp hp' hl hs he heb (by
    rintro y (hy | hy | hy)
    · exact h2 y (.inl hy)
    · exact h2 y (.inr (.inl (Option.some.inj hy).symm))
    · exact h2 y (.inr (.inr (.inr (Option.some.inj hy).symm)))) (outlier := none) (cutoff := none) l1 a1 l2 a2 mf rt
  refine ⟨out, ots, o1, o2, o3, fun τ u hτ hτ' hu' T harr => ?_⟩
  have hinv : ∀ A, IsTransformAt ext.squad s a b τ A → ∀ z, rot (R τ) (rot A.r z) = z := by
    intro A hA z
    obtain ⟨k, hk⟩ := List.mem_iff_getElem?.mp (mem_outStamps.mp hτ).1
    obtain ⟨_, _, _, hrow⟩ := lookup_rows hsq hr hb ha hp' heb
    obtain ⟨C, hC, _, _⟩ := hrow k τ hk
    rw [← (hmove τ (mem_outStamps.mp hτ).1 C hC).2]
    exact (isTransformAt_back hr.wf (fun _ => hsq) hp hA hC).2.1 z
  refine o4 τ u ?_ hu' q R T (fun t => c + t • V) (hu τ).ne_zero (fun A hA => ?_) ?_ ?_ harr
  · rintro y (hy | hy | hy)
    · rw [← Option.some.inj hy]; exact hτ
    · rw [← Option.some.inj hy]; exact hτ'
    · rw [← Option.some.inj hy]; exact hτ
  · obtain ⟨g1, g2⟩ := hmove τ (mem_outStamps.mp hτ).1 A hA
    exact ⟨g2, g1⟩
  · intro z hz
    obtain ⟨B, hB, e⟩ := l3 τ z hz
    rw [e, hinv B hB]
    have := ((hasDerivAt_id τ).smul_const V).const_add c
    simpa using this
  · intro z hz
    obtain ⟨A, w0, k, hA, hk, hw0, e⟩ := a3 τ z hz
    rw [e, hinv A hA]
    exact hrate k τ w0 hk hw0

end

end RBM.Props
