import Verif.Spec.Rounding
import Verif.Model.Rounding
import Verif.Lemmas.TransformLaws

namespace RBM

open Spec

/-! ### exactly represented timestamps -/

theorem map_fixed {fl : ℝ → ℝ} {l : List ℝ} (h : ∀ t ∈ l, fl t = t) : l.map fl = l := by
  conv_rhs => rw [← List.map_id l]
  exact List.map_congr_left fun t ht => by simp [h t ht]

/-- `fl` fixes the timestamps. -/
def FixedBy (fl : ℝ → ℝ) (ts : Option (List ℝ)) : Prop := ∀ l, ts = some l → ∀ t ∈ l, fl t = t

theorem FixedBy.round {fl : ℝ → ℝ} {ts : Option (List ℝ)} (h : FixedBy fl ts) : roundStamps fl ts = ts := by
  cases ts with
  | none => rfl
  | some l => simp [roundStamps, map_fixed (h l rfl)]

theorem transformFromFrameFl_exact {fl : ℝ → ℝ} (sq : SquadFn) {f : MFrame} {ts : Option (List ℝ)}
    (hf : FixedBy fl f.timestamps) (ht : FixedBy fl ts) :
    transformFromFrameFl fl sq f ts = transformFromFrame sq f ts := by
  simp [transformFromFrameFl, hf.round, ht.round]

theorem transLoopFl_exact {fl : ℝ → ℝ} (sq : SquadFn) {ts : Option (List ℝ)} (ht : FixedBy fl ts)
    {fs : List MFrame} (hf : ∀ f ∈ fs, FixedBy fl f.timestamps) (acc : Arr Vec × Arr Quat) :
    transLoopFl fl sq ts fs acc = transLoop sq ts fs acc := by
  induction fs generalizing acc with
  | nil => rfl
  | cons f fs ih =>
    have e : transStepFl fl sq ts f acc = transStep sq ts f acc := by
      simp only [transStepFl, transStep, transformFromFrameFl_exact sq (hf f (by simp)) ht]
    simp only [transLoopFl, transLoop, e]
    cases transStep sq ts f acc with
    | error => rfl
    | ok p => exact ih (fun g hg => hf g (List.mem_cons_of_mem _ hg)) p

/-- Frames and arrays of a matcher whose timestamps `fl` fixes. -/
structure Matcher.Fixed (fl : ℝ → ℝ) (m : Matcher) : Prop where
  frames : ∀ f ∈ m.frames, FixedBy fl f.timestamps
  arrays : ∀ a ∈ m.arrays, FixedBy fl a.timestamps

theorem Matcher.Fixed.getTimestamps {fl : ℝ → ℝ} {m : Matcher} (h : m.Fixed fl) {af : Bool}
    {ts : Option (List ℝ)} (e : m.getTimestamps af = .ok ts) : FixedBy fl ts := by
  rintro l rfl t ht
  simp only [Matcher.getTimestamps] at e
  cases hr : m.getRange with
  | error => rw [hr] at e; simp at e
  | ok range =>
    rw [hr] at e
    simp only at e
    have hel : ∀ x ∈ (if af = true then m.arrays.filterMap (·.timestamps) ++ m.frames.filterMap (fun f => if f.discrete = true then none else f.timestamps)
        else m.frames.filterMap (fun f => if f.discrete = true then none else f.timestamps) ++ m.arrays.filterMap (·.timestamps)), ∀ t ∈ x, fl t = t := by
      have h1 : ∀ x ∈ m.arrays.filterMap (·.timestamps), ∀ t ∈ x, fl t = t := by
        intro x hx
        obtain ⟨a, ha, hax⟩ := List.mem_filterMap.mp hx
        exact h.arrays a ha x hax
      have h2 : ∀ x ∈ m.frames.filterMap (fun f => if f.discrete = true then none else f.timestamps), ∀ t ∈ x, fl t = t := by
        intro x hx
        obtain ⟨f, hf, hfx⟩ := List.mem_filterMap.mp hx
        split at hfx
        · simp at hfx
        · exact h.frames f hf x hfx
      intro x hx
      split at hx <;> rcases List.mem_append.mp hx with hx | hx
      exacts [h1 x hx, h2 x hx, h2 x hx, h1 x hx]
    generalize (if af = true then m.arrays.filterMap (·.timestamps) ++ m.frames.filterMap (fun f => if f.discrete = true then none else f.timestamps)
        else m.frames.filterMap (fun f => if f.discrete = true then none else f.timestamps) ++ m.arrays.filterMap (·.timestamps)) = el at e hel
    cases el with
    | cons x xs =>
      simp only [Except.ok.injEq, Option.some.injEq] at e
      subst e
      simp only [selectRange] at ht
      exact hel x (by simp) t (List.mem_of_mem_filter ht)
    | nil =>
      simp only at e
      cases hd : m.frames.filterMap (fun f => if f.discrete = true then f.timestamps else none) with
      | nil => rw [hd] at e; simp at e
      | cons d ds =>
        rw [hd] at e
        simp only [Except.ok.injEq, Option.some.injEq] at e
        subst e
        rw [mem_npUnique] at ht
        obtain ⟨x, hx, htx⟩ := List.mem_flatten.mp ht
        rw [← hd] at hx
        obtain ⟨f, hf, hfx⟩ := List.mem_filterMap.mp hx
        split at hfx
        · exact h.frames f hf x hfx t htx
        · simp at hfx

theorem getTransformationFl_exact {fl : ℝ → ℝ} (sq : SquadFn) {m : Matcher} (h : m.Fixed fl) :
    m.getTransformationFl fl sq = m.getTransformation sq := by
  simp only [Matcher.getTransformationFl, Matcher.getTransformation]
  cases e : m.getTimestamps true with
  | error => rfl
  | ok ts =>
    simp only [bind, Except.bind]
    rw [transLoopFl_exact sq (h.getTimestamps e) h.frames]

theorem collect_congr {α β} {l : List α} {f g : α → Res β} (h : ∀ a ∈ l, f a = g a) :
    collect (l.map f) = collect (l.map g) := by
  rw [List.map_congr_left h]

theorem getArray1Fl_exact {fl : ℝ → ℝ} (sq : SquadFn) {m : Matcher} (h : m.Fixed fl) {ts : Option (List ℝ)}
    (ht : FixedBy fl ts) : m.getArray1Fl fl sq ts = m.getArray1 sq ts := by
  have key : ∀ ts, FixedBy fl ts → collect (m.arrays.map fun a => resampleArrayFl fl sq a ts) =
      collect (m.arrays.map fun a => resampleArray sq a ts) := fun ts ht =>
    collect_congr fun a ha => by simp [resampleArrayFl, (h.arrays a ha).round, ht.round]
  cases ts with
  | some l =>
    simp only [Matcher.getArray1Fl, Matcher.getArray1, Matcher.getArrays, bind, Except.bind, Pure.pure, Except.pure, key _ ht]
    cases collect (m.arrays.map fun a => resampleArray sq a (some l)) <;> rfl
  | none =>
    simp only [Matcher.getArray1Fl, Matcher.getArray1, Matcher.getArrays, bind, Except.bind, Pure.pure, Except.pure]
    cases e : m.getTimestamps true with
    | error => rfl
    | ok ts =>
      simp only [key ts (h.getTimestamps e)]
      cases collect (m.arrays.map fun a => resampleArray sq a ts) <;> rfl

theorem addFramesFl_exact {fl : ℝ → ℝ} {s : State} (hs : ExactStamps fl s) {inv : Bool} {l : List ℕ} {m : Matcher} :
    s.addFramesFl fl inv l m = s.addFrames inv l m := by
  induction l generalizing m with
  | nil => rfl
  | cons i l ih =>
    have e : s.addFrameFl fl m i inv = s.addFrame m i inv := by
      simp only [State.addFrameFl, State.addFrame]
      cases hd : s.data i with
      | none => rfl
      | some d =>
        have hfx : FixedBy fl d.timestamps := fun ts => hs i d ts hd
        simp only
        cases hp : d.pose with
        | none => rfl
        | some p =>
          simp only [Matcher.addFrameFl, Matcher.addFrame, checkTimestampsFl, hfx.round]
          cases checkTimestamps d.timestamps (firstLen p.1) <;> rfl
    simp only [State.addFramesFl, State.addFrames, e]
    cases s.addFrame m i inv with
    | error => rfl
    | ok m' => exact ih

theorem addArraysFl_exact {fl : ℝ → ℝ} {l : List MArray} (hl : ∀ a ∈ l, FixedBy fl a.timestamps) {m : Matcher} :
    addArraysFl fl l m = addArrays l m := by
  induction l generalizing m with
  | nil => rfl
  | cons a l ih =>
    have e : m.addArrayFl fl a = m.addArray a := by
      obtain ⟨data, ts⟩ := a
      cases ts with
      | none => rfl
      | some ts =>
        have hr : roundStamps fl (some ts) = some ts := (hl ⟨data, some ts⟩ (by simp)).round
        obtain ⟨sh, get⟩ := data
        cases sh with
        | nil => rfl
        | cons n sh =>
          simp only [Matcher.addArrayFl, Matcher.addArray, checkTimestampsFl, hr]
          cases checkTimestamps (some ts) n <;> rfl
    simp only [addArraysFl, addArrays, e]
    cases m.addArray a with
    | error => rfl
    | ok m' => exact ih fun b hb => hl b (List.mem_cons_of_mem _ hb)

theorem addFrames_fixed {fl : ℝ → ℝ} {s : State} (hs : ExactStamps fl s) {inv : Bool} {l : List ℕ} {m m' : Matcher}
    (hm : m.Fixed fl) (e : s.addFrames inv l m = .ok m') : m'.Fixed fl := by
  induction l generalizing m with
  | nil => cases e; exact hm
  | cons i l ih =>
    simp only [State.addFrames, State.addFrame] at e
    cases hd : s.data i with
    | none => rw [hd] at e; simp at e
    | some d =>
      rw [hd] at e
      simp only at e
      cases hp : d.pose with
      | none => rw [hp] at e; simp at e
      | some p =>
        rw [hp] at e
        simp only [Matcher.addFrame] at e
        cases hc : checkTimestamps d.timestamps (firstLen p.1) with
        | error => rw [hc] at e; simp at e
        | ok =>
          rw [hc] at e
          simp only at e
          have hfix : Matcher.Fixed fl { m with frames := m.frames ++ [⟨p.1, p.2, d.timestamps, d.discrete, inv⟩] } := by
            refine ⟨?_, hm.arrays⟩
            intro f hf
            rcases List.mem_append.mp hf with hf | hf
            · exact hm.frames f hf
            · simp only [List.mem_singleton] at hf
              subst hf
              exact fun ts => hs i d ts hd
          exact ih hfix e

theorem addArrays_fixed {fl : ℝ → ℝ} {l : List MArray} (hl : ∀ a ∈ l, FixedBy fl a.timestamps) {m m' : Matcher}
    (hm : m.Fixed fl) (e : addArrays l m = .ok m') : m'.Fixed fl := by
  induction l generalizing m with
  | nil => cases e; exact hm
  | cons a l ih =>
    simp only [addArrays] at e
    cases ha : m.addArray a with
    | error => rw [ha] at e; simp at e
    | ok m1 =>
      rw [ha] at e
      simp only at e
      have h1 : m1 = { m with arrays := m.arrays ++ [a] } := by
        simp only [Matcher.addArray] at ha
        split at ha
        · cases ha; rfl
        · cases ha
        · split at ha
          · cases ha
          · cases ha; rfl
      subst h1
      have hfix : Matcher.Fixed fl { m with arrays := m.arrays ++ [a] } := by
        refine ⟨hm.frames, ?_⟩
        intro b hb
        rcases List.mem_append.mp hb with hb | hb
        · exact hm.arrays b hb
        · simp only [List.mem_singleton] at hb
          subst hb
          exact hl b (by simp)
      exact ih (fun b hb => hl b (List.mem_cons_of_mem _ hb)) hfix e

theorem getMatcherFl_exact {fl : ℝ → ℝ} {s : State} (hs : ExactStamps fl s) {a : ℕ} {dst : FrameRef}
    {l : List MArray} (hl : ∀ a ∈ l, FixedBy fl a.timestamps) :
    s.getMatcherFl fl a dst l = s.getMatcher a dst l ∧ ∀ m, s.getMatcher a dst l = .ok m → m.Fixed fl := by
  simp only [State.getMatcherFl, State.getMatcher, addFramesFl_exact hs, addArraysFl_exact hl, true_and]
  intro m e
  cases hw : s.walk a dst with
  | error => rw [hw] at e; simp [bind, Except.bind] at e
  | ok w =>
    rw [hw] at e
    simp only [bind, Except.bind] at e
    cases h1 : s.addFrames false w.1 Matcher.empty with
    | error => rw [h1] at e; simp at e
    | ok m1 =>
      rw [h1] at e
      simp only at e
      cases h2 : s.addFrames true w.2 m1 with
      | error => rw [h2] at e; simp at e
      | ok m2 =>
        rw [h2] at e
        simp only at e
        have f0 : Matcher.empty.Fixed fl := ⟨by simp [Matcher.empty], by simp [Matcher.empty]⟩
        exact addArrays_fixed hl (addFrames_fixed hs (addFrames_fixed hs f0 h1) h2) e

/-! ### the loop -/

/-- see `transStep_many`. -/
theorem transStepFl_many (fl : ℝ → ℝ) (sq : SquadFn) (ts : List ℝ) (f : MFrame) (g acc : ℝ → Pose)
    (h : transformFromFrameFl fl sq f (some ts) =
      .ok (.many (ts.map fun τ => (g τ).t), .many (ts.map fun τ => (g τ).r)))
    (hu : ∀ τ ∈ ts, IsUnitQ (g τ).r) :
    transStepFl fl sq (some ts) f
      (.many (ts.map fun τ => (acc τ).t), .many (ts.map fun τ => (acc τ).r)) =
    .ok (.many (ts.map fun τ => (stepP (f.inverse, g τ) (acc τ)).t),
         .many (ts.map fun τ => (stepP (f.inverse, g τ) (acc τ)).r)) := by
  have h0 := zero_notMem_of_unit (g := fun τ => (g τ).r) hu
  have h0' := zero_notMem_of_unit (g := fun τ => (g τ).r⁻¹) (fun τ hτ => (hu τ hτ).inv)
  cases hi : f.inverse
  · simp only [transStepFl, h, hi, bind, Except.bind, rotateVectors, bzip_map_map, h0, if_false,
      Pure.pure, Except.pure, Bool.false_eq_true]
    congr 3
    refine map_congr_on fun τ hτ => ?_
    simp [stepP, Pose.comp, crossForm_eq_rot _ (hu τ hτ)]
  · simp only [transStepFl, h, hi, bind, Except.bind, qinvArr, h0, if_false, List.map_map,
      rotateVectors, if_true]
    have e1 : ((fun x : Quat => x⁻¹) ∘ fun τ => (g τ).r) = fun τ => (g τ).r⁻¹ := rfl
    rw [e1]
    simp only [bzip_map_map, h0', if_false, Pure.pure, Except.pure]
    congr 3
    refine map_congr_on fun τ hτ => ?_
    rw [crossForm_eq_rot _ (hu τ hτ).inv]
    simp [stepP, Pose.comp, Pose.inv, rot_sub, rot_neg]
    abel

/-- see `transStep_init`. -/
theorem transStepFl_init (fl : ℝ → ℝ) (sq : SquadFn) (ts : List ℝ) (f : MFrame) (g : ℝ → Pose)
    (h : transformFromFrameFl fl sq f (some ts) =
      .ok (.many (ts.map fun τ => (g τ).t), .many (ts.map fun τ => (g τ).r)))
    (hu : ∀ τ ∈ ts, IsUnitQ (g τ).r) :
    transStepFl fl sq (some ts) f (.many [0], .one 1) =
    .ok (.many (ts.map fun τ => (stepP (f.inverse, g τ) Pose.id).t),
         .many (ts.map fun τ => (stepP (f.inverse, g τ) Pose.id).r)) := by
  have h0 := zero_notMem_of_unit (g := fun τ => (g τ).r) hu
  have h0' := zero_notMem_of_unit (g := fun τ => (g τ).r⁻¹) (fun τ hτ => (hu τ hτ).inv)
  cases hi : f.inverse
  · simp only [transStepFl, h, hi, bind, Except.bind, rotateVectors, bzip_map_single, bzip_map_map, h0, if_false,
      Pure.pure, Except.pure, Bool.false_eq_true, bzip_map_one]
    congr 3
    refine map_congr_on fun τ hτ => ?_
    simp [stepP, Pose.comp, Pose.id, crossForm_eq_rot _ (hu τ hτ)]
  · simp only [transStepFl, h, hi, bind, Except.bind, qinvArr, h0, if_false, List.map_map,
      rotateVectors, if_true, bzip_single_map]
    have e1 : ((fun x : Quat => x⁻¹) ∘ fun τ => (g τ).r) = fun τ => (g τ).r⁻¹ := rfl
    rw [e1]
    simp only [bzip_map_map, h0', if_false, Pure.pure, Except.pure, bzip_map_one]
    congr 3
    refine map_congr_on fun τ hτ => ?_
    rw [crossForm_eq_rot _ (hu τ hτ).inv]
    simp [stepP, Pose.comp, Pose.inv, Pose.id]

/-- see `Resampled`. -/
def ResampledFl (fl : ℝ → ℝ) (sq : SquadFn) (ts : List ℝ) (f : MFrame) (g : ℝ → Pose) : Prop :=
  transformFromFrameFl fl sq f (some ts) =
      .ok (.many (ts.map fun τ => (g τ).t), .many (ts.map fun τ => (g τ).r)) ∧
  (∀ τ ∈ ts, IsUnitQ (g τ).r)

theorem transLoopFl_many (fl : ℝ → ℝ) (sq : SquadFn) (ts : List ℝ) {fs : List MFrame} {gs : List (ℝ → Pose)}
    (h : List.Forall₂ (ResampledFl fl sq ts) fs gs) (acc : ℝ → Pose) :
    transLoopFl fl sq (some ts) fs
      (.many (ts.map fun τ => (acc τ).t), .many (ts.map fun τ => (acc τ).r)) =
    .ok (.many (ts.map fun τ => (foldP (List.zipWith (fun f g => (f.inverse, g τ)) fs gs) (acc τ)).t),
         .many (ts.map fun τ => (foldP (List.zipWith (fun f g => (f.inverse, g τ)) fs gs) (acc τ)).r)) := by
  induction h generalizing acc with
  | nil => simp [transLoopFl, foldP]
  | @cons f g fs gs hfg _ ih =>
    simp only [transLoopFl, transStepFl_many fl sq ts f g acc hfg.1 hfg.2]
    have := ih (fun τ => stepP (f.inverse, g τ) (acc τ))
    rw [this]
    simp [foldP]

theorem transLoopFl_init (fl : ℝ → ℝ) (sq : SquadFn) (ts : List ℝ) {fs : List MFrame} {gs : List (ℝ → Pose)}
    (h : List.Forall₂ (ResampledFl fl sq ts) fs gs) (hne : fs ≠ []) :
    transLoopFl fl sq (some ts) fs (.many [0], .one 1) =
    .ok (.many (ts.map fun τ => (foldP (List.zipWith (fun f g => (f.inverse, g τ)) fs gs) Pose.id).t),
         .many (ts.map fun τ => (foldP (List.zipWith (fun f g => (f.inverse, g τ)) fs gs) Pose.id).r)) := by
  cases h with
  | nil => exact absurd rfl hne
  | @cons f g fs gs hfg h =>
    simp only [transLoopFl, transStepFl_init fl sq ts f g hfg.1 hfg.2]
    rw [transLoopFl_many fl sq ts h (fun τ => stepP (f.inverse, g τ) Pose.id)]
    simp [foldP]

/-! ### resampling with rounded times -/

theorem inRange_mono {fl : ℝ → ℝ} (hm : Monotone fl) {c : List ℝ} {τ : ℝ} (h : InRange c τ) :
    InRange (c.map fl) (fl τ) := by
  constructor
  · intro x hx
    rw [List.head?_map] at hx
    cases hc : c.head? with
    | none => rw [hc] at hx; simp at hx
    | some y => rw [hc] at hx; cases hx; exact hm (h.1 y hc)
  · intro x hx
    rw [List.getLast?_map] at hx
    cases hc : c.getLast? with
    | none => rw [hc] at hx; simp at hx
    | some y => rw [hc] at hx; cases hx; exact hm (h.2 y hc)

/-- Rounded data is good if the samples stay apart. -/
theorem roundedData_good {fl : ℝ → ℝ} {d : FrameData} (h : GoodData d) (hdisc : d.discrete = false)
    (ha : ∀ ev, d.timestamps = some ev → StrictlyIncreasing (ev.map fl)) : GoodData (roundedData fl d) := by
  cases h with
  | static hu => exact .static hu
  | discrete => simp at hdisc
  | continuous h1 h2 h3 h4 h5 =>
    exact .continuous (by simpa using h1) (by simpa using h2) (by simpa using h3) (ha _ rfl) h5

/-- What the pose of a frame is with rounded times. -/
def RoundedPose (fl : ℝ → ℝ) (sq : SquadFn) (d : FrameData) (τ : ℝ) (P : Pose) : Prop :=
  if d.discrete = true then IsPoseAt sq d τ P else IsPoseAt sq (roundedData fl d) (fl τ) P

theorem transformFromFrameFl_good {fl : ℝ → ℝ} (hm : Monotone fl) (sq : SquadFn) (hsq : SquadLaw sq) {f : MFrame}
    (hf : GoodData f.data) (ha : ∀ ev, f.timestamps = some ev → f.discrete = false → StrictlyIncreasing (ev.map fl))
    (ts : List ℝ) (hts : ∀ τ ∈ ts, Admissible f.data τ) :
    ∃ g : ℝ → Pose, ResampledFl fl sq ts f g ∧ ∀ τ ∈ ts, RoundedPose fl sq f.data τ (g τ) := by
  by_cases hd : f.discrete = true
  · obtain ⟨g, h1, h2, h3⟩ := transformFromFrame_good sq hf ts hts
    refine ⟨g, ⟨by simp only [transformFromFrameFl, hd, if_true, h1], h3 hsq⟩, fun τ hτ => ?_⟩
    simp only [RoundedPose, MFrame.data, hd, if_true]
    have := h2 τ hτ
    simpa [MFrame.data, hd] using this
  · have hd' : f.discrete = false := by simpa using hd
    set f' : MFrame := { f with timestamps := roundStamps fl f.timestamps } with hf'
    have e : f'.data = roundedData fl f.data := rfl
    have hg' : GoodData f'.data := by
      rw [e]; exact roundedData_good hf hd' fun ev hev => ha ev hev hd'
    obtain ⟨g, h1, h2, h3⟩ := transformFromFrame_good sq hg' (ts.map fl) (by
      intro σ hσ ev hev _
      obtain ⟨τ, hτ, rfl⟩ := List.mem_map.mp hσ
      cases hfe : f.timestamps with
      | none => simp [f', MFrame.data, roundStamps, hfe] at hev
      | some c =>
        have : ev = c.map fl := by
          simp [f', MFrame.data, roundStamps, hfe] at hev; exact hev.symm
        subst this
        exact inRange_mono hm (hts τ hτ c hfe hd'))
    refine ⟨fun τ => g (fl τ), ⟨?_, fun τ hτ => h3 hsq _ (List.mem_map_of_mem hτ)⟩, fun τ hτ => ?_⟩
    · have e2 : transformFromFrameFl fl sq f (some ts) = transformFromFrame sq f' (some (ts.map fl)) := if_neg hd
      rw [e2, h1]
      simp only [List.map_map]
      rfl
    · have := h2 _ (List.mem_map_of_mem hτ)
      rw [e] at this
      exact (if_neg hd : RoundedPose fl sq f.data τ (g (fl τ)) = _).mpr this

theorem resampledFl_exists {fl : ℝ → ℝ} (hm : Monotone fl) (sq : SquadFn) (hsq : SquadLaw sq) (ts : List ℝ)
    {s : State} {inv : Bool} {l : List ℕ} {fs : List MFrame} (h : List.Forall₂ (FrameOf s inv) l fs)
    (hg : ∀ f ∈ fs, GoodData f.data)
    (ha : ∀ f ∈ fs, ∀ ev, f.timestamps = some ev → f.discrete = false → StrictlyIncreasing (ev.map fl))
    (had : ∀ f ∈ fs, ∀ τ ∈ ts, Admissible f.data τ) :
    ∃ gs : List (ℝ → Pose), List.Forall₂ (ResampledFl fl sq ts) fs gs ∧
      ∀ τ ∈ ts, List.Forall₂ (RoundedPoseOf fl sq s τ) l (gs.map fun g => g τ) ∧ ∀ Q ∈ gs.map (fun g => g τ), IsUnitQ Q.r := by
  induction h with
  | nil => exact ⟨[], .nil, fun τ _ => ⟨.nil, by simp⟩⟩
  | @cons i f l fs hif _ ih =>
    obtain ⟨gs, h1, h2⟩ := ih (fun f hf => hg f (List.mem_cons_of_mem _ hf))
      (fun f hf => ha f (List.mem_cons_of_mem _ hf)) (fun f hf => had f (List.mem_cons_of_mem _ hf))
    obtain ⟨g, hu, hp⟩ := transformFromFrameFl_good hm sq hsq (hg f (by simp)) (ha f (by simp)) ts (had f (by simp))
    refine ⟨g :: gs, .cons hu h1, fun τ hτ => ⟨.cons ⟨_, hif.1, hp τ hτ⟩ (h2 τ hτ).1, ?_⟩⟩
    intro Q hQ
    rcases List.mem_cons.mp hQ with rfl | hQ
    · exact hu.2 τ hτ
    · exact (h2 τ hτ).2 Q hQ

theorem transLoopFl_good {fl : ℝ → ℝ} (hm : Monotone fl) (sq : SquadFn) (hsq : SquadLaw sq) (ts : List ℝ)
    {s : State} {la lb : List ℕ}
    {fa fb : List MFrame} (ha : List.Forall₂ (FrameOf s false) la fa)
    (hb : List.Forall₂ (FrameOf s true) lb.reverse fb) (hg : ∀ f ∈ fa ++ fb, GoodData f.data)
    (hap : ∀ f ∈ fa ++ fb, ∀ ev, f.timestamps = some ev → f.discrete = false → StrictlyIncreasing (ev.map fl))
    (had : ∀ f ∈ fa ++ fb, ∀ τ ∈ ts, Admissible f.data τ) (hne : fa ++ fb ≠ []) :
    ∃ T : ℝ → Pose, transLoopFl fl sq (some ts) (fa ++ fb) (.many [0], .one 1) =
        .ok (.many (ts.map fun τ => (T τ).t), .many (ts.map fun τ => (T τ).r)) ∧
      ∀ τ ∈ ts, ∃ Pa Pb, List.Forall₂ (RoundedPoseOf fl sq s τ) la Pa ∧ List.Forall₂ (RoundedPoseOf fl sq s τ) lb Pb ∧
        (∀ Q ∈ Pa ++ Pb, IsUnitQ Q.r) ∧ T τ = (chain Pb).inv.comp (chain Pa) := by
  obtain ⟨ga, a1, a2⟩ := resampledFl_exists hm sq hsq ts ha (fun f hf => hg f (by simp [hf]))
    (fun f hf => hap f (by simp [hf])) (fun f hf => had f (by simp [hf]))
  obtain ⟨gb, b1, b2⟩ := resampledFl_exists hm sq hsq ts hb (fun f hf => hg f (by simp [hf]))
    (fun f hf => hap f (by simp [hf])) (fun f hf => had f (by simp [hf]))
  have hall : List.Forall₂ (ResampledFl fl sq ts) (fa ++ fb) (ga ++ gb) := List.rel_append a1 b1
  refine ⟨fun τ => foldP (List.zipWith (fun f g => (f.inverse, g τ)) (fa ++ fb) (ga ++ gb)) Pose.id,
    transLoopFl_init fl sq ts hall hne, fun τ hτ => ⟨ga.map fun g => g τ, (gb.map fun g => g τ).reverse,
      (a2 τ hτ).1, ?_, ?_, ?_⟩⟩
  · have := List.rel_reverse (b2 τ hτ).1
    simpa using this
  · intro Q hQ
    simp only [List.mem_append, List.mem_reverse] at hQ
    rcases hQ with hQ | hQ
    · exact (a2 τ hτ).2 Q hQ
    · exact (b2 τ hτ).2 Q hQ
  · have hl1 := a1.length_eq
    have hl2 := b1.length_eq
    have := foldP_paths (fa := fa) (fb := fb) (Pa := ga.map fun g => g τ)
      (Pb := (gb.map fun g => g τ).reverse) (forall₂_inverse ha) (forall₂_inverse hb)
      (by simpa using hl1) (by simpa using hl2)
      (fun Q hQ => ((a2 τ hτ).2 Q hQ).ne_zero)
      (fun Q hQ => ((b2 τ hτ).2 Q (List.mem_reverse.mp hQ)).ne_zero)
    rw [List.reverse_reverse] at this
    simp only [zipWith_eval, List.map_append]
    exact this

/-! ### the matcher -/

theorem nonDecreasing_map {fl : ℝ → ℝ} (hm : Monotone fl) {l : List ℝ} (h : NonDecreasing l) :
    NonDecreasing (l.map fl) := by
  simp only [NonDecreasing, List.pairwise_map]
  exact h.imp fun hab => hm hab

/-- Monotone rounding does not make the check fail. -/
theorem checkTimestampsFl_ok {fl : ℝ → ℝ} (hm : Monotone fl) {ts : Option (List ℝ)} {n : ℕ}
    (h : checkTimestamps ts n = .ok ()) : checkTimestampsFl fl ts n = .ok () := by
  cases ts with
  | none => rfl
  | some l =>
    simp only [checkTimestamps] at h
    split at h
    · cases h
    · rename_i h1
      split at h
      · cases h
      · rename_i h2
        exact checkTimestamps_ok (nonDecreasing_map hm ((anyDecrease_iff l).mp h1)) (by simpa using h2)

theorem addFramesFl_ok {fl : ℝ → ℝ} (hm : Monotone fl) {s : State} {inv : Bool} {l : List ℕ} {m m' : Matcher}
    (e : s.addFrames inv l m = .ok m') : s.addFramesFl fl inv l m = .ok m' := by
  induction l generalizing m with
  | nil => exact e
  | cons i l ih =>
    simp only [State.addFrames, State.addFrame] at e
    simp only [State.addFramesFl, State.addFrameFl]
    cases hd : s.data i with
    | none => rw [hd] at e; simp at e
    | some d =>
      rw [hd] at e
      simp only at e ⊢
      cases hp : d.pose with
      | none => rw [hp] at e; simp at e
      | some p =>
        rw [hp] at e
        simp only [Matcher.addFrame] at e
        simp only [Matcher.addFrameFl]
        cases hc : checkTimestamps d.timestamps (firstLen p.1) with
        | error => rw [hc] at e; simp at e
        | ok =>
          rw [hc] at e
          simp only at e
          simp only [checkTimestampsFl_ok hm hc]
          exact ih e

theorem getMatcherFl_ok {fl : ℝ → ℝ} (hm : Monotone fl) {s : State} {a : ℕ} {dst : FrameRef} {m : Matcher}
    (e : s.getMatcher a dst [] = .ok m) : s.getMatcherFl fl a dst [] = .ok m := by
  simp only [State.getMatcher, bind, Except.bind] at e
  simp only [State.getMatcherFl, bind, Except.bind]
  cases hw : s.walk a dst with
  | error => rw [hw] at e; simp at e
  | ok w =>
    rw [hw] at e
    simp only at e ⊢
    cases h1 : s.addFrames false w.1 Matcher.empty with
    | error => rw [h1] at e; simp at e
    | ok m1 =>
      rw [h1] at e
      simp only at e
      simp only [addFramesFl_ok hm h1]
      cases h2 : s.addFrames true w.2 m1 with
      | error => rw [h2] at e; simp at e
      | ok m2 =>
        rw [h2] at e
        simp only [addFramesFl_ok hm h2]
        exact e

/-- Complete description of lookups with rounded times along well-formed frames. -/
theorem lookupFl_good {fl : ℝ → ℝ} (hm : Monotone fl) (sq : SquadFn) (hsq : SquadLaw sq) {s : State} (h : WF s)
    {a b : ℕ} (ha : a < s.size) (hb : b < s.size) {c : ℕ} {la lb : List ℕ} (hc : NearestCommon s a b c)
    (hla : PathTo s.parent c a la) (hlb : PathTo s.parent c b lb)
    (hg : ∀ i ∈ la ++ lb, FrameOk true s i) (hap : ∀ i ∈ la ++ lb, StaysApart fl s i) :
    (∃ t r, s.lookupTransform sq a (.byObj b) = .ok (t, r, none) ∧
      s.lookupTransformFl fl sq a (.byObj b) = .ok (t, r, none)) ∨
    ∃ (t : Arr Vec) (r : Arr Quat) (ts : List ℝ) (T : ℝ → Pose),
      s.lookupTransform sq a (.byObj b) = .ok (t, r, some ts) ∧
      s.lookupTransformFl fl sq a (.byObj b) =
        .ok (.many (ts.map fun τ => (T τ).t), .many (ts.map fun τ => (T τ).r), some ts) ∧
      ∀ τ ∈ ts, ∃ Pa Pb : List Pose, List.Forall₂ (RoundedPoseOf fl sq s τ) la Pa ∧
        List.Forall₂ (RoundedPoseOf fl sq s τ) lb Pb ∧
        (∀ Q ∈ Pa ++ Pb, IsUnitQ Q.r) ∧ T τ = (chain Pb).inv.comp (chain Pa) := by
  classical
  have hg' : ∀ i ∈ la ++ lb, ∃ d, s.data i = some d ∧ GoodData d := by simpa [FrameOk] using hg
  obtain ⟨fa, fb, e, h1, h2⟩ := getMatcher_ok h ha hb hc hla hlb (fun i hi => by
    obtain ⟨d, h1, h2⟩ := hg' i hi; exact GoodData.checked h1 h2) []
  set m : Matcher := ⟨fa ++ fb, []⟩ with hmm
  have e' : s.getMatcher a (.byObj b) [] = .ok m := e
  have eFl := getMatcherFl_ok hm e'
  have key : ∀ {inv l fs}, List.Forall₂ (FrameOf s inv) l fs → (∀ i ∈ l, i ∈ la ++ lb) →
      ∀ f ∈ fs, GoodData f.data ∧ ∀ ev, f.timestamps = some ev → f.discrete = false → StrictlyIncreasing (ev.map fl) := by
    intro inv l fs hf
    induction hf with
    | nil => simp
    | @cons i f l fs hx _ ih =>
      intro hl g hgm
      rcases List.mem_cons.mp hgm with rfl | hgm
      · obtain ⟨d, g1, g2⟩ := hg' i (hl i (List.mem_cons_self ..))
        rw [hx.1] at g1; cases g1
        refine ⟨g2, fun ev hev hdisc => hap i (hl i (List.mem_cons_self ..)) ev ?_⟩
        simp [stampsOf, hx.1, MFrame.data, hdisc, hev]
      · exact ih (fun i hi => hl i (List.mem_cons_of_mem _ hi)) g hgm
  have hgf : ∀ f ∈ fa ++ fb, GoodData f.data ∧
      ∀ ev, f.timestamps = some ev → f.discrete = false → StrictlyIncreasing (ev.map fl) := by
    intro f hf
    rcases List.mem_append.mp hf with hf | hf
    · exact key h1 (fun i hi => by simp [hi]) f hf
    · exact key h2 (fun i hi => by simp at hi; simp [hi]) f hf
  have hne : ∀ c ∈ m.continuous, c ≠ [] := by
    intro c hc
    simp only [Matcher.continuous, hmm, List.filterMap_nil, List.append_nil, List.mem_filterMap] at hc
    obtain ⟨f, hf, h3⟩ := hc
    split at h3
    · simp at h3
    · exact goodData_ne (hgf f hf).1 h3
  have hlook : ∀ ts, m.getTimestamps true = .ok ts →
      (s.lookupTransform sq a (.byObj b) =
        match transLoop sq ts m.frames (initTranslation ts, .one 1) with
        | .error e => .error e
        | .ok p => .ok (p.1, p.2, ts)) ∧
      (s.lookupTransformFl fl sq a (.byObj b) =
        match transLoopFl fl sq ts m.frames (initTranslation ts, .one 1) with
        | .error e => .error e
        | .ok p => .ok (p.1, p.2, ts)) := by
    intro ts hts
    constructor
    · simp only [State.lookupTransform, e', bind, Except.bind, Matcher.getTransformation, hts]
      cases transLoop sq ts m.frames (initTranslation ts, .one 1) <;> rfl
    · simp only [State.lookupTransformFl, eFl, bind, Except.bind, Matcher.getTransformationFl, hts]
      cases transLoopFl fl sq ts m.frames (initTranslation ts, .one 1) <;> rfl
  have hmov : ∀ ts, m.getTimestamps true = .ok (some ts) → (∀ τ ∈ ts, ∀ c ∈ m.continuous, InRange c τ) →
      m.frames ≠ [] → ∃ (t : Arr Vec) (r : Arr Quat) (T : ℝ → Pose),
        s.lookupTransform sq a (.byObj b) = .ok (t, r, some ts) ∧
        s.lookupTransformFl fl sq a (.byObj b) =
        .ok (.many (ts.map fun τ => (T τ).t), .many (ts.map fun τ => (T τ).r), some ts) ∧
      ∀ τ ∈ ts, ∃ Pa Pb : List Pose, List.Forall₂ (RoundedPoseOf fl sq s τ) la Pa ∧
        List.Forall₂ (RoundedPoseOf fl sq s τ) lb Pb ∧
        (∀ Q ∈ Pa ++ Pb, IsUnitQ Q.r) ∧ T τ = (chain Pb).inv.comp (chain Pa) := by
    intro ts hts hin hfr
    have had := fun f hf τ hτ => admissible_of_continuous (m := m) (hin τ hτ) f hf
    obtain ⟨T, t1, t2⟩ := transLoop_good sq hsq ts h1 h2 (fun f hf => (hgf f hf).1) had hfr
    obtain ⟨T', t1', t2'⟩ := transLoopFl_good hm sq hsq ts h1 h2 (fun f hf => (hgf f hf).1)
      (fun f hf => (hgf f hf).2) had hfr
    refine ⟨.many (ts.map fun τ => (T τ).t), .many (ts.map fun τ => (T τ).r), T', ?_, ?_, t2'⟩
    · rw [(hlook _ hts).1]
      simp only [initTranslation]
      rw [t1]
    · rw [(hlook _ hts).2]
      simp only [initTranslation]
      rw [t1']
  rcases getTimestamps_spec m true hne with ⟨x, xs, ts, g1, g2, g3, g4⟩ | ⟨g1, g2, g3⟩ | ⟨g1, g2, g3⟩
  · right
    have g5 := g4 (fun t => ∀ y ∈ m.continuous, InRange y t) (fun t => Iff.rfl)
    obtain ⟨t, r, T, q⟩ := hmov ts g2 (by
      intro τ hτ; rw [g5] at hτ
      simpa using (List.mem_filter.mp hτ).2) (by
      intro hf
      have hc0 : m.continuous = [] := by
        simp only [Matcher.continuous, hf]; simp [hmm]
      have := (elements_nil m true).mpr hc0
      rw [g1] at this; simp at this)
    exact ⟨t, r, ts, T, q⟩
  · right
    obtain ⟨t, r, T, q⟩ := hmov _ g3 (by rw [g1]; simp) (by
      intro hf
      apply g2; simp only [Matcher.discretes, hf]; simp)
    exact ⟨t, r, _, T, q⟩
  · left
    have hst : ∀ f ∈ m.frames, f.timestamps = none := by
      intro f hf
      by_contra hne'
      obtain ⟨ev, hev⟩ := Option.ne_none_iff_exists'.mp hne'
      cases hd : f.discrete
      · have : ev ∈ m.continuous := by
          simp only [Matcher.continuous, List.mem_append, List.mem_filterMap]
          exact .inl ⟨f, hf, by simp [hd, hev]⟩
        rw [g1] at this; simp at this
      · have : ev ∈ m.discretes := by
          simp only [Matcher.discretes, List.mem_filterMap]
          exact ⟨f, hf, by simp [hd, hev]⟩
        rw [g2] at this; simp at this
    have hx : transLoopFl fl sq none m.frames (initTranslation none, .one 1) =
        transLoop sq none m.frames (initTranslation none, .one 1) :=
      transLoopFl_exact sq (fun l hl => by simp at hl) (fun f hf l hl => by rw [hst f hf] at hl; simp at hl) _
    have h4 := hlook _ g3
    rw [hx] at h4
    have hok : ∃ p, transLoop sq none m.frames (initTranslation none, .one 1) = .ok p := by
      rcases lookup_good sq hsq h ha hb hc hla hlb hg with ⟨_, _, Pa, Pb, _, _, e5⟩ | ⟨_, ts, T, e5, _⟩
      · rw [h4.1] at e5
        cases hx : transLoop sq none m.frames (initTranslation none, .one 1) with
        | error => rw [hx] at e5; simp at e5
        | ok p => exact ⟨p, rfl⟩
      · rw [h4.1] at e5
        cases hx : transLoop sq none m.frames (initTranslation none, .one 1) with
        | error => rw [hx] at e5; simp at e5
        | ok p => exact ⟨p, rfl⟩
    obtain ⟨p, hp⟩ := hok
    rw [hp] at h4
    exact ⟨p.1, p.2, h4.1, h4.2⟩

theorem roundedTransformAt_chain {fl : ℝ → ℝ} {sq : SquadFn} {s : State} {a b c : ℕ} {la lb : List ℕ} {τ : ℝ}
    (hc : NearestCommon s a b c) (hla : PathTo s.parent c a la) (hlb : PathTo s.parent c b lb)
    {Pa Pb : List Pose} (h1 : List.Forall₂ (RoundedPoseOf fl sq s τ) la Pa)
    (h2 : List.Forall₂ (RoundedPoseOf fl sq s τ) lb Pb) (h3 : ∀ Q ∈ Pa ++ Pb, IsUnitQ Q.r) :
    RoundedTransformAt fl sq s a b τ ((chain Pb).inv.comp (chain Pa)) := by
  have na : ∀ Q ∈ Pa, Q.r ≠ 0 := fun Q hQ => (h3 Q (by simp [hQ])).ne_zero
  have nb : ∀ Q ∈ Pb, Q.r ≠ 0 := fun Q hQ => (h3 Q (by simp [hQ])).ne_zero
  have ca := chain_r_ne na
  have cb := chain_r_ne nb
  refine ⟨c, hc, ?_, ?_⟩
  · intro p
    refine ⟨_, inAncestor_chain hla h1 na p, ?_⟩
    have := inAncestor_chain hlb h2 nb (((chain Pb).inv.comp (chain Pa)).act p)
    rw [← Pose.comp_act cb (Pose.comp_r_ne (Pose.inv_r_ne cb) ca), ← Pose.comp_assoc cb (Pose.inv_r_ne cb),
      Pose.comp_inv cb, Pose.id_comp] at this
    exact this
  · intro q
    refine ⟨_, orientInAncestor_chain hla h1 q, ?_⟩
    have := orientInAncestor_chain hlb h2 (((chain Pb).inv.comp (chain Pa)).r * q)
    simp only [Pose.comp, Pose.inv, ← mul_assoc, mul_inv_cancel₀ cb, one_mul] at this
    exact this

end RBM
