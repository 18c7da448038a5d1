import Verif.Lemmas.Interp
import Verif.Lemmas.Pose

namespace RBM

open Spec

/-! ### broadcasting of rows -/

section
variable {α β γ : Type _}

theorem zipWith_map_map (ts : List ℝ) (f : α → β → γ) (g : ℝ → α) (h : ℝ → β) :
    List.zipWith f (ts.map g) (ts.map h) = ts.map fun τ => f (g τ) (h τ) := by
  induction ts with
  | nil => rfl
  | cons t ts ih => simp [ih]

theorem bzip_map_map (ts : List ℝ) (f : α → β → γ) (g : ℝ → α) (h : ℝ → β) :
    Arr.bzip f (.many (ts.map g)) (.many (ts.map h)) = .ok (.many (ts.map fun τ => f (g τ) (h τ))) := by
  simp [Arr.bzip, zipWith_map_map]

theorem bzip_map_single (ts : List ℝ) (f : α → β → γ) (g : ℝ → α) (b : β) :
    Arr.bzip f (.many (ts.map g)) (.many [b]) = .ok (.many (ts.map fun τ => f (g τ) b)) := by
  match ts with
  | [] => simp [Arr.bzip]
  | [t] => simp [Arr.bzip]
  | t :: t' :: ts => simp [Arr.bzip]

theorem bzip_single_map (ts : List ℝ) (f : α → β → γ) (a : α) (h : ℝ → β) :
    Arr.bzip f (.many [a]) (.many (ts.map h)) = .ok (.many (ts.map fun τ => f a (h τ))) := by
  match ts with
  | [] => simp [Arr.bzip]
  | [t] => simp [Arr.bzip]
  | t :: t' :: ts => simp [Arr.bzip]

theorem bzip_map_one (ts : List ℝ) (f : α → β → γ) (g : ℝ → α) (b : β) :
    Arr.bzip f (.many (ts.map g)) (.one b) = .ok (.many (ts.map fun τ => f (g τ) b)) := by
  simp [Arr.bzip]

theorem collect_map {ts : List ℝ} {f : ℝ → Res α} {g : ℝ → α} (h : ∀ t ∈ ts, f t = .ok (g t)) :
    collect (ts.map f) = .ok (ts.map g) := by
  induction ts with
  | nil => rfl
  | cons t ts ih =>
    simp only [List.map_cons, collect, h t (by simp)]
    rw [ih fun t ht => h t (List.mem_cons_of_mem _ ht)]

end

/-! ### frames -/

/-- The `FrameData` recorded in a matcher frame. -/
def MFrame.data (f : MFrame) : FrameData := ⟨some (f.translation, f.rotation), f.timestamps, f.discrete⟩

/-- `τ` is admissible for frame data `d`: in range if continuous. -/
def Admissible (d : FrameData) (τ : ℝ) : Prop :=
  ∀ ev, d.timestamps = some ev → d.discrete = false → InRange ev τ

theorem inRange_getD {c : List ℝ} (hc : c ≠ []) {τ : ℝ} (h : InRange c τ) :
    c.getD 0 0 ≤ τ ∧ τ ≤ c.getD (c.length - 1) 0 := by
  have hl : 0 < c.length := List.length_pos_iff.mpr hc
  constructor
  · rw [getD_eq hl]; exact h.1 _ (by rw [List.head?_eq_getElem?]; exact List.getElem?_eq_getElem hl)
  · rw [getD_eq (by omega)]
    exact h.2 _ (by rw [List.getLast?_eq_getElem?]; exact List.getElem?_eq_getElem (by omega))

/-- Resampling a good frame at admissible times is the pose function. -/
theorem transformFromFrame_good (sq : SquadFn) {f : MFrame} (hf : GoodData f.data) (ts : List ℝ)
    (hts : ∀ τ ∈ ts, Admissible f.data τ) :
    ∃ g : ℝ → Pose, transformFromFrame sq f (some ts) =
      .ok (.many (ts.map fun τ => (g τ).t), .many (ts.map fun τ => (g τ).r)) ∧
      (∀ τ ∈ ts, IsPoseAt sq f.data τ (g τ)) ∧
      (SquadLaw sq → ∀ τ ∈ ts, IsUnitQ (g τ).r) := by
  obtain ⟨tr, ro, tst, disc, inv⟩ := f
  simp only [MFrame.data] at hf
  generalize hd : (⟨some (tr, ro), tst, disc⟩ : FrameData) = d at hf
  cases hf with
  | @static t r hu =>
    cases hd
    refine ⟨fun _ => ⟨t, r⟩, ?_, ?_, ?_⟩
    · simp [transformFromFrame, tileRows, List.map_const']
    · intro τ _; exact .static
    · intro _ τ _; exact hu
  | @discrete tr ro ev hl1 hl2 hne hmono hu =>
    cases hd
    cases tr with
    | nil => simp at hl1; exact absurd (List.length_eq_zero_iff.mp hl1.symm) hne
    | cons t0 tr =>
      cases ro with
      | nil => simp at hl2; exact absurd (List.length_eq_zero_iff.mp hl2.symm) hne
      | cons r0 ro =>
        refine ⟨fun τ => ⟨holdAt (t0 :: tr) ev t0 τ, holdAt (r0 :: ro) ev r0 τ⟩, ?_, ?_, ?_⟩
        · simp [transformFromFrame, discreteRows_eq]
        · intro τ _
          obtain ⟨k, hk, e1⟩ := holdAt_spec hl1 hmono hne (r0 := t0) (by simp) τ
          obtain ⟨k', hk', e2⟩ := holdAt_spec hl2 hmono hne (r0 := r0) (by simp) τ
          have := hk.unique hk'
          subst this
          exact .discrete hk e1 e2
        · intro _ τ _
          obtain ⟨k', hk', e2⟩ := holdAt_spec hl2 hmono hne (r0 := r0) (by simp) τ
          exact hu _ (List.mem_of_getElem? e2)
  | @continuous tr ro ev hl1 hl2 hn hs hu =>
    cases hd
    have hne : ev ≠ [] := by rintro rfl; simp at hn
    have hin : ∀ τ ∈ ts, InRange ev τ := fun τ hτ => hts τ hτ ev rfl rfl
    have hex : ∀ τ, ∃ v : Vec, τ ∈ ts → interpAt ev tr τ = .ok v ∧ IsLinInterp ev tr τ v := by
      intro τ
      by_cases hτ : τ ∈ ts
      · have h2 := inRange_getD hne (hin τ hτ)
        obtain ⟨v, h3, h4⟩ := interpAt_spec (ys := tr) hs hn hl1 h2.1 h2.2
        exact ⟨v, fun _ => ⟨h3, h4⟩⟩
      · exact ⟨0, fun h => absurd h hτ⟩
    choose v hv using hex
    refine ⟨fun τ => ⟨v τ, sq ro ev τ⟩, ?_, ?_, ?_⟩
    · have h1 : interp1d ev tr ts = .ok (ts.map v) := by
        simp only [interp1d, hl1, ne_eq, not_true, if_false]
        rw [if_neg, collect_map fun t ht => (hv t ht).1]
        rintro ⟨t, ht, h⟩
        have h2 := inRange_getD hne (hin t ht)
        rcases h with h | h <;> linarith [h2.1, h2.2]
      have h2 : squad sq ro ev ts = .ok (ts.map (sq ro ev)) := by
        simp only [squad]
        have : ro ≠ [] := by rintro rfl; simp at hl2; omega
        by_cases hts0 : ts = []
        · simp [hts0]
        · rw [if_neg (by simp [this, hts0]), if_neg (by omega)]
      simp only [transformFromFrame, h1, h2]
      rfl
    · intro τ hτ; exact .continuous (hv τ hτ).2
    · intro hlaw τ hτ
      exact hlaw.unit _ _ _ hl2 hn hs hu (hin τ hτ).1 (hin τ hτ).2

/-- Poses of good frames are unique. -/
theorem isPoseAt_unique {sq : SquadFn} {d : FrameData} (hd : GoodData d) {τ : ℝ} {P Q : Pose}
    (h : IsPoseAt sq d τ P) (h' : IsPoseAt sq d τ Q) : P = Q := by
  cases hd with
  | static => cases h; cases h'; rfl
  | discrete =>
    cases h with
    | discrete h1 h2 h3 => cases h' with
      | discrete g1 g2 g3 =>
        have := h1.unique g1; subst this
        rw [h2] at g2; rw [h3] at g3; cases g2; cases g3; rfl
  | continuous _ _ _ hs =>
    cases h with
    | continuous h1 => cases h' with
      | continuous g1 => rw [h1.unique hs g1]

/-! ### the loop -/

theorem zero_notMem_of_unit {ts : List ℝ} {g : ℝ → Quat} (h : ∀ τ ∈ ts, IsUnitQ (g τ)) :
    (0 : Quat) ∉ ts.map g := by
  intro hm
  obtain ⟨τ, hτ, e⟩ := List.mem_map.mp hm
  exact (h τ hτ).ne_zero e

theorem map_congr_on {α} {ts : List ℝ} {f g : ℝ → α} (h : ∀ τ ∈ ts, f τ = g τ) :
    ts.map f = ts.map g := List.map_congr_left h

/-- One step on full series. -/
theorem transStep_many (sq : SquadFn) (ts : List ℝ) (f : MFrame) (g acc : ℝ → Pose)
    (h : transformFromFrame sq f (some ts) =
      .ok (.many (ts.map fun τ => (g τ).t), .many (ts.map fun τ => (g τ).r)))
    (hu : ∀ τ ∈ ts, IsUnitQ (g τ).r) :
    transStep sq (some ts) f
      (.many (ts.map fun τ => (acc τ).t), .many (ts.map fun τ => (acc τ).r)) =
    .ok (.many (ts.map fun τ => (stepP (f.inverse, g τ) (acc τ)).t),
         .many (ts.map fun τ => (stepP (f.inverse, g τ) (acc τ)).r)) := by
  have h0 := zero_notMem_of_unit (g := fun τ => (g τ).r) hu
  have h0' := zero_notMem_of_unit (g := fun τ => (g τ).r⁻¹) (fun τ hτ => (hu τ hτ).inv)
  cases hi : f.inverse
  · simp only [transStep, h, hi, bind, Except.bind, rotateVectors, bzip_map_map, h0, if_false,
      Pure.pure, Except.pure, Bool.false_eq_true]
    congr 3
    refine map_congr_on fun τ hτ => ?_
    simp [stepP, Pose.comp, crossForm_eq_rot _ (hu τ hτ)]
  · simp only [transStep, h, hi, bind, Except.bind, qinvArr, h0, if_false, List.map_map,
      rotateVectors, if_true]
    have e1 : ((fun x : Quat => x⁻¹) ∘ fun τ => (g τ).r) = fun τ => (g τ).r⁻¹ := rfl
    rw [e1]
    simp only [bzip_map_map, h0', if_false, Pure.pure, Except.pure]
    congr 3
    refine map_congr_on fun τ hτ => ?_
    rw [crossForm_eq_rot _ (hu τ hτ).inv]
    simp [stepP, Pose.comp, Pose.inv, rot_sub, rot_neg]
    abel

/-- The first step starts from `np.zeros((1, 3))` and the scalar quaternion 1. -/
theorem transStep_init (sq : SquadFn) (ts : List ℝ) (f : MFrame) (g : ℝ → Pose)
    (h : transformFromFrame sq f (some ts) =
      .ok (.many (ts.map fun τ => (g τ).t), .many (ts.map fun τ => (g τ).r)))
    (hu : ∀ τ ∈ ts, IsUnitQ (g τ).r) :
    transStep sq (some ts) f (.many [0], .one 1) =
    .ok (.many (ts.map fun τ => (stepP (f.inverse, g τ) Pose.id).t),
         .many (ts.map fun τ => (stepP (f.inverse, g τ) Pose.id).r)) := by
  have h0 := zero_notMem_of_unit (g := fun τ => (g τ).r) hu
  have h0' := zero_notMem_of_unit (g := fun τ => (g τ).r⁻¹) (fun τ hτ => (hu τ hτ).inv)
  cases hi : f.inverse
  · simp only [transStep, h, hi, bind, Except.bind, rotateVectors, bzip_map_single, bzip_map_map, h0, if_false,
      Pure.pure, Except.pure, Bool.false_eq_true, bzip_map_one]
    congr 3
    refine map_congr_on fun τ hτ => ?_
    simp [stepP, Pose.comp, Pose.id, crossForm_eq_rot _ (hu τ hτ)]
  · simp only [transStep, h, hi, bind, Except.bind, qinvArr, h0, if_false, List.map_map,
      rotateVectors, if_true, bzip_single_map]
    have e1 : ((fun x : Quat => x⁻¹) ∘ fun τ => (g τ).r) = fun τ => (g τ).r⁻¹ := rfl
    rw [e1]
    simp only [bzip_map_map, h0', if_false, Pure.pure, Except.pure, bzip_map_one]
    congr 3
    refine map_congr_on fun τ hτ => ?_
    rw [crossForm_eq_rot _ (hu τ hτ).inv]
    simp [stepP, Pose.comp, Pose.inv, Pose.id]

/-- Frames and their pose functions. -/
def Resampled (sq : SquadFn) (ts : List ℝ) (f : MFrame) (g : ℝ → Pose) : Prop :=
  transformFromFrame sq f (some ts) =
      .ok (.many (ts.map fun τ => (g τ).t), .many (ts.map fun τ => (g τ).r)) ∧
  (∀ τ ∈ ts, IsUnitQ (g τ).r)

theorem transLoop_many (sq : SquadFn) (ts : List ℝ) {fs : List MFrame} {gs : List (ℝ → Pose)}
    (h : List.Forall₂ (Resampled sq ts) fs gs) (acc : ℝ → Pose) :
    transLoop sq (some ts) fs
      (.many (ts.map fun τ => (acc τ).t), .many (ts.map fun τ => (acc τ).r)) =
    .ok (.many (ts.map fun τ => (foldP (List.zipWith (fun f g => (f.inverse, g τ)) fs gs) (acc τ)).t),
         .many (ts.map fun τ => (foldP (List.zipWith (fun f g => (f.inverse, g τ)) fs gs) (acc τ)).r)) := by
  induction h generalizing acc with
  | nil => simp [transLoop, foldP]
  | @cons f g fs gs hfg _ ih =>
    simp only [transLoop, transStep_many sq ts f g acc hfg.1 hfg.2]
    have := ih (fun τ => stepP (f.inverse, g τ) (acc τ))
    rw [this]
    simp [foldP]

theorem transLoop_init (sq : SquadFn) (ts : List ℝ) {fs : List MFrame} {gs : List (ℝ → Pose)}
    (h : List.Forall₂ (Resampled sq ts) fs gs) (hne : fs ≠ []) :
    transLoop sq (some ts) fs (.many [0], .one 1) =
    .ok (.many (ts.map fun τ => (foldP (List.zipWith (fun f g => (f.inverse, g τ)) fs gs) Pose.id).t),
         .many (ts.map fun τ => (foldP (List.zipWith (fun f g => (f.inverse, g τ)) fs gs) Pose.id).r)) := by
  cases h with
  | nil => exact absurd rfl hne
  | @cons f g fs gs hfg h =>
    simp only [transLoop, transStep_init sq ts f g hfg.1 hfg.2]
    rw [transLoop_many sq ts h (fun τ => stepP (f.inverse, g τ) Pose.id)]
    simp [foldP]

/-- A static matcher frame with pose `P`. -/
def IsStaticFrame (f : MFrame) (P : Pose) : Prop :=
  f.timestamps = none ∧ f.translation = .one P.t ∧ f.rotation = .one P.r ∧ P.r ≠ 0

theorem transLoop_static (sq : SquadFn) {fs : List MFrame} {Ps : List Pose}
    (h : List.Forall₂ IsStaticFrame fs Ps) (acc : Pose) :
    transLoop sq none fs (.one acc.t, .one acc.r) =
    .ok (.one (foldP (List.zipWith (fun f P => (f.inverse, P)) fs Ps) acc).t,
         .one (foldP (List.zipWith (fun f P => (f.inverse, P)) fs Ps) acc).r) := by
  induction h generalizing acc with
  | nil => simp [transLoop, foldP]
  | @cons f P fs Ps hf _ ih =>
    obtain ⟨h1, h2, h3, h4⟩ := hf
    have hstep : transStep sq none f (.one acc.t, .one acc.r) =
        .ok (.one (stepP (f.inverse, P) acc).t, .one (stepP (f.inverse, P) acc).r) := by
      cases hi : f.inverse
      · simp [transStep, transformFromFrame, h1, h2, h3, hi, bind, Except.bind, rotateVectors, h4,
          Arr.map, Arr.bzip, Pure.pure, Except.pure, stepP, Pose.comp, rotMat_eq_rot _ h4]
      · simp [transStep, transformFromFrame, h1, h2, h3, hi, bind, Except.bind, rotateVectors, h4,
          Arr.map, Arr.bzip, Pure.pure, Except.pure, stepP, Pose.comp, Pose.inv, qinvArr,
          rotMat_eq_rot _ (inv_ne_zero h4), rot_sub, rot_neg]
        abel
    simp only [transLoop, hstep, ih]
    simp [foldP]

/-! ### timestamps -/

theorem foldl_max_le (l : List ℝ) (a t : ℝ) : l.foldl max a ≤ t ↔ a ≤ t ∧ ∀ b ∈ l, b ≤ t := by
  induction l generalizing a with
  | nil => simp
  | cons x l ih => simp [ih, and_assoc]

theorem le_foldl_min (l : List ℝ) (a t : ℝ) : t ≤ l.foldl min a ↔ t ≤ a ∧ ∀ b ∈ l, t ≤ b := by
  induction l generalizing a with
  | nil => simp
  | cons x l ih => simp [ih, and_assoc]

theorem firstStamps_ok {cs : List (List ℝ)} (h : ∀ c ∈ cs, c ≠ []) :
    ∃ fs, firstStamps cs = .ok fs ∧ (∀ t, (∀ m, npMax fs = some m → m ≤ t) ↔
      ∀ c ∈ cs, ∀ x, c.head? = some x → x ≤ t) := by
  have : ∃ fs, firstStamps cs = .ok fs ∧ ∀ x, x ∈ fs ↔ ∃ c ∈ cs, c.head? = some x := by
    induction cs with
    | nil => exact ⟨[], rfl, by simp⟩
    | cons c cs ih =>
      obtain ⟨fs, e, hm⟩ := ih fun d hd => h d (List.mem_cons_of_mem _ hd)
      cases c with
      | nil => exact absurd rfl (h [] (by simp))
      | cons a c =>
        refine ⟨a :: fs, by simp [firstStamps, e], ?_⟩
        intro x; simp [hm, eq_comm]
  obtain ⟨fs, e, hm⟩ := this
  refine ⟨fs, e, fun t => ?_⟩
  have h2 : (∀ m, npMax fs = some m → m ≤ t) ↔ ∀ x ∈ fs, x ≤ t := by
    cases fs with
    | nil => simp [npMax]
    | cons a fs => simp [npMax, foldl_max_le]
  rw [h2]
  constructor
  · intro hx c hc x hcx; exact hx x ((hm x).mpr ⟨c, hc, hcx⟩)
  · intro hx x hxf; obtain ⟨c, hc, hcx⟩ := (hm x).mp hxf; exact hx c hc x hcx

theorem lastStamps_ok {cs : List (List ℝ)} (h : ∀ c ∈ cs, c ≠ []) :
    ∃ fs, lastStamps cs = .ok fs ∧ (∀ t, (∀ m, npMin fs = some m → t ≤ m) ↔
      ∀ c ∈ cs, ∀ x, c.getLast? = some x → t ≤ x) := by
  have : ∃ fs, lastStamps cs = .ok fs ∧ ∀ x, x ∈ fs ↔ ∃ c ∈ cs, c.getLast? = some x := by
    induction cs with
    | nil => exact ⟨[], rfl, by simp⟩
    | cons c cs ih =>
      obtain ⟨fs, e, hm⟩ := ih fun d hd => h d (List.mem_cons_of_mem _ hd)
      cases c with
      | nil => exact absurd rfl (h [] (by simp))
      | cons a c =>
        refine ⟨(a :: c).getLast (by simp) :: fs, by simp [lastStamps, e], ?_⟩
        intro x; simp [hm, eq_comm, List.getLast?_eq_getLast_of_ne_nil]
  obtain ⟨fs, e, hm⟩ := this
  refine ⟨fs, e, fun t => ?_⟩
  have h2 : (∀ m, npMin fs = some m → t ≤ m) ↔ ∀ x ∈ fs, t ≤ x := by
    cases fs with
    | nil => simp [npMin]
    | cons a fs => simp [npMin, le_foldl_min]
  rw [h2]
  constructor
  · intro hx c hc x hcx; exact hx x ((hm x).mpr ⟨c, hc, hcx⟩)
  · intro hx x hxf; obtain ⟨c, hc, hcx⟩ := (hm x).mp hxf; exact hx c hc x hcx

/-- Timestamps of the elements in order of precedence. -/
def Matcher.elements (m : Matcher) (arraysFirst : Bool) : List (List ℝ) :=
  let arrays := m.arrays.filterMap (·.timestamps)
  let continuous := m.frames.filterMap fun f => if f.discrete then none else f.timestamps
  if arraysFirst then arrays ++ continuous else continuous ++ arrays

/-- Timestamps of discrete frames. -/
def Matcher.discretes (m : Matcher) : List (List ℝ) :=
  m.frames.filterMap fun f => if f.discrete then f.timestamps else none

theorem mem_elements (m : Matcher) (af : Bool) (c : List ℝ) :
    c ∈ m.elements af ↔ c ∈ m.continuous := by
  simp only [Matcher.elements, Matcher.continuous]
  split <;> simp only [List.mem_append]
  tauto

theorem elements_nil (m : Matcher) (af : Bool) : m.elements af = [] ↔ m.continuous = [] := by
  constructor
  · intro h
    apply List.eq_nil_iff_forall_not_mem.mpr
    intro c hc; rw [← mem_elements m af, h] at hc; simp at hc
  · intro h
    apply List.eq_nil_iff_forall_not_mem.mpr
    intro c hc; rw [mem_elements m af, h] at hc; simp at hc

/-- Complete description of `get_timestamps` when no continuous element is empty. -/
theorem getTimestamps_spec (m : Matcher) (af : Bool) (h : ∀ c ∈ m.continuous, c ≠ []) :
    (∃ c cs ts, m.elements af = c :: cs ∧ m.getTimestamps af = .ok (some ts) ∧
      (ts.Sublist c ∧ ∀ (P : ℝ → Prop) [DecidablePred P], (∀ t, P t ↔ ∀ c ∈ m.continuous, InRange c t) →
        ts = c.filter fun t => decide (P t))) ∨
    (m.continuous = [] ∧ m.discretes ≠ [] ∧
      m.getTimestamps af = .ok (some (npUnique m.discretes.flatten))) ∨
    (m.continuous = [] ∧ m.discretes = [] ∧ m.getTimestamps af = .ok none) := by
  classical
  obtain ⟨fs, e1, hf⟩ := firstStamps_ok h
  obtain ⟨ls, e2, hl⟩ := lastStamps_ok h
  have hr : m.getRange = .ok (npMax fs, npMin ls) := by simp [Matcher.getRange, e1, e2]
  cases he : m.elements af with
  | cons c cs =>
    left
    refine ⟨c, cs, selectRange (npMax fs, npMin ls) c, rfl, ?_, ?_, ?_⟩
    · simp only [Matcher.getTimestamps, hr]
      simp only [Matcher.elements] at he
      rw [he]
    · simp only [selectRange]; exact List.filter_sublist
    · intro P _ hP
      simp only [selectRange]
      apply List.filter_congr
      intro t _
      have : ((∀ f, npMax fs = some f → f ≤ t) ∧ (∀ l, npMin ls = some l → t ≤ l)) ↔ P t := by
        rw [hf, hl, hP]
        simp only [InRange]
        exact ⟨fun h c hc => ⟨h.1 c hc, h.2 c hc⟩, fun h => ⟨fun c hc => (h c hc).1, fun c hc => (h c hc).2⟩⟩
      simp only [this]
  | nil =>
    right
    have hc := (elements_nil m af).mp he
    simp only [Matcher.elements] at he
    cases hd : m.discretes with
    | nil =>
      right
      refine ⟨hc, rfl, ?_⟩
      simp only [Matcher.discretes] at hd
      simp only [Matcher.getTimestamps, hr, he, hd]
    | cons d ds =>
      left
      refine ⟨hc, by simp, ?_⟩
      simp only [Matcher.discretes] at hd
      simp only [Matcher.getTimestamps, hr, he, hd]

theorem mem_npUnique (l : List ℝ) (x : ℝ) : x ∈ npUnique l ↔ x ∈ l := by
  have hins : ∀ a (l : List ℝ), x ∈ insertUnique a l ↔ x = a ∨ x ∈ l := by
    intro a l
    induction l with
    | nil => simp [insertUnique]
    | cons b l ih =>
      simp only [insertUnique]
      split
      · simp
      · split
        · rename_i h; subst h; simp
        · simp [ih]; tauto
  induction l with
  | nil => simp [npUnique]
  | cons a l ih =>
    have h1 : x ∈ npUnique (a :: l) ↔ x = a ∨ x ∈ npUnique l := hins a (npUnique l)
    rw [h1, List.mem_cons]
    exact or_congr Iff.rfl ih

theorem npUnique_sorted (l : List ℝ) : StrictlyIncreasing (npUnique l) := by
  have hmem : ∀ x a (l : List ℝ), x ∈ insertUnique a l → x = a ∨ x ∈ l := by
    intro x a l
    induction l with
    | nil => simp [insertUnique]
    | cons b l ih =>
      simp only [insertUnique]
      split
      · simp
      · split
        · intro h; right; exact h
        · intro h
          rcases List.mem_cons.mp h with h | h
          · right; simp [h]
          · rcases ih h with h | h
            · left; exact h
            · right; simp [h]
  have hins : ∀ a (l : List ℝ), StrictlyIncreasing l → StrictlyIncreasing (insertUnique a l) := by
    intro a l
    induction l with
    | nil => intro _; simp [insertUnique, StrictlyIncreasing]
    | cons b l ih =>
      intro h
      have hp := List.pairwise_cons.mp h
      simp only [insertUnique]
      split
      · rename_i hab
        refine List.pairwise_cons.mpr ⟨?_, h⟩
        intro x hx
        rcases List.mem_cons.mp hx with rfl | hx
        · exact hab
        · exact lt_trans hab (hp.1 x hx)
      · split
        · exact h
        · rename_i h1 h2
          refine List.pairwise_cons.mpr ⟨?_, ih hp.2⟩
          intro x hx
          rcases hmem x a l hx with rfl | hx
          · exact lt_of_le_of_ne (not_lt.mp h1) (Ne.symm h2)
          · exact hp.1 x hx
  induction l with
  | nil => simp [npUnique, StrictlyIncreasing]
  | cons a l ih => exact hins a _ ih

/-! ### the monotonicity check -/

theorem anyDecrease_iff (l : List ℝ) : ¬ anyDecrease l ↔ NonDecreasing l := by
  induction l with
  | nil => simp [anyDecrease, NonDecreasing]
  | cons a l ih =>
    cases l with
    | nil => simp [anyDecrease, NonDecreasing]
    | cons b l =>
      simp only [anyDecrease, not_or, ih, NonDecreasing]
      constructor
      · rintro ⟨h1, h2⟩
        refine List.pairwise_cons.mpr ⟨?_, h2⟩
        intro x hx
        have hp := List.pairwise_cons.mp h2
        rcases List.mem_cons.mp hx with rfl | hx
        · linarith
        · linarith [hp.1 x hx]
      · intro h
        have hp := List.pairwise_cons.mp h
        exact ⟨by linarith [hp.1 b (by simp)], hp.2⟩

theorem checkTimestamps_ok {ts : List ℝ} {n : ℕ} (hs : NonDecreasing ts) (hn : ts.length = n) :
    checkTimestamps (some ts) n = .ok () := by
  simp [checkTimestamps, (anyDecrease_iff ts).mpr hs, hn]

theorem goodData_check {f : MFrame} (h : GoodData f.data) :
    checkTimestamps f.timestamps (firstLen f.translation) = .ok () := by
  obtain ⟨tr, ro, tst, disc, inv⟩ := f
  simp only [MFrame.data] at h
  generalize hd : (⟨some (tr, ro), tst, disc⟩ : FrameData) = d at h
  cases h with
  | static => cases hd; rfl
  | discrete h1 h2 h3 h4 => cases hd; exact checkTimestamps_ok h4 h1.symm
  | continuous h1 h2 h3 h4 => cases hd; exact checkTimestamps_ok h4.nonDecreasing h1.symm

end RBM
