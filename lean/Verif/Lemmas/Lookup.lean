import Verif.Lemmas.Matcher
import Verif.Lemmas.Walk

namespace RBM

open Spec

/-! ### paths -/

theorem Spec.PathTo.unique {par : ℕ → Option ℕ} {c a : ℕ} {l l' : List ℕ} (h : PathTo par c a l)
    (h' : PathTo par c a l') : l = l' := by
  induction h generalizing l' with
  | here => cases h' with
    | here => rfl
    | up hn => exact absurd rfl hn
  | up hn hp _ ih => cases h' with
    | here => exact absurd rfl hn
    | up _ hp' h'' => rw [hp] at hp'; cases hp'; rw [ih h'']

theorem pathTo_exists {s : State} (h : WF s) {a d : ℕ} (hd : AncestorOrSelf s a d) :
    ∃ l, PathTo s.parent d a l := by
  induction hd using Relation.ReflTransGen.head_induction_on with
  | refl => exact ⟨[], .here⟩
  | @head x y hxy hyd ih =>
    obtain ⟨l, hl⟩ := ih
    refine ⟨x :: l, .up ?_ hxy hl⟩
    rintro rfl
    exact h.acyclic x (Relation.TransGen.head'_iff.mpr ⟨y, hxy, hyd⟩)

theorem Spec.NearestCommon.unique {s : State} (h : WF s) {a b c c' : ℕ} (h1 : NearestCommon s a b c)
    (h2 : NearestCommon s a b c') : c = c' := by
  have e1 := h1.2.2 c' h2.1 h2.2.1
  have e2 := h2.2.2 c h1.1 h1.2.1
  rcases Relation.reflTransGen_iff_eq_or_transGen.mp e1 with e | e
  · exact e.symm
  · exact absurd (Relation.TransGen.trans_left e e2) (h.acyclic c)

theorem Spec.PathTo.append {s : State} (h : WF s) {a c d : ℕ} {l m : List ℕ} (h1 : PathTo s.parent c a l)
    (h2 : PathTo s.parent d c m) : PathTo s.parent d a (l ++ m) := by
  induction h1 with
  | here => simpa using h2
  | @up x p l hn hp h1 ih =>
    refine .up ?_ hp ih
    rintro rfl
    have : AncestorOrSelf s p x := (ancestorOrSelf_of_pathTo h1).trans (ancestorOrSelf_of_pathTo h2)
    exact h.acyclic x (Relation.TransGen.head' hp this)

theorem ancestors_comparable {s : State} {b d1 d2 : ℕ} (h1 : AncestorOrSelf s b d1)
    (h2 : AncestorOrSelf s b d2) : AncestorOrSelf s d1 d2 ∨ AncestorOrSelf s d2 d1 := by
  induction h1 using Relation.ReflTransGen.head_induction_on with
  | refl => exact .inl h2
  | @head x y hxy hyd ih =>
    rcases Relation.ReflTransGen.cases_head h2 with rfl | ⟨z, hz, h3⟩
    · exact .inr (.head hxy hyd)
    · have : y = z := Option.some.inj (hxy.symm.trans hz)
      subst this
      exact ih h3

/-- The walk, given the nearest common ancestor and paths to it. -/
theorem walk_eq {s : State} (h : WF s) {a b : ℕ} (ha : a < s.size) (hb : b < s.size) {c : ℕ}
    {la lb : List ℕ} (hc : NearestCommon s a b c) (hla : PathTo s.parent c a la)
    (hlb : PathTo s.parent c b lb) : walkPaths (s.path a) (s.path b) = .ok (la, lb.reverse) := by
  rcases walk_spec h ha hb with ⟨hn, _⟩ | ⟨c', up, down, hc', hu, hd, e⟩
  · exact absurd ⟨c, hc.1, hc.2.1⟩ hn
  · have := hc.unique h hc'
    subst this
    rw [e, hla.unique hu, hlb.unique hd, List.reverse_reverse]

/-! ### building the matcher -/

/-- A path frame as it appears in the matcher. -/
def FrameOf (s : State) (inv : Bool) (i : ℕ) (f : MFrame) : Prop := s.data i = some f.data ∧ f.inverse = inv

theorem addFrames_ok {s : State} {inv : Bool} {l : List ℕ} {m : Matcher}
    (h : ∀ i ∈ l, ∃ d p, s.data i = some d ∧ d.pose = some p ∧
      checkTimestamps d.timestamps (firstLen p.1) = .ok ()) :
    ∃ fs, s.addFrames inv l m = .ok { m with frames := m.frames ++ fs } ∧
      List.Forall₂ (FrameOf s inv) l fs := by
  induction l generalizing m with
  | nil => exact ⟨[], by simp [State.addFrames], .nil⟩
  | cons i l ih =>
    obtain ⟨d, p, h1, h2, h3⟩ := h i (by simp)
    obtain ⟨t, r⟩ := p
    set f : MFrame := ⟨t, r, d.timestamps, d.discrete, inv⟩ with hf
    obtain ⟨fs, e, hfs⟩ := ih (m := { m with frames := m.frames ++ [f] })
      (fun j hj => h j (List.mem_cons_of_mem _ hj))
    refine ⟨f :: fs, ?_, .cons ⟨?_, rfl⟩ hfs⟩
    · have e1 : s.addFrame m i inv = .ok { m with frames := m.frames ++ [f] } := by
        simp only [State.addFrame, h1, h2, Matcher.addFrame]
        rw [← hf] at *
        simp only [hf] at h3 ⊢
        rw [h3]
      simp only [State.addFrames, e1, e]
      simp
    · rw [h1]; simp only [MFrame.data, hf]
      cases d; simp_all

/-- Frames that pass the checks of the matcher. -/
def Checked (s : State) (i : ℕ) : Prop :=
  ∃ d p, s.data i = some d ∧ d.pose = some p ∧ checkTimestamps d.timestamps (firstLen p.1) = .ok ()

theorem GoodData.checked {s : State} {i : ℕ} {d : FrameData} (hd : s.data i = some d) (h : GoodData d) :
    Checked s i := by
  have : ∃ f : MFrame, f.data = d := by
    cases h with
    | @static t r => exact ⟨⟨.one t, .one r, none, false, false⟩, rfl⟩
    | @discrete tr ro ev => exact ⟨⟨.many tr, .many ro, some ev, true, false⟩, rfl⟩
    | @continuous tr ro ev => exact ⟨⟨.many tr, .many ro, some ev, false, false⟩, rfl⟩
  obtain ⟨f, rfl⟩ := this
  exact ⟨_, _, hd, rfl, goodData_check h⟩

theorem getMatcher_ok {s : State} (h : WF s) {a b : ℕ} (ha : a < s.size) (hb : b < s.size) {c : ℕ}
    {la lb : List ℕ} (hc : NearestCommon s a b c) (hla : PathTo s.parent c a la)
    (hlb : PathTo s.parent c b lb) (hok : ∀ i ∈ la ++ lb, Checked s i) (arrays : List MArray) :
    ∃ fa fb, s.getMatcher a (.byObj b) arrays = addArrays arrays ⟨fa ++ fb, []⟩ ∧
      List.Forall₂ (FrameOf s false) la fa ∧
      List.Forall₂ (FrameOf s true) lb.reverse fb := by
  obtain ⟨fa, e1, h1⟩ := addFrames_ok (s := s) (inv := false) (l := la) (m := Matcher.empty)
    (fun i hi => hok i (by simp [hi]))
  obtain ⟨fb, e2, h2⟩ := addFrames_ok (s := s) (inv := true) (l := lb.reverse) (m := ⟨fa, []⟩)
    (fun i hi => hok i (by simp at hi; simp [hi]))
  refine ⟨fa, fb, ?_, h1, h2⟩
  have hw : s.walk a (.byObj b) = .ok (la, lb.reverse) := by
    simp [State.walk, State.resolve, walk_eq h ha hb hc hla hlb]
  simp only [State.getMatcher, hw, bind, Except.bind, e1]
  simp only [Matcher.empty, List.nil_append, e2]

/-- Poses along a pair of paths folded by the loop. -/
theorem foldP_paths {fa fb : List MFrame} {Pa Pb : List Pose} (ha : ∀ f ∈ fa, f.inverse = false)
    (hb : ∀ f ∈ fb, f.inverse = true) (hla : fa.length = Pa.length) (hlb : fb.length = Pb.length)
    (hPa : ∀ Q ∈ Pa, Q.r ≠ 0) (hPb : ∀ Q ∈ Pb, Q.r ≠ 0) :
    foldP (List.zipWith (fun f P => (f.inverse, P)) (fa ++ fb) (Pa ++ Pb.reverse)) Pose.id =
      (chain Pb).inv.comp (chain Pa) := by
  have key : ∀ (v : Bool) (fs : List MFrame) (Ps : List Pose), (∀ f ∈ fs, f.inverse = v) →
      fs.length = Ps.length →
      List.zipWith (fun (f : MFrame) P => (f.inverse, P)) fs Ps = Ps.map fun Q => (v, Q) := by
    intro v fs
    induction fs with
    | nil => intro Ps _ hl; simp at hl; simp [List.length_eq_zero_iff.mp hl.symm]
    | cons f fs ih =>
      intro Ps hv hl
      cases Ps with
      | nil => simp at hl
      | cons P Ps =>
        simp only [List.zipWith_cons_cons, List.map_cons, hv f (by simp)]
        rw [ih Ps (fun g hg => hv g (List.mem_cons_of_mem _ hg)) (by simpa using hl)]
  rw [List.zipWith_append hla, key false fa Pa ha hla, key true fb Pb.reverse hb (by simpa using hlb),
    foldP_append, foldP_up hPa, Pose.comp_id, foldP_down (fun Q hQ => hPb Q (List.mem_reverse.mp hQ)),
    List.reverse_reverse]


theorem resampled_exists (sq : SquadFn) (hsq : SquadLaw sq) (ts : List ℝ) {s : State} {inv : Bool}
    {l : List ℕ} {fs : List MFrame} (h : List.Forall₂ (FrameOf s inv) l fs)
    (hg : ∀ f ∈ fs, GoodData f.data) (had : ∀ f ∈ fs, ∀ τ ∈ ts, Admissible f.data τ) :
    ∃ gs : List (ℝ → Pose), List.Forall₂ (Resampled sq ts) fs gs ∧
      ∀ τ ∈ ts, List.Forall₂ (PoseOf sq s τ) l (gs.map fun g => g τ) ∧ ∀ Q ∈ gs.map (fun g => g τ), IsUnitQ Q.r := by
  induction h with
  | nil => exact ⟨[], .nil, fun τ _ => ⟨.nil, by simp⟩⟩
  | @cons i f l fs hif _ ih =>
    obtain ⟨gs, h1, h2⟩ := ih (fun f hf => hg f (List.mem_cons_of_mem _ hf))
      (fun f hf => had f (List.mem_cons_of_mem _ hf))
    obtain ⟨g, e, hp, hu⟩ := transformFromFrame_good sq (hg f (by simp)) ts (had f (by simp))
    refine ⟨g :: gs, .cons ⟨e, hu hsq⟩ h1, fun τ hτ => ⟨.cons ⟨_, hif.1, hp τ hτ⟩ (h2 τ hτ).1, ?_⟩⟩
    intro Q hQ
    rcases List.mem_cons.mp hQ with rfl | hQ
    · exact hu hsq τ hτ
    · exact (h2 τ hτ).2 Q hQ

theorem forall₂_inverse {s : State} {inv : Bool} {l : List ℕ} {fs : List MFrame}
    (h : List.Forall₂ (FrameOf s inv) l fs) : ∀ f ∈ fs, f.inverse = inv := by
  induction h with
  | nil => simp
  | cons h _ ih => intro f hf; rcases List.mem_cons.mp hf with rfl | hf; exacts [h.2, ih f hf]

theorem zipWith_eval {fs : List MFrame} {gs : List (ℝ → Pose)} (τ : ℝ) :
    List.zipWith (fun (f : MFrame) g => (f.inverse, g τ)) fs gs =
    List.zipWith (fun (f : MFrame) P => (f.inverse, P)) fs (gs.map fun g => g τ) := by
  rw [List.zipWith_map_right]

theorem transLoop_good (sq : SquadFn) (hsq : SquadLaw sq) (ts : List ℝ) {s : State} {la lb : List ℕ}
    {fa fb : List MFrame} (ha : List.Forall₂ (FrameOf s false) la fa)
    (hb : List.Forall₂ (FrameOf s true) lb.reverse fb) (hg : ∀ f ∈ fa ++ fb, GoodData f.data)
    (had : ∀ f ∈ fa ++ fb, ∀ τ ∈ ts, Admissible f.data τ) (hne : fa ++ fb ≠ []) :
    ∃ T : ℝ → Pose, transLoop sq (some ts) (fa ++ fb) (.many [0], .one 1) =
        .ok (.many (ts.map fun τ => (T τ).t), .many (ts.map fun τ => (T τ).r)) ∧
      ∀ τ ∈ ts, ∃ Pa Pb, List.Forall₂ (PoseOf sq s τ) la Pa ∧ List.Forall₂ (PoseOf sq s τ) lb Pb ∧
        (∀ Q ∈ Pa ++ Pb, IsUnitQ Q.r) ∧ T τ = (chain Pb).inv.comp (chain Pa) := by
  obtain ⟨ga, a1, a2⟩ := resampled_exists sq hsq ts ha (fun f hf => hg f (by simp [hf]))
    (fun f hf => had f (by simp [hf]))
  obtain ⟨gb, b1, b2⟩ := resampled_exists sq hsq ts hb (fun f hf => hg f (by simp [hf]))
    (fun f hf => had f (by simp [hf]))
  have hall : List.Forall₂ (Resampled sq ts) (fa ++ fb) (ga ++ gb) := List.rel_append a1 b1
  refine ⟨fun τ => foldP (List.zipWith (fun f g => (f.inverse, g τ)) (fa ++ fb) (ga ++ gb)) Pose.id,
    transLoop_init sq ts hall hne, fun τ hτ => ⟨ga.map fun g => g τ, (gb.map fun g => g τ).reverse,
      (a2 τ hτ).1, ?_, ?_, ?_⟩⟩
  · have := List.rel_reverse (b2 τ hτ).1
    simpa using this
  · intro Q hQ
    simp only [List.mem_append, List.mem_reverse] at hQ
    rcases hQ with hQ | hQ
    · exact (a2 τ hτ).2 Q hQ
    · exact (b2 τ hτ).2 Q hQ
  · have hl1 := a1.length_eq
    have hl2 := b1.length_eq
    have := foldP_paths (fa := fa) (fb := fb) (Pa := ga.map fun g => g τ)
      (Pb := (gb.map fun g => g τ).reverse) (forall₂_inverse ha) (forall₂_inverse hb)
      (by simpa using hl1) (by simpa using hl2)
      (fun Q hQ => ((a2 τ hτ).2 Q hQ).ne_zero)
      (fun Q hQ => ((b2 τ hτ).2 Q (List.mem_reverse.mp hQ)).ne_zero)
    rw [List.reverse_reverse] at this
    simp only [zipWith_eval, List.map_append]
    exact this

/-! ### static paths -/

theorem staticPoseOf_frame {s : State} {inv : Bool} {l : List ℕ} {fs : List MFrame} {Ps : List Pose}
    (h : List.Forall₂ (FrameOf s inv) l fs) (hP : List.Forall₂ (fun i P => StaticPoseOf s i P ∧ P.r ≠ 0) l Ps) :
    List.Forall₂ IsStaticFrame fs Ps := by
  induction h generalizing Ps with
  | nil => cases hP; exact .nil
  | @cons i f l fs hif _ ih =>
    cases hP with
    | @cons _ P _ Ps hiP hP =>
      refine .cons ?_ (ih hP)
      obtain ⟨⟨disc, hd⟩, h0⟩ := hiP
      have := hif.1.symm.trans hd
      simp only [MFrame.data, Option.some.injEq, FrameData.mk.injEq, Prod.mk.injEq] at this
      exact ⟨this.2.1, this.1.1, this.1.2, h0⟩

theorem getTimestamps_static {fs : List MFrame} (h : ∀ f ∈ fs, f.timestamps = none) (af : Bool) :
    (⟨fs, []⟩ : Matcher).getTimestamps af = .ok none := by
  have h1 : fs.filterMap (fun f => if f.discrete then none else f.timestamps) = [] := by
    rw [List.filterMap_eq_nil_iff]; intro f hf; simp [h f hf]
  have h2 : fs.filterMap (fun f => if f.discrete then f.timestamps else none) = [] := by
    rw [List.filterMap_eq_nil_iff]; intro f hf; simp [h f hf]
  simp [Matcher.getTimestamps, Matcher.getRange, Matcher.continuous, h1, h2, firstStamps, lastStamps]

theorem static_checked {s : State} {i : ℕ} (h : ∃ P, StaticPoseOf s i P) : Checked s i := by
  obtain ⟨P, disc, hd⟩ := h
  exact ⟨_, _, hd, rfl, rfl⟩

theorem lookup_static (sq : SquadFn) {s : State} (h : WF s) {a b : ℕ} (ha : a < s.size) (hb : b < s.size)
    {c : ℕ} {la lb : List ℕ} (hc : NearestCommon s a b c) (hla : PathTo s.parent c a la)
    (hlb : PathTo s.parent c b lb) {Pa Pb : List Pose}
    (hPa : List.Forall₂ (fun i P => StaticPoseOf s i P ∧ P.r ≠ 0) la Pa)
    (hPb : List.Forall₂ (fun i P => StaticPoseOf s i P ∧ P.r ≠ 0) lb Pb) :
    s.lookupTransform sq a (.byObj b) =
      .ok (.one ((chain Pb).inv.comp (chain Pa)).t, .one ((chain Pb).inv.comp (chain Pa)).r, none) := by
  have ex : ∀ {l : List ℕ} {Ps : List Pose}, List.Forall₂ (fun i P => StaticPoseOf s i P ∧ P.r ≠ 0) l Ps →
      (∀ i ∈ l, ∃ P, StaticPoseOf s i P) ∧ ∀ P ∈ Ps, P.r ≠ 0 := by
    intro l Ps h
    induction h with
    | nil => simp
    | cons hx _ ih =>
      constructor
      · intro i hi; rcases List.mem_cons.mp hi with rfl | hi; exacts [⟨_, hx.1⟩, ih.1 i hi]
      · intro i hi; rcases List.mem_cons.mp hi with rfl | hi; exacts [hx.2, ih.2 i hi]
  obtain ⟨fa, fb, e, h1, h2⟩ := getMatcher_ok h ha hb hc hla hlb (fun i hi => static_checked (by
    rcases List.mem_append.mp hi with hi | hi
    · exact (ex hPa).1 i hi
    · exact (ex hPb).1 i hi)) []
  have s1 := staticPoseOf_frame h1 hPa
  have s2 := staticPoseOf_frame h2 (List.rel_reverse hPb)
  have s3 : List.Forall₂ IsStaticFrame (fa ++ fb) (Pa ++ Pb.reverse) := List.rel_append s1 s2
  have hts : ∀ f ∈ fa ++ fb, f.timestamps = none := by
    generalize fa ++ fb = fs at s3
    generalize Pa ++ Pb.reverse = Ps at s3
    induction s3 with
    | nil => simp
    | cons h _ ih => intro f hf; rcases List.mem_cons.mp hf with rfl | hf; exacts [h.1, ih f hf]
  have hloop := transLoop_static sq s3 Pose.id
  rw [foldP_paths (forall₂_inverse h1) (forall₂_inverse h2) s1.length_eq
    (by simpa using s2.length_eq) (ex hPa).2 (ex hPb).2] at hloop
  simp only [State.lookupTransform, e, addArrays, bind, Except.bind, Matcher.getTransformation,
    getTimestamps_static hts, initTranslation]
  simp only [Pose.id] at hloop
  simp only [hloop, Pure.pure, Except.pure]

/-! ### the general lookup -/

theorem admissible_of_continuous {m : Matcher} {τ : ℝ} (h : ∀ c ∈ m.continuous, InRange c τ) :
    ∀ f ∈ m.frames, Admissible f.data τ := by
  intro f hf ev h1 h2
  apply h
  simp only [Matcher.continuous, List.mem_append, List.mem_filterMap]
  left
  refine ⟨f, hf, ?_⟩
  simp only [MFrame.data] at h1 h2
  simp [h1, h2]

theorem goodData_ne {f : MFrame} (h : GoodData f.data) {ts : List ℝ} (hts : f.timestamps = some ts) : ts ≠ [] := by
  obtain ⟨tr, ro, tst, disc, inv⟩ := f
  simp only [MFrame.data] at h
  generalize hd : (⟨some (tr, ro), tst, disc⟩ : FrameData) = d at h
  cases h with
  | static => cases hd; simp at hts
  | discrete h1 h2 h3 h4 => cases hd; cases hts; exact h3
  | continuous h1 h2 h3 h4 => cases hd; cases hts; rintro rfl; simp at h3

theorem goodData_static {s : State} {i : ℕ} {f : MFrame} (hd : s.data i = some f.data) (h : GoodData f.data)
    (hts : f.timestamps = none) : ∃ P, StaticPoseOf s i P ∧ IsUnitQ P.r := by
  obtain ⟨tr, ro, tst, disc, inv⟩ := f
  simp only [MFrame.data] at h hd
  generalize hd' : (⟨some (tr, ro), tst, disc⟩ : FrameData) = d at h hd
  cases h with
  | @static t r hu => exact ⟨⟨t, r⟩, ⟨false, hd⟩, hu⟩
  | discrete h1 h2 h3 h4 => cases hd'; simp at hts
  | continuous h1 h2 h3 h4 => cases hd'; simp at hts


theorem filterMap_frames {s : State} {inv : Bool} {l : List ℕ} {fs : List MFrame}
    (h : List.Forall₂ (FrameOf s inv) l fs) :
    fs.filterMap (fun f => if f.discrete then none else f.timestamps) = l.filterMap (stampsOf s false) ∧
    fs.filterMap (fun f => if f.discrete then f.timestamps else none) = l.filterMap (stampsOf s true) := by
  induction h with
  | nil => simp
  | @cons i f l fs hif _ ih =>
    have e1 : stampsOf s false i = if f.discrete then none else f.timestamps := by
      simp only [stampsOf, hif.1, Option.bind_some, MFrame.data]
      cases f.discrete <;> simp
    have e2 : stampsOf s true i = if f.discrete then f.timestamps else none := by
      simp only [stampsOf, hif.1, Option.bind_some, MFrame.data]
    simp only [List.filterMap_cons, e1, e2, ih.1, ih.2, and_self]

open Classical in
/-- Complete description of lookups along well-formed frames. -/
theorem lookup_good (sq : SquadFn) (hsq : SquadLaw sq) {s : State} (h : WF s) {a b : ℕ} (ha : a < s.size)
    (hb : b < s.size) {c : ℕ} {la lb : List ℕ} (hc : NearestCommon s a b c)
    (hla : PathTo s.parent c a la) (hlb : PathTo s.parent c b lb)
    (hg : ∀ i ∈ la ++ lb, FrameOk true s i) :
    let l := la ++ lb.reverse
    let cont := l.filterMap (stampsOf s false)
    let disc := l.filterMap (stampsOf s true)
    (cont = [] ∧ disc = [] ∧ ∃ Pa Pb,
      List.Forall₂ (fun i P => StaticPoseOf s i P ∧ IsUnitQ P.r) la Pa ∧
      List.Forall₂ (fun i P => StaticPoseOf s i P ∧ IsUnitQ P.r) lb Pb ∧
      s.lookupTransform sq a (.byObj b) =
        .ok (.one ((chain Pb).inv.comp (chain Pa)).t, .one ((chain Pb).inv.comp (chain Pa)).r, none)) ∨
    ((cont ≠ [] ∨ disc ≠ []) ∧ ∃ (ts : List ℝ) (T : ℝ → Pose), s.lookupTransform sq a (.byObj b) =
        .ok (.many (ts.map fun τ => (T τ).t), .many (ts.map fun τ => (T τ).r), some ts) ∧
      ((∃ x xs, cont = x :: xs ∧ ts = x.filter fun t => decide (∀ y ∈ cont, InRange y t)) ∨
        (cont = [] ∧ ts = npUnique disc.flatten)) ∧
      (∀ x ∈ cont, x ≠ []) ∧
      ∀ τ ∈ ts, ∃ Pa Pb : List Pose, List.Forall₂ (PoseOf sq s τ) la Pa ∧ List.Forall₂ (PoseOf sq s τ) lb Pb ∧
        (∀ Q ∈ Pa ++ Pb, IsUnitQ Q.r) ∧ T τ = (chain Pb).inv.comp (chain Pa)) := by
  intro l cont disc
  have hg' : ∀ i ∈ la ++ lb, ∃ d, s.data i = some d ∧ GoodData d := by simpa [FrameOk] using hg
  obtain ⟨fa, fb, e, h1, h2⟩ := getMatcher_ok h ha hb hc hla hlb (fun i hi => by
    obtain ⟨d, h1, h2⟩ := hg' i hi; exact GoodData.checked h1 h2) []
  have hgf : ∀ f ∈ fa ++ fb, GoodData f.data := by
    have key : ∀ {inv l fs}, List.Forall₂ (FrameOf s inv) l fs → (∀ i ∈ l, ∃ d, s.data i = some d ∧ GoodData d) →
        ∀ f ∈ fs, GoodData f.data := by
      intro inv l fs hf
      induction hf with
      | nil => simp
      | cons hx _ ih =>
        intro hl f hf
        rcases List.mem_cons.mp hf with rfl | hf
        · obtain ⟨d, g1, g2⟩ := hl _ (List.mem_cons_self ..)
          rw [hx.1] at g1; cases g1; exact g2
        · exact ih (fun i hi => hl i (List.mem_cons_of_mem _ hi)) f hf
    intro f hf
    rcases List.mem_append.mp hf with hf | hf
    · exact key h1 (fun i hi => hg' i (by simp [hi])) f hf
    · exact key h2 (fun i hi => hg' i (by simp at hi; simp [hi])) f hf
  set m : Matcher := ⟨fa ++ fb, []⟩ with hm
  have ec : m.continuous = cont := by
    simp only [Matcher.continuous, hm, List.filterMap_append, (filterMap_frames h1).1,
      (filterMap_frames h2).1, cont, l]
    simp
  have ed : m.discretes = disc := by
    simp only [Matcher.discretes, hm, List.filterMap_append, (filterMap_frames h1).2,
      (filterMap_frames h2).2, disc, l]
  have hne : ∀ c ∈ m.continuous, c ≠ [] := by
    intro c hc
    simp only [Matcher.continuous, hm, List.filterMap_nil, List.append_nil, List.mem_filterMap] at hc
    obtain ⟨f, hf, h3⟩ := hc
    split at h3
    · simp at h3
    · exact goodData_ne (hgf f hf) h3
  have hel : m.elements true = cont := by
    rw [← ec]; simp [Matcher.elements, Matcher.continuous, hm]
  have hlook : ∀ ts, m.getTimestamps true = .ok ts → s.lookupTransform sq a (.byObj b) =
      match transLoop sq ts m.frames (initTranslation ts, .one 1) with
      | .error e => .error e
      | .ok p => .ok (p.1, p.2, ts) := by
    intro ts hts
    simp only [State.lookupTransform, e, addArrays, bind, Except.bind, Matcher.getTransformation, hts]
    cases transLoop sq ts m.frames (initTranslation ts, .one 1) <;> rfl
  have hmov : ∀ ts, m.getTimestamps true = .ok (some ts) → (∀ τ ∈ ts, ∀ c ∈ m.continuous, InRange c τ) →
      m.frames ≠ [] → ∃ T : ℝ → Pose, s.lookupTransform sq a (.byObj b) =
        .ok (.many (ts.map fun τ => (T τ).t), .many (ts.map fun τ => (T τ).r), some ts) ∧
      ∀ τ ∈ ts, ∃ Pa Pb : List Pose, List.Forall₂ (PoseOf sq s τ) la Pa ∧ List.Forall₂ (PoseOf sq s τ) lb Pb ∧
        (∀ Q ∈ Pa ++ Pb, IsUnitQ Q.r) ∧ T τ = (chain Pb).inv.comp (chain Pa) := by
    intro ts hts hin hfr
    obtain ⟨T, t1, t2⟩ := transLoop_good sq hsq ts h1 h2 hgf
      (fun f hf τ hτ => admissible_of_continuous (hin τ hτ) f hf) hfr
    refine ⟨T, ?_, t2⟩
    rw [hlook _ hts]
    simp only [initTranslation]
    rw [t1]
  rcases getTimestamps_spec m true hne with ⟨x, xs, ts, g1, g2, g3, g4⟩ | ⟨g1, g2, g3⟩ | ⟨g1, g2, g3⟩
  · right
    have g5 := g4 (fun t => ∀ y ∈ cont, InRange y t) (fun t => by rw [ec])
    refine ⟨.inl (by rw [← hel, g1]; simp), ts, ?_⟩
    obtain ⟨T, t1, t2⟩ := hmov ts g2 (by
      intro τ hτ; rw [g5] at hτ
      rw [ec]
      simpa using (List.mem_filter.mp hτ).2) (by
      intro hf
      have hc0 : m.continuous = [] := by
        simp only [Matcher.continuous, hf]; simp [hm]
      rw [ec, ← hel, g1] at hc0; simp at hc0)
    exact ⟨T, t1, .inl ⟨x, xs, by rw [← hel, g1], g5⟩, fun x hx => hne x (by rw [ec]; exact hx), t2⟩
  · right
    rw [ed] at g2 g3
    rw [ec] at g1
    refine ⟨.inr g2, npUnique disc.flatten, ?_⟩
    obtain ⟨T, t1, t2⟩ := hmov _ g3 (by rw [ec, g1]; simp) (by
      intro hf
      apply g2; rw [← ed]; simp only [Matcher.discretes, hf]; simp)
    exact ⟨T, t1, .inr ⟨g1, rfl⟩, fun x hx => hne x (by rw [ec]; exact hx), t2⟩
  · left
    rw [ed] at g2
    rw [ec] at g1
    refine ⟨g1, g2, ?_⟩
    have hst : ∀ i ∈ la ++ lb, ∃ P, StaticPoseOf s i P ∧ IsUnitQ P.r := by
      intro i hi
      obtain ⟨d, d1, d2⟩ := hg' i hi
      have m1 : stampsOf s false i = none := (List.filterMap_eq_nil_iff.mp g1) i (by simp [l] at hi ⊢; exact hi)
      have m2 : stampsOf s true i = none := (List.filterMap_eq_nil_iff.mp g2) i (by simp [l] at hi ⊢; exact hi)
      simp only [stampsOf, d1, Option.bind_some] at m1 m2
      cases d2 with
      | @static t r hu => exact ⟨⟨t, r⟩, ⟨false, d1⟩, hu⟩
      | discrete => simp at m2
      | continuous => simp at m1
    have hex : ∀ l : List ℕ, (∀ i ∈ l, ∃ P, StaticPoseOf s i P ∧ IsUnitQ P.r) →
        ∃ Ps, List.Forall₂ (fun i P => StaticPoseOf s i P ∧ IsUnitQ P.r) l Ps := by
      intro l
      induction l with
      | nil => intro _; exact ⟨[], .nil⟩
      | cons i l ih =>
        intro hl
        obtain ⟨Ps, hPs⟩ := ih fun j hj => hl j (List.mem_cons_of_mem _ hj)
        obtain ⟨P, hP⟩ := hl i (by simp)
        exact ⟨P :: Ps, .cons hP hPs⟩
    obtain ⟨Pa, hPa⟩ := hex la fun i hi => hst i (by simp [hi])
    obtain ⟨Pb, hPb⟩ := hex lb fun i hi => hst i (by simp [hi])
    refine ⟨Pa, Pb, hPa, hPb, ?_⟩
    exact lookup_static sq h ha hb hc hla hlb (hPa.imp fun _ _ h => ⟨h.1, h.2.ne_zero⟩)
      (hPb.imp fun _ _ h => ⟨h.1, h.2.ne_zero⟩)

end RBM
