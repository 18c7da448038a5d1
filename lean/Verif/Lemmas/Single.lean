import Verif.Lemmas.SameView
import Verif.Lemmas.AxisSame
import Verif.Lemmas.UnitsArr

/-!
Frames and arrays with a single timestamp.
-/

namespace RBM

open RBM.Spec

theorem addFrames_inv {s : State} {inv : Bool} {l : List ℕ} {m m' : Matcher} (h : s.addFrames inv l m = .ok m') :
    ∃ fs, m' = { m with frames := m.frames ++ fs } ∧ List.Forall₂ (FrameOf s inv) l fs := by
  induction l generalizing m with
  | nil => cases h; exact ⟨[], by simp, .nil⟩
  | cons i l ih =>
    simp only [State.addFrames] at h
    cases e : s.addFrame m i inv with
    | error x => rw [e] at h; cases h
    | ok m1 =>
      rw [e] at h
      simp only at h
      obtain ⟨fs, rfl, h2⟩ := ih h
      simp only [State.addFrame] at e
      cases hd : s.data i with
      | none => rw [hd] at e; cases e
      | some d =>
        rw [hd] at e
        obtain ⟨pose, ts, disc⟩ := d
        cases pose with
        | none => cases e
        | some p =>
          obtain ⟨t, r⟩ := p
          simp only [Matcher.addFrame] at e
          cases hc : checkTimestamps ts (firstLen t) with
          | error x => rw [hc] at e; cases e
          | ok u =>
            rw [hc] at e
            cases e
            exact ⟨⟨t, r, ts, disc, inv⟩ :: fs, by simp, .cons ⟨hd, rfl⟩ h2⟩

theorem getMatcher_inv {s : State} (h : WF s) {a b : ℕ} (ha : a < s.size) (hb : b < s.size) {c : ℕ}
    {la lb : List ℕ} (hc : NearestCommon s a b c) (hla : PathTo s.parent c a la)
    (hlb : PathTo s.parent c b lb) {arrays : List MArray} {m : Matcher} (e : s.getMatcher a (.byObj b) arrays = .ok m) :
    ∃ fa fb, m = ⟨fa ++ fb, arrays⟩ ∧ List.Forall₂ (FrameOf s false) la fa ∧
      List.Forall₂ (FrameOf s true) lb.reverse fb := by
  have harr := getMatcher_arrays e
  have hw : s.walk a (.byObj b) = .ok (la, lb.reverse) := by
    simp [State.walk, State.resolve, walk_eq h ha hb hc hla hlb]
  simp only [State.getMatcher, hw, bind, Except.bind] at e
  cases e1 : s.addFrames false la Matcher.empty with
  | error x => rw [e1] at e; cases e
  | ok m1 =>
    rw [e1] at e
    simp only at e
    obtain ⟨fa, rfl, h1⟩ := addFrames_inv e1
    cases e2 : s.addFrames true lb.reverse { Matcher.empty with frames := Matcher.empty.frames ++ fa } with
    | error x => rw [e2] at e; cases e
    | ok m2 =>
      rw [e2] at e
      simp only at e
      obtain ⟨fb, rfl, h2⟩ := addFrames_inv e2
      refine ⟨fa, fb, ?_, h1, h2⟩
      rcases addArrays_frames arrays ⟨[], []⟩ with ⟨x, hx⟩ | ⟨ys, hx⟩
      · have := (hx (fa ++ fb)).symm.trans e
        cases this
      · have := (hx (fa ++ fb)).symm.trans e
        cases this
        simp only at harr
        rw [harr]

theorem interpLoc_single (x τ : ℝ) : ∃ e, interpLoc [x] τ = .error e := by
  simp only [interpLoc, List.length_singleton, Nat.one_ne_zero, if_false]
  split
  · exact ⟨_, rfl⟩
  · exact ⟨.nonfinite, by simp⟩

theorem interp1d_single {V} [AddCommGroup V] [Module ℝ V] {x : ℝ} {ys : List V} {ts : List ℝ} {r : List V}
    (h : interp1d [x] ys ts = .ok r) : ts = [] := by
  simp only [interp1d] at h
  split_ifs at h with h1 h2
  cases ts with
  | nil => rfl
  | cons τ ts =>
    exfalso
    obtain ⟨e, he⟩ := interpLoc_single x τ
    simp only [List.map_cons, collect, interpAt, he] at h
    split_ifs at h <;> cases h

theorem transformFromFrame_single {sq : SquadFn} {f : MFrame} {x : ℝ} {ts : Option (List ℝ)} {p : Arr Vec × Arr Quat}
    (h1 : f.timestamps = some [x]) (h2 : f.discrete = false) (h : transformFromFrame sq f ts = .ok p) : ts = some [] := by
  cases ts with
  | none => simp [transformFromFrame, h1] at h
  | some ts =>
    simp only [transformFromFrame, h1, h2] at h
    cases ht : f.translation with
    | one _ => rw [ht] at h; cases h
    | many tr =>
      cases hr : f.rotation with
      | one _ => rw [ht, hr] at h; cases h
      | many ro =>
        rw [ht, hr] at h
        simp only [Bool.false_eq_true, if_false] at h
        cases hi : interp1d [x] tr ts with
        | error e => rw [hi] at h; cases h
        | ok t => rw [interp1d_single hi]

theorem transLoop_inv {sq : SquadFn} {ts : Option (List ℝ)} {fs : List MFrame} {acc r : Arr Vec × Arr Quat}
    (h : transLoop sq ts fs acc = .ok r) : ∀ f ∈ fs, ∃ p, transformFromFrame sq f ts = .ok p := by
  induction fs generalizing acc with
  | nil => intro f hf; cases hf
  | cons g fs ih =>
    simp only [transLoop] at h
    cases e : transStep sq ts g acc with
    | error x => rw [e] at h; cases h
    | ok acc' =>
      rw [e] at h
      intro f hf
      rcases List.mem_cons.mp hf with rfl | hf
      · simp only [transStep, bind] at e
        obtain ⟨p, hp, -⟩ := bind_ok' e
        exact ⟨p, hp⟩
      · exact ih h f hf

theorem getTransformation_inv {sq : SquadFn} {m : Matcher} {t : Arr Vec} {r : Arr Quat} {ts : Option (List ℝ)}
    (h : m.getTransformation sq = .ok (t, r, ts)) : m.getTimestamps = .ok ts ∧ ∀ f ∈ m.frames, ∃ p, transformFromFrame sq f ts = .ok p := by
  simp only [Matcher.getTransformation, bind] at h
  obtain ⟨ts', h1, h⟩ := bind_ok' h
  obtain ⟨p, h2, h⟩ := bind_ok' h
  cases h
  exact ⟨h1, transLoop_inv h2⟩

/-- A continuous frame with one timestamp among the frames of a matcher: no timestamps are left. -/
theorem getTransformation_single {sq : SquadFn} {m : Matcher} {t : Arr Vec} {r : Arr Quat} {ts : Option (List ℝ)}
    (h : m.getTransformation sq = .ok (t, r, ts)) {f : MFrame} (hf : f ∈ m.frames) {x : ℝ} (h1 : f.timestamps = some [x])
    (h2 : f.discrete = false) : ts = some [] := by
  obtain ⟨p, hp⟩ := (getTransformation_inv h).2 f hf
  exact transformFromFrame_single h1 h2 hp

theorem getTimestamps_single {fs : List MFrame} {w : ND ℝ} {x : ℝ} {ts : Option (List ℝ)}
    (h : (⟨fs, [⟨w, some [x]⟩]⟩ : Matcher).getTimestamps = .ok ts) : ts = some [] ∨ ts = some [x] := by
  simp only [Matcher.getTimestamps] at h
  cases hr : (⟨fs, [⟨w, some [x]⟩]⟩ : Matcher).getRange with
  | error e => rw [hr] at h; cases h
  | ok range =>
    rw [hr] at h
    simp only [List.filterMap_cons, List.filterMap_nil, if_true, List.cons_append, List.nil_append] at h
    cases h
    simp only [selectRange, List.filter_cons, List.filter_nil]
    split
    · exact .inr rfl
    · exact .inl rfl

/-- An array with one timestamp cannot be resampled at that timestamp. -/
theorem getArray1_single {sq : SquadFn} {fs : List MFrame} {w : ND ℝ} {x : ℝ} {n : ℕ} {rest : List ℕ} (hw : w.shape = n :: rest) (hn : n < 2)
    (h0 : n ≠ 0) {out : ND ℝ}
    (h : (⟨fs, [⟨w, some [x]⟩]⟩ : Matcher).getArray1 sq (some [x]) = .ok out) : False := by
  have h1 : n = 1 := by omega
  subst h1
  simp only [Matcher.getArray1, Matcher.getArrays, bind] at h
  obtain ⟨p, h1, -⟩ := bind_ok' h
  obtain ⟨ts, h2, h1⟩ := bind_ok' h1
  cases h2
  obtain ⟨l, h3, -⟩ := bind_ok' h1
  have he : ∃ e, resampleArray sq ⟨w, some [x]⟩ (some [x]) = .error e := by
    simp only [resampleArray, hw]
    obtain ⟨e, hl⟩ := interpLoc_single x x
    by_cases h4 : (1 :: rest).getLast? = some 4
    · rw [if_pos h4]
      cases hq : asQuatArray w with
      | error e => exact ⟨e, rfl⟩
      | ok q => exact ⟨.indexError, by simp⟩
    · rw [if_neg h4]
      simp only [List.length_singleton, ne_eq, not_true_eq_false, if_false]
      split
      · exact ⟨_, rfl⟩
      · simp only [List.map_cons, List.map_nil, collect, hl]
        exact ⟨e, rfl⟩
  obtain ⟨e, he⟩ := he
  simp only [List.map_cons, List.map_nil, collect, he] at h3
  cases h3

end RBM
