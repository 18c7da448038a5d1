import Verif.Spec.Stamps
import Verif.Props.Single
import Verif.Props.TransformMore
import Verif.Lemmas.Shaped

/-!
C20, C22, C27, C28 for every call that returns, whatever the frames contain.
-/

namespace RBM.Props

open RBM.Spec

theorem firstStamps_nonempty {cs : List (List ℝ)} {fs : List ℝ} (h : firstStamps cs = .ok fs) : ∀ c ∈ cs, c ≠ [] := by
  induction cs generalizing fs with
  | nil => simp
  | cons c cs ih =>
    cases c with
    | nil => cases h
    | cons a c =>
      simp only [firstStamps] at h
      cases e : firstStamps cs with
      | error x => rw [e] at h; cases h
      | ok r =>
        intro d hd
        rcases List.mem_cons.mp hd with rfl | hd
        · simp
        · exact ih e d hd

theorem getTimestamps_nonempty {m : Matcher} {af : Bool} {ts : Option (List ℝ)} (h : m.getTimestamps af = .ok ts) : ∀ c ∈ m.continuous, c ≠ [] := by
  simp only [Matcher.getTimestamps, Matcher.getRange] at h
  cases e : firstStamps m.continuous with
  | error x => rw [e] at h; cases h
  | ok r => exact firstStamps_nonempty e

theorem commonStamps_congr {x : List ℝ} {c c' : List (List ℝ)} (h : ∀ y, y ∈ c ↔ y ∈ c') : commonStamps x c = commonStamps x c' := by
  unfold commonStamps
  congr 1
  funext t
  congr 1
  simp only [h]

/-- What `get_timestamps` returns, if it returns. -/
theorem sampled_of {m : Matcher} {ts : Option (List ℝ)} (h : m.getTimestamps = .ok ts) :
    SampledAs (timedArrays m ++ contFrames m) m.discretes ts := by
  classical
  have hne := getTimestamps_nonempty h
  rcases getTimestamps_spec m true hne with ⟨c, cs, ts', e1, e2, _, e3⟩ | ⟨h0, h1, h2⟩ | ⟨h0, h1, h2⟩
  · rw [h] at e2
    cases e2
    have e : timedArrays m ++ contFrames m = c :: cs := e1
    rw [e]
    change some ts' = some (commonStamps c (c :: cs))
    rw [e3 (fun t => ∀ c ∈ m.continuous, InRange c t) (fun t => Iff.rfl)]
    congr 1
    refine Eq.trans ?_ (commonStamps_congr (c := m.continuous) fun y => ?_)
    · unfold commonStamps
      congr 1
    · rw [← e1]
      exact (mem_elements m true y).symm
  · have e : timedArrays m ++ contFrames m = [] := (elements_nil m true).mpr h0
    rw [e]
    rw [h] at h2
    cases h2
    obtain ⟨d, ds, hd⟩ := List.exists_cons_of_ne_nil h1
    rw [hd]
    refine ⟨_, rfl, npUnique_sorted _, fun x => ?_⟩
    rw [mem_npUnique, List.mem_flatten]
  · have e : timedArrays m ++ contFrames m = [] := (elements_nil m true).mpr h0
    rw [e, h1]
    rw [h] at h2
    cases h2
    rfl

/-- The frames of the matcher are those of the route, in that order, and their timestamps passed the
check. -/
theorem matcher_stamps {s : State} (h : WF s) {a b : ℕ} (ha : a < s.size) (hb : b < s.size) {l : List ℕ} (hl : Route s a b l)
    {arrays : List MArray} {m : Matcher} (e : s.getMatcher a (.byObj b) arrays = .ok m) :
    contFrames m = l.filterMap (stampsOf s false) ∧ m.discretes = l.filterMap (stampsOf s true) ∧ timedArrays m = arrays.filterMap (·.timestamps) := by
  obtain ⟨c, la, lb, hc, hla, hlb, rfl⟩ := hl
  obtain ⟨fa, fb, rfl, h1, h2⟩ := getMatcher_inv h ha hb hc hla hlb e
  obtain ⟨a1, a2⟩ := filterMap_frames h1
  obtain ⟨b1, b2⟩ := filterMap_frames h2
  refine ⟨?_, ?_, rfl⟩
  · simp only [contFrames, List.filterMap_append, a1, b1]
  · simp only [Matcher.discretes, List.filterMap_append, a2, b2]

theorem addFrame_good {s : State} {m m' : Matcher} {i : ℕ} {inv : Bool} (h : s.addFrame m i inv = .ok m') : HasPose s i ∧ ¬BadStamps s i := by
  simp only [State.addFrame] at h
  cases hd : s.data i with
  | none => rw [hd] at h; cases h
  | some d =>
    rw [hd] at h
    obtain ⟨pose, ts, disc⟩ := d
    cases pose with
    | none => cases h
    | some p =>
      obtain ⟨t, r⟩ := p
      refine ⟨⟨_, _, hd, rfl⟩, ?_⟩
      rintro ⟨d, t', r', ts', hd', hp, hts, hbad⟩
      rw [hd] at hd'
      cases hd'
      cases hp
      simp only at hts
      subst hts
      simp only [Matcher.addFrame] at h
      have : checkTimestamps (some ts') (firstLen t) = .error .valueError := by
        simp only [checkTimestamps]
        by_cases hm : anyDecrease ts'
        · rw [if_pos hm]
        · rw [if_neg hm, if_pos]
          exact hbad.resolve_left (fun hn => hn ((anyDecrease_iff ts').mp hm))
      rw [this] at h
      cases h

theorem addFrames_good {s : State} {inv : Bool} {l : List ℕ} {m m' : Matcher} (h : s.addFrames inv l m = .ok m') :
    ∀ i ∈ l, HasPose s i ∧ ¬BadStamps s i := by
  induction l generalizing m with
  | nil => simp
  | cons i l ih =>
    simp only [State.addFrames] at h
    cases e : s.addFrame m i inv with
    | error x => rw [e] at h; cases h
    | ok m1 =>
      rw [e] at h
      intro j hj
      rcases List.mem_cons.mp hj with rfl | hj
      · exact addFrame_good e
      · exact ih h j hj

theorem addArrays_good {arrays : List MArray} {m m2 : Matcher} (e : addArrays arrays m2 = .ok m) :
    ∀ x ∈ arrays, ∀ ts, x.timestamps = some ts → NonDecreasing ts := by
  induction arrays generalizing m2 with
  | nil => simp
  | cons x xs ih =>
    simp only [addArrays] at e
    cases e1 : m2.addArray x with
    | error y => rw [e1] at e; cases e
    | ok m3 =>
      rw [e1] at e
      intro y hy ts hts
      rcases List.mem_cons.mp hy with rfl | hy
      · simp only [Matcher.addArray, hts] at e1
        cases hsh : y.data.shape with
        | nil => rw [hsh] at e1; cases e1
        | cons n sh =>
          rw [hsh] at e1
          simp only [checkTimestamps] at e1
          by_cases hm : anyDecrease ts
          · rw [if_pos hm] at e1; cases e1
          · exact (anyDecrease_iff ts).mp hm
      · exact ih e y hy ts hts

theorem getMatcher_good {s : State} (h : WF s) {a b : ℕ} (ha : a < s.size) (hb : b < s.size) {l : List ℕ} (hl : Route s a b l)
    {arrays : List MArray} {m : Matcher} (e : s.getMatcher a (.byObj b) arrays = .ok m) :
    (∀ i ∈ l, HasPose s i ∧ ¬BadStamps s i) ∧ ∀ x ∈ arrays, ∀ ts, x.timestamps = some ts → NonDecreasing ts := by
  obtain ⟨c, la, lb, hc, hla, hlb, rfl⟩ := hl
  have hw : s.walk a (.byObj b) = .ok (la, lb.reverse) := by
    simp [State.walk, State.resolve, walk_eq h ha hb hc hla hlb]
  simp only [State.getMatcher, hw, bind] at e
  change (Except.ok (la, lb.reverse) : Res _).bind _ = _ at e
  simp only [Except.bind] at e
  obtain ⟨m1, e1, e⟩ := bind_ok' e
  obtain ⟨m2, e2, e⟩ := bind_ok' e
  refine ⟨fun i hi => ?_, ?_⟩
  · rcases List.mem_append.mp hi with hi | hi
    · exact addFrames_good e1 i hi
    · exact addFrames_good e2 i hi
  · exact addArrays_good e

theorem validateInput_stamps {v : ND ℝ} {axis : ℤ} {n : ℕ} {o : TArgs} {w : ND ℝ × Option (List ℝ)}
    (h : validateInput v axis n o.timestamps o.timeAxis = .ok w) : w.2 = passedStamps o := by
  simp only [validateInput, bind] at h
  obtain ⟨k', _, h⟩ := bind_ok' h
  split_ifs at h
  · cases h
  unfold passedStamps
  cases ht : o.timestamps with
  | none => rw [ht] at h; cases h; rfl
  | some ts =>
    rw [ht] at h
    simp only at h
    split at h
    · rename_i n' hn
      cases ha : o.timeAxis with
      | none => rw [ha] at h; cases h
      | some ta =>
        rw [ha] at h
        simp only at h
        obtain ⟨k2, _, h⟩ := bind_ok' h
        split_ifs at h
        · cases h
        obtain ⟨w', hw, h⟩ := bind_ok' h
        cases h
        simp [hn]
    · cases h

/-- Number of entries along the spatial axis. -/
def entriesOf : TransformFn → ℕ
  | .quaternions => 4
  | _ => 3

/-- The steps of a call that returns. -/
theorem call_inv {f : TransformFn} {sq : SquadFn} {s : State} {a : ℕ} {v : ND ℝ} {b : FrameRef} {o : TArgs} {ret : PyRet}
    (e : f.call sq s a v b o = .ok ret) :
    ∃ w m p out, validateInput v o.axis (entriesOf f) o.timestamps o.timeAxis = .ok w ∧ s.getMatcher a b [⟨w.1, w.2⟩] = .ok m ∧
      m.getTransformation sq = .ok p ∧ ret = returned o.returnTimestamps out p.2.2 := by
  cases f with
  | points =>
    simp only [TransformFn.call, State.transformPoints, State.transformPointsCore, bind] at e
    obtain ⟨q, e1, e⟩ := bind_ok' e
    obtain ⟨w, h1, e1⟩ := bind_ok' e1
    obtain ⟨m, h2, e1⟩ := bind_ok' e1
    obtain ⟨p, h3, e1⟩ := bind_ok' e1
    obtain ⟨y, -, e1⟩ := bind_ok' e1
    obtain ⟨y1, -, e1⟩ := bind_ok' e1
    obtain ⟨y2, -, e1⟩ := bind_ok' e1
    cases e1
    obtain ⟨z, -, e⟩ := bind_ok' e
    cases e
    exact ⟨w, m, p, z, h1, h2, h3, pyReturn_eq _ _ _⟩
  | vectors =>
    simp only [TransformFn.call, State.transformVectors, State.transformVectorsCore, bind] at e
    obtain ⟨q, e1, e⟩ := bind_ok' e
    obtain ⟨w, h1, e1⟩ := bind_ok' e1
    obtain ⟨m, h2, e1⟩ := bind_ok' e1
    obtain ⟨p, h3, e1⟩ := bind_ok' e1
    obtain ⟨y, -, e1⟩ := bind_ok' e1
    obtain ⟨y1, -, e1⟩ := bind_ok' e1
    cases e1
    obtain ⟨z, -, e⟩ := bind_ok' e
    cases e
    exact ⟨w, m, p, z, h1, h2, h3, pyReturn_eq _ _ _⟩
  | quaternions =>
    simp only [TransformFn.call, State.transformQuaternions, State.transformQuaternionsCore, bind] at e
    obtain ⟨q, e1, e⟩ := bind_ok' e
    obtain ⟨w, h1, e1⟩ := bind_ok' e1
    obtain ⟨m, h2, e1⟩ := bind_ok' e1
    obtain ⟨p, h3, e1⟩ := bind_ok' e1
    obtain ⟨y, -, e1⟩ := bind_ok' e1
    obtain ⟨y1, -, e1⟩ := bind_ok' e1
    obtain ⟨y2, -, e1⟩ := bind_ok' e1
    obtain ⟨y3, -, e1⟩ := bind_ok' e1
    obtain ⟨y4, -, e1⟩ := bind_ok' e1
    obtain ⟨y5, -, e1⟩ := bind_ok' e1
    cases e1
    obtain ⟨z, -, e⟩ := bind_ok' e
    cases e
    exact ⟨w, m, p, z, h1, h2, h3, pyReturn_eq _ _ _⟩

/-- A call whose array is accepted but whose frames are not. -/
theorem call_error {f : TransformFn} {sq : SquadFn} {s : State} {a : ℕ} {v : ND ℝ} {b : FrameRef} {o : TArgs} {w : ND ℝ × Option (List ℝ)} {x : PyErr}
    (h1 : validateInput v o.axis (entriesOf f) o.timestamps o.timeAxis = .ok w) (h2 : s.getMatcher a b [⟨w.1, w.2⟩] = .error x) :
    f.call sq s a v b o = .error x := by
  cases f with
  | points => simp only [entriesOf] at h1; simp only [TransformFn.call, State.transformPoints, State.transformPointsCore, bind, Except.bind, h1, h2]
  | vectors => simp only [entriesOf] at h1; simp only [TransformFn.call, State.transformVectors, State.transformVectorsCore, bind, Except.bind, h1, h2]
  | quaternions => simp only [entriesOf] at h1; simp only [TransformFn.call, State.transformQuaternions, State.transformQuaternionsCore, bind, Except.bind, h1, h2]

theorem sampled_sorted {conts events : List (List ℝ)} {ts : Option (List ℝ)} (h : SampledAs conts events ts) (hc : ∀ c ∈ conts, NonDecreasing c)
    {out : List ℝ} (ho : ts = some out) : NonDecreasing out := by
  unfold SampledAs at h
  split at h
  · rw [h] at ho
    cases ho
    exact (hc _ (by simp)).sublist List.filter_sublist
  · obtain ⟨out', h1, h2, _⟩ := h
    rw [ho] at h1
    cases h1
    exact h2.imp fun hx => hx.le
  · rw [h] at ho; cases ho

theorem conts_sorted {s : State} {l : List ℕ} (h : ∀ i ∈ l, HasPose s i ∧ ¬BadStamps s i) : ∀ c ∈ l.filterMap (stampsOf s false), NonDecreasing c := by
  intro c hc
  obtain ⟨i, hi, hst⟩ := List.mem_filterMap.mp hc
  obtain ⟨⟨d, ⟨t, r⟩, hd, hp⟩, hb⟩ := h i hi
  simp only [stampsOf, hd, Option.bind_some] at hst
  split at hst
  · by_contra hn
    exact hb ⟨d, t, r, c, hd, hp, hst, .inl hn⟩
  · cases hst

/-! ### C20, C27 -/

/-- The timestamps of any lookup that returns, whatever the frames contain: those of the first
continuous frame of the route that lie in the range of all continuous frames; without continuous
frames those of all events; without timestamped frames none. They do not decrease. -/
theorem C20_every_lookup (sq : SquadFn) {s : State} {h : List Event} (hr : Reachable s h) {a b : ℕ} (ha : a < s.size) (hb : b < s.size)
    {l : List ℕ} (hl : Route s a b l) {t : Arr Vec} {r : Arr Quat} {ts : Option (List ℝ)} (he : s.lookupTransform sq a (.byObj b) = .ok (t, r, ts)) :
    SampledAs (l.filterMap (stampsOf s false)) (l.filterMap (stampsOf s true)) ts ∧ ∀ out, ts = some out → NonDecreasing out := by
  simp only [State.lookupTransform, bind] at he
  obtain ⟨m, h1, h2⟩ := bind_ok' he
  obtain ⟨e1, e2, e3⟩ := matcher_stamps hr.wf ha hb hl h1
  have hs := sampled_of (getTransformation_inv h2).1
  rw [e1, e2, e3] at hs
  exact ⟨hs, fun out ho => sampled_sorted hs (conts_sorted (getMatcher_good hr.wf ha hb hl h1).1) ho⟩

/-- The timestamps of any transform that returns, for any array and options: the same, with the
timestamps of the array in front. -/
theorem C20_every_transform (f : TransformFn) (sq : SquadFn) {s : State} {h : List Event} (hr : Reachable s h) {a b : ℕ} (ha : a < s.size) (hb : b < s.size)
    {l : List ℕ} (hl : Route s a b l) (v : ND ℝ) (o : TArgs) {ret : PyRet} (he : f.call sq s a v (.byObj b) o = .ok ret) :
    ∃ out ts, ret = returned o.returnTimestamps out ts ∧
      SampledAs ((passedStamps o).toList ++ l.filterMap (stampsOf s false)) (l.filterMap (stampsOf s true)) ts ∧ ∀ x, ts = some x → NonDecreasing x := by
  obtain ⟨w, m, ⟨t, r, ts⟩, out, h1, h2, h3, rfl⟩ := call_inv he
  obtain ⟨e1, e2, e3⟩ := matcher_stamps hr.wf ha hb hl h2
  have hs := sampled_of (getTransformation_inv h3).1
  have e4 : timedArrays m = (passedStamps o).toList := by
    rw [e3, ← validateInput_stamps h1]
    rcases w with ⟨w, _ | l⟩ <;> rfl
  rw [e1, e2, e4] at hs
  refine ⟨out, ts, rfl, hs, fun x hx => sampled_sorted hs (fun c hc => ?_) hx⟩
  obtain ⟨g1, g2⟩ := getMatcher_good hr.wf ha hb hl h2
  rcases List.mem_append.mp hc with hc | hc
  · rw [← validateInput_stamps h1] at hc
    exact g2 ⟨w.1, w.2⟩ (by simp) c (Option.mem_toList.mp hc)
  · exact conts_sorted g1 c hc

/-- Discrete frames only: the timestamps of any lookup that returns are those of all events, once each. -/
theorem C27_every_lookup (sq : SquadFn) {s : State} {h : List Event} (hr : Reachable s h) {a b : ℕ} (ha : a < s.size) (hb : b < s.size)
    {l : List ℕ} (hl : Route s a b l) (hcont : ∀ i ∈ l, stampsOf s false i = none) {t : Arr Vec} {r : Arr Quat} {ts : List ℝ}
    (he : s.lookupTransform sq a (.byObj b) = .ok (t, r, some ts)) :
    StrictlyIncreasing ts ∧ ∀ x, x ∈ ts ↔ ∃ i ∈ l, ∃ ev, stampsOf s true i = some ev ∧ x ∈ ev := by
  have h1 := (C20_every_lookup sq hr ha hb hl he).1
  have e : l.filterMap (stampsOf s false) = [] := by
    rw [List.filterMap_eq_nil_iff]
    exact hcont
  rw [e] at h1
  cases h2 : l.filterMap (stampsOf s true) with
  | nil => rw [h2] at h1; cases h1
  | cons c cs =>
    rw [h2] at h1
    obtain ⟨out, ho, hs, hm⟩ := h1
    cases ho
    refine ⟨hs, fun x => (hm x).trans ?_⟩
    rw [← h2]
    simp only [List.mem_filterMap]
    constructor
    · rintro ⟨ev, ⟨i, hi, hst⟩, hx⟩; exact ⟨i, hi, ev, hst, hx⟩
    · rintro ⟨i, hi, ev, hst, hx⟩; exact ⟨ev, ⟨i, hi, hst⟩, hx⟩

/-! ### C22 -/

/-- Shapes of the result of any lookup that returns, whatever the frames contain. -/
theorem C22_every_lookup (sq : SquadFn) {s : State} {h : List Event} (hr : Reachable s h) {a b : ℕ} (ha : a < s.size) (hb : b < s.size)
    {l : List ℕ} (hl : Route s a b l) {t : Arr Vec} {r : Arr Quat} {ts : Option (List ℝ)} (he : s.lookupTransform sq a (.byObj b) = .ok (t, r, ts)) :
    (ts = none ↔ ∀ i ∈ l, ∀ disc, stampsOf s disc i = none) ∧
    (ts = none → ∃ t0 r0, t = .one t0 ∧ r = .one r0) ∧
    (∀ out, ts = some out → ∃ tl rl, t = .many tl ∧ r = .many rl ∧ tl.length = out.length ∧ rl.length = out.length) := by
  have h1 := (C20_every_lookup sq hr ha hb hl he).1
  have hiff : ts = none ↔ ∀ i ∈ l, ∀ disc, stampsOf s disc i = none := by
    have key : (∀ i ∈ l, ∀ disc, stampsOf s disc i = none) ↔ l.filterMap (stampsOf s false) = [] ∧ l.filterMap (stampsOf s true) = [] := by
      simp only [List.filterMap_eq_nil_iff]
      constructor
      · intro hn; exact ⟨fun i hi => hn i hi false, fun i hi => hn i hi true⟩
      · rintro ⟨n1, n2⟩ i hi (_ | _)
        · exact n1 i hi
        · exact n2 i hi
    rw [key]
    cases e1 : l.filterMap (stampsOf s false) with
    | cons c cs => rw [e1] at h1; change ts = some _ at h1; simp [h1]
    | nil =>
      cases e2 : l.filterMap (stampsOf s true) with
      | cons c cs => rw [e1, e2] at h1; obtain ⟨out, ho, _⟩ := h1; simp [ho]
      | nil => rw [e1, e2] at h1; change ts = none at h1; simp [h1]
  refine ⟨hiff, ?_⟩
  simp only [State.lookupTransform, bind] at he
  obtain ⟨m, hm, h2⟩ := bind_ok' he
  obtain ⟨c, la, lb, hc, hla, hlb, rfl⟩ := hl
  obtain ⟨fa, fb, rfl, g1, g2⟩ := getMatcher_inv hr.wf ha hb hc hla hlb hm
  have hsh : ∀ f ∈ fa ++ fb, f.data.Shaped ∧ ∃ i ∈ la ++ lb.reverse, s.data i = some f.data := by
    intro f hf
    rcases List.mem_append.mp hf with hf | hf
    · obtain ⟨i, hi, hfi⟩ := forall₂_mem' g1 hf
      exact ⟨hr.shaped i _ hfi.1, i, by simp [hi], hfi.1⟩
    · obtain ⟨i, hi, hfi⟩ := forall₂_mem' g2 hf
      exact ⟨hr.shaped i _ hfi.1, i, List.mem_append.mpr (.inr hi), hfi.1⟩
  have hone : ∀ f ∈ fa ++ fb, f.timestamps = none → ∃ t r, f.translation = .one t ∧ f.rotation = .one r := by
    intro f hf hn
    obtain ⟨hs, _⟩ := hsh f hf
    obtain ⟨ft, fr, fts, fd, fi⟩ := f
    simp only at hn
    subst hn
    cases ft <;> cases fr <;> first | exact ⟨_, _, rfl, rfl⟩ | cases hs
  simp only [Matcher.getTransformation, bind] at h2
  obtain ⟨ts', h3, h2⟩ := bind_ok' h2
  obtain ⟨p, h4, h2⟩ := bind_ok' h2
  cases h2
  have hne := getTimestamps_nonempty h3
  constructor
  · rintro rfl
    have hall := hiff.mp rfl
    refine (transLoop_static_shape (fun f hf => ?_) h4).imp fun t0 ⟨r0, e⟩ => ⟨r0, by rw [e], by rw [e]⟩
    have hn : f.timestamps = none := by
      obtain ⟨_, i, hi, hd⟩ := hsh f hf
      have := hall i hi f.discrete
      simpa [stampsOf, hd, MFrame.data] using this
    exact ⟨hn, hone f hf hn⟩
  · rintro out rfl
    have hf : ∀ f ∈ fa ++ fb, ∀ p, transformFromFrame sq f (some out) = .ok p →
        ∃ tl rl, p = (.many tl, .many rl) ∧ tl.length = out.length ∧ rl.length = out.length := by
      intro f hf p hp
      refine transformFromFrame_shape (hone f hf) (fun fts tr ro hd hts htr hro hnil => ?_) hp
      obtain ⟨hs, _⟩ := hsh f hf
      simp only [FrameData.Shaped, MFrame.data, hts, htr, hro] at hs
      have : fts ∈ (⟨fa ++ fb, []⟩ : Matcher).continuous := by
        refine List.mem_append.mpr (.inl (List.mem_filterMap.mpr ⟨f, hf, ?_⟩))
        simp [hd, hts]
      exact hne fts this (List.length_eq_zero_iff.mp (by rw [← hs.2, hnil]; rfl))
    have hfs : fa ++ fb ≠ [] := by
      intro hnil
      have hcon : ∀ i ∈ la ++ lb.reverse, ∀ disc, stampsOf s disc i = none := by
        obtain ⟨n1, n2⟩ := List.append_eq_nil_iff.mp hnil
        subst n1 n2
        have e1 : la = [] := by cases g1; rfl
        have e2 : lb = [] := by
          have := g2.length_eq
          simpa using this
        subst e1 e2
        simp
      cases hiff.mpr hcon
    obtain ⟨tl, rl, e, k1, k2⟩ := transLoop_shape (seen := false) ⟨_, _, rfl⟩ hf (.inr hfs) h4
    exact ⟨tl, rl, by rw [e], by rw [e], k1, k2⟩

/-! ### C28 -/

/-- Frames whose timestamps decrease, or are too many or too few, make every transform raise; it is
ValueError unless the array is not accepted either, as in a transformation from `a` to `a`. -/
theorem C28_transforms (f : TransformFn) (sq : SquadFn) {s : State} {h : List Event} (hr : Reachable s h) {a b : ℕ} (ha : a < s.size) (hb : b < s.size)
    {l : List ℕ} (hl : Route s a b l) (hpose : ∀ i ∈ l, HasPose s i) (hbad : ∃ i ∈ l, BadStamps s i) (v : ND ℝ) (o : TArgs) :
    (∃ e, f.call sq s a v (.byObj b) o = .error e) ∧
    ((∃ ret, f.call sq s a v (.byObj a) o = .ok ret) → f.call sq s a v (.byObj b) o = .error .valueError) := by
  constructor
  · cases e : f.call sq s a v (.byObj b) o with
    | error x => exact ⟨x, rfl⟩
    | ok ret =>
      obtain ⟨w, m, p, out, h1, h2, h3, rfl⟩ := call_inv e
      obtain ⟨i, hi, hb'⟩ := hbad
      exact absurd hb' ((getMatcher_good hr.wf ha hb hl h2).1 i hi).2
  · rintro ⟨ret, e⟩
    obtain ⟨w, m, p, out, h1, h2, h3, rfl⟩ := call_inv e
    refine call_error h1 ?_
    have hx := (C28_bad_timestamps sq hr ha hb hl hpose).1 hbad
    obtain ⟨c, la, lb, hc, hla, hlb, rfl⟩ := hl
    have hw : s.walk a (.byObj b) = .ok (la, lb.reverse) := by
      simp [State.walk, State.resolve, walk_eq hr.wf ha hb hc hla hlb]
    simp only [State.lookupTransform, State.getMatcher, hw, bind, Except.bind, addArrays] at hx ⊢
    have key : ∀ i, HasPose s i → ¬BadStamps s i → Checked s i := by
      rintro i ⟨d, ⟨t, r⟩, hd, hp⟩ hn
      refine ⟨d, (t, r), hd, hp, ?_⟩
      cases hts : d.timestamps with
      | none => rfl
      | some ts =>
        by_contra hne
        apply hn
        refine ⟨d, t, r, ts, hd, hp, hts, ?_⟩
        by_contra hcon
        push Not at hcon
        exact hne (checkTimestamps_ok hcon.1 hcon.2)
    by_cases h4 : ∃ i ∈ la, BadStamps s i
    · rw [addFrames_bad (fun i hi => hpose i (by simp [hi])) h4]
    · obtain ⟨fs, e, _⟩ := addFrames_ok (s := s) (inv := false) (l := la) (m := Matcher.empty)
        (fun i hi => key i (hpose i (by simp [hi])) (fun hb => h4 ⟨i, hi, hb⟩))
      simp only [e]
      rw [addFrames_bad (fun i hi => hpose i (by simp at hi; simp [hi]))]
      obtain ⟨i, hi, hb⟩ := hbad
      rcases List.mem_append.mp hi with hi | hi
      · exact absurd ⟨i, hi, hb⟩ h4
      · exact ⟨i, hi, hb⟩

end RBM.Props
