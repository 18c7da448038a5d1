import Verif.Lemmas.Tf
import Verif.Lemmas.Tree
import Verif.Lemmas.Registry
import Verif.Props.Rosbag
import Verif.Props.Lookup

/-!
C58: a `Transformer` made from a reference frame.
-/

namespace RBM.Props

open RBM RBM.Ros RBM.Spec

theorem fromSec_ns (n : ℕ) : fromSec ((n : ℝ) / 1000000000) = .ok n := by
  have h0 : (0 : ℝ) ≤ n := Nat.cast_nonneg n
  rw [hasStamp_fromSec (by have : (0 : ℝ) ≤ (n : ℝ) / 1000000000 := by positivity
                           linarith), cutNs, div_mul_cancel₀ _ (by norm_num), Int.floor_natCast]
  rfl

theorem makeTransform_ns (n : ℕ) (t : Vec) (r : Quat) (f c : Option String) :
    makeTransformMsg (vecList t) (quatList r) f c ((n : ℝ) / 1000000000) = .ok (poseMsg f c n t r) := by
  simp [makeTransformMsg, mkHeader, fromSec_ns, mkXYZ, mkXYZW, at', vecList, quatList, bind, Except.bind, Pure.pure, Except.pure, poseMsg, xyz, xyzw]

theorem setRows_ok (f c : Option String) (rows : List (Vec × Quat × ℕ)) : ∀ b : TfBuffer,
    setRows f c b (rows.map fun x => (x.1, x.2.1, (x.2.2 : ℝ))) =
      .ok { b with msgs := b.msgs ++ rows.map fun x => (false, poseMsg f c x.2.2 x.1 x.2.1) } := by
  induction rows with
  | nil => intro b; simp [setRows]
  | cons x rows ih =>
    intro b
    obtain ⟨t, r, n⟩ := x
    simp only [List.map_cons, setRows, makeTransform_ns, bind, Except.bind, ih]
    simp

theorem zip_ns (tl : List Vec) (rl : List Quat) (ns : List ℕ) :
    tl.zip (rl.zip (ns.map fun n : ℕ => (n : ℝ))) = (tl.zip (rl.zip ns)).map fun x => (x.1, x.2.1, (x.2.2 : ℝ)) := by
  induction tl generalizing rl ns with
  | nil => simp
  | cons t tl ih =>
    cases rl with
    | nil => simp
    | cons r rl => cases ns with
      | nil => simp
      | cons n ns => simp [ih]

theorem addNodes_cons {s : State} {i : ℕ} {ms : List (Bool × TransformStamped)} (h : FrameMsgs s i ms) (l : List ℕ) (b : TfBuffer) :
    addNodes s (i :: l) b = addNodes s l { b with msgs := b.msgs ++ ms } := by
  rcases h with ⟨h1, rfl, -⟩ | ⟨p, hp, ⟨t, r, disc, hd, rfl⟩ | ⟨tl, rl, ns, disc, hd, htl, hrl, hne, hlen, hms⟩⟩
  · simp [addNodes, h1]
  · have h0 := makeTransform_ns 0 t r (s.name p) (s.name i)
    simp only [Nat.cast_zero, zero_div] at h0
    simp only [addNodes, hp, hd, TfBuffer.setTransformStatic, staticRfToTransformMsg, h0, bind, Except.bind, Pure.pure, Except.pure]
  · have hms' : ms = (tl.zip (rl.zip ns)).map fun x => (false, poseMsg (s.name p) (s.name i) x.2.2 x.1 x.2.1) := by
      apply List.ext_getElem?
      intro k
      by_cases hk : k < ns.length
      · rw [hms k ns[k] (tl[k]'(by omega)) (rl[k]'(by omega)) (by simp) (by simp) (by simp)]
        simp [List.getElem?_eq_getElem, hk, htl, hrl]
      · rw [List.getElem?_eq_none (by omega), List.getElem?_eq_none (by simp; omega)]
    have hrows : tl.zip (rl.zip ns) ≠ [] := by
      intro e
      have := congrArg List.length e
      simp only [List.length_zip, List.length_nil, htl, hrl] at this
      have := List.length_pos_iff.mpr hne
      omega
    obtain ⟨x, xs, hx⟩ := List.exists_cons_of_ne_nil hrows
    have hset := setRows_ok (s.name p) (s.name i) (tl.zip (rl.zip ns)) b
    have hst : b.setTransforms s i = .ok { b with msgs := b.msgs ++ ms } := by
      rw [hms', ← hset]
      simp only [TfBuffer.setTransforms, hp, hd, sampleRows, zip_ns, bind, Except.bind]
      rw [hx]
      rfl
    simp only [addNodes, hp, hd, hst, bind, Except.bind]

theorem addNodes_all {s : State} (l : List ℕ) (mss : List (List (Bool × TransformStamped))) (h : List.Forall₂ (FrameMsgs s) l mss) :
    ∀ b, addNodes s l b = .ok { b with msgs := b.msgs ++ mss.flatten } := by
  induction h with
  | nil => intro b; simp [addNodes]
  | cons h1 _ ih => intro b; rw [addNodes_cons h1, ih]; simp

/-! ### Cache time -/

theorem maxL_spec {l : List ℝ} (h : l ≠ []) : maxL l ∈ l ∧ ∀ x ∈ l, x ≤ maxL l := by
  induction l with
  | nil => exact absurd rfl h
  | cons x l ih =>
    cases l with
    | nil => simp [maxL]
    | cons y l =>
      obtain ⟨h1, h2⟩ := ih (by simp)
      simp only [maxL]
      constructor
      · rcases max_choice x (maxL (y :: l)) with e | e <;> rw [e]
        · simp
        · exact List.mem_cons_of_mem _ h1
      · intro z hz
        rcases List.mem_cons.mp hz with rfl | hz
        · exact le_max_left _ _
        · exact (h2 z hz).trans (le_max_right _ _)

theorem minL_spec {l : List ℝ} (h : l ≠ []) : minL l ∈ l ∧ ∀ x ∈ l, minL l ≤ x := by
  induction l with
  | nil => exact absurd rfl h
  | cons x l ih =>
    cases l with
    | nil => simp [minL]
    | cons y l =>
      obtain ⟨h1, h2⟩ := ih (by simp)
      simp only [minL]
      constructor
      · rcases min_choice x (minL (y :: l)) with e | e <;> rw [e]
        · simp
        · exact List.mem_cons_of_mem _ h1
      · intro z hz
        rcases List.mem_cons.mp hz with rfl | hz
        · exact min_le_left _ _
        · exact (min_le_right _ _).trans (h2 z hz)

/-- The first and last timestamps of a frame, in seconds. -/
noncomputable def ends (s : State) (i : ℕ) : List (ℝ × ℝ) :=
  match s.data i with
  | some d => match d.timestamps with
    | some ts => match ts.head?, ts.getLast? with
      | some a, some b => [(a / 1000000000, b / 1000000000)]
      | _, _ => []
    | none => []
  | none => []

theorem startEnd_ok {s : State} {i : ℕ} {ms : List (Bool × TransformStamped)} (h : FrameMsgs s i ms) : startEnd s i = .ok (ends s i) := by
  have key : ∀ d, s.data i = some d → d.timestamps ≠ some [] → startEnd s i = .ok (ends s i) := by
    intro d hd hne
    unfold startEnd ends
    rw [hd]
    simp only
    cases hts : d.timestamps with
    | none => rfl
    | some ts =>
      cases ts with
      | nil => exact absurd hts hne
      | cons a ts =>
        obtain ⟨b, hb⟩ : ∃ b, (a :: ts).getLast? = some b := ⟨(a :: ts).getLast (by simp), List.getLast?_eq_some_getLast (by simp)⟩
        simp only [List.head?_cons, hb]
  rcases h with ⟨-, -, d, hd, hne⟩ | ⟨p, hp, ⟨t, r, disc, hd, -⟩ | ⟨tl, rl, ns, disc, hd, -, -, hne, -⟩⟩
  · exact key d hd hne
  · exact key _ hd (by simp)
  · exact key _ hd (fun e => hne (by simpa using Option.some.inj e))

/-- The cache time of a buffer for a set of frames: none if no frame has timestamps; otherwise the time from the earliest first timestamp to the latest
last timestamp. -/
def CacheTimeFor (s : State) (tree : ℕ → Prop) (c : Option ℝ) : Prop :=
  ((∀ i d, tree i → s.data i = some d → d.timestamps = none) → c = none) ∧
  ∀ i d ts, tree i → s.data i = some d → d.timestamps = some ts → ts ≠ [] →
    ∃ T a b, c = some T ∧ T = b / 1000000000 - a / 1000000000 ∧
      (∃ j d' ts', tree j ∧ s.data j = some d' ∧ d'.timestamps = some ts' ∧ ts'.head? = some a) ∧
      (∃ j d' ts', tree j ∧ s.data j = some d' ∧ d'.timestamps = some ts' ∧ ts'.getLast? = some b) ∧
      ∀ j d' ts' x y, tree j → s.data j = some d' → d'.timestamps = some ts' → ts'.head? = some x → ts'.getLast? = some y → a ≤ x ∧ y ≤ b

theorem mem_ends {s : State} {i : ℕ} {x : ℝ × ℝ} (h : x ∈ ends s i) :
    ∃ d ts a b, s.data i = some d ∧ d.timestamps = some ts ∧ ts.head? = some a ∧ ts.getLast? = some b ∧ x = (a / 1000000000, b / 1000000000) := by
  unfold ends at h
  split at h
  · rename_i d hd
    split at h
    · rename_i ts hts
      split at h
      · rename_i a b ha hb
        exact ⟨d, ts, a, b, hd, hts, ha, hb, by simpa using h⟩
      · simp at h
    · simp at h
  · simp at h

theorem ends_mem {s : State} {i : ℕ} {d : FrameData} {ts : List ℝ} {a b : ℝ} (hd : s.data i = some d) (hts : d.timestamps = some ts)
    (ha : ts.head? = some a) (hb : ts.getLast? = some b) : (a / 1000000000, b / 1000000000) ∈ ends s i := by
  unfold ends
  rw [hd]
  simp only [hts, ha, hb, List.mem_singleton]

theorem cacheTime_for {s : State} {l : List ℕ} {tree : ℕ → Prop} (hl : ∀ i, i ∈ l ↔ tree i) :
    CacheTimeFor s tree (cacheTimeOf (l.flatMap (ends s))) := by
  constructor
  · intro h
    have : l.flatMap (ends s) = [] := by
      rw [List.eq_nil_iff_forall_not_mem]
      intro x hx
      obtain ⟨i, hi, hx⟩ := List.mem_flatMap.mp hx
      obtain ⟨d, ts, a, b, hd, hts, -⟩ := mem_ends hx
      rw [h i d ((hl i).mp hi) hd] at hts
      cases hts
    rw [this]
    rfl
  · intro i d ts hi hd hts hne
    have hne' : l.flatMap (ends s) ≠ [] := by
      obtain ⟨a, ha⟩ : ∃ a, ts.head? = some a := ⟨_, List.head?_eq_some_head hne⟩
      obtain ⟨b, hb⟩ : ∃ b, ts.getLast? = some b := ⟨_, List.getLast?_eq_some_getLast hne⟩
      exact List.ne_nil_of_mem (List.mem_flatMap.mpr ⟨i, (hl i).mpr hi, ends_mem hd hts ha hb⟩)
    obtain ⟨m1, m2⟩ := maxL_spec (l := (l.flatMap (ends s)).map Prod.snd) (by simpa using hne')
    obtain ⟨n1, n2⟩ := minL_spec (l := (l.flatMap (ends s)).map Prod.fst) (by simpa using hne')
    obtain ⟨x, hx, ex⟩ := List.mem_map.mp n1
    obtain ⟨y, hy, ey⟩ := List.mem_map.mp m1
    obtain ⟨ix, hix, hx⟩ := List.mem_flatMap.mp hx
    obtain ⟨iy, hiy, hy⟩ := List.mem_flatMap.mp hy
    obtain ⟨dx, tsx, ax, bx, x1, x2, x3, x4, rfl⟩ := mem_ends hx
    obtain ⟨dy, tsy, ay, by', y1, y2, y3, y4, rfl⟩ := mem_ends hy
    refine ⟨_, ax, by', by rw [cacheTimeOf, if_neg hne'], ?_, ⟨ix, dx, tsx, (hl _).mp hix, x1, x2, x3⟩, ⟨iy, dy, tsy, (hl _).mp hiy, y1, y2, y4⟩, ?_⟩
    · rw [← ex, ← ey]
    · intro j d' ts' u v hj hd' hts' hu hv
      have hm : (u / 1000000000, v / 1000000000) ∈ l.flatMap (ends s) := List.mem_flatMap.mpr ⟨j, (hl j).mpr hj, ends_mem hd' hts' hu hv⟩
      have e1 := n2 (u / 1000000000) (List.mem_map.mpr ⟨_, hm, rfl⟩)
      have e2 := m2 (v / 1000000000) (List.mem_map.mpr ⟨_, hm, rfl⟩)
      rw [← ex] at e1
      rw [← ey] at e2
      simp only at e1 e2
      constructor <;> linarith

/-- `Transformer.from_reference_frame(rf)`: the buffer gets exactly the messages of the frames of the tree to which `rf` belongs, each frame once, with a
cache time from the earliest to the latest timestamp. -/
theorem C58_messages {s : State} {h : List Event} (hr : Reachable s h) {rf r : ℕ} (hrf : InTree s r rf) (hsz : rf < s.size)
    (hroot : s.parent r = none) (hok : ∀ i, InTree s r i → ∃ ms, FrameMsgs s i ms) :
    ∃ (b : TfBuffer) (frames : List ℕ) (mss : List (List (Bool × TransformStamped))), fromReferenceFrame s rf = .ok b ∧
      frames.Nodup ∧ (∀ i, i ∈ frames ↔ InTree s r i) ∧ List.Forall₂ (FrameMsgs s) frames mss ∧ b.msgs = mss.flatten ∧
      CacheTimeFor s (InTree s r) b.cacheTime := by
  have hwf := hr.wf
  obtain ⟨r1, r2, r3⟩ := root_spec hwf hsz
  have er : s.root rf = r := root_unique r2 r1 hrf hroot
  have hmem : ∀ i, i ∈ s.preOrder r ↔ InTree s r i := fun i => mem_preOrder hwf (er ▸ r3) i
  obtain ⟨mss, hmss⟩ : ∃ mss, List.Forall₂ (FrameMsgs s) (s.preOrder r) mss := by
    have : ∀ l : List ℕ, (∀ i ∈ l, InTree s r i) → ∃ mss, List.Forall₂ (FrameMsgs s) l mss := by
      intro l
      induction l with
      | nil => intro _; exact ⟨[], .nil⟩
      | cons i l ih =>
        intro hl
        obtain ⟨ms, hms⟩ := hok i (hl i (by simp))
        obtain ⟨mss, hmss⟩ := ih fun j hj => hl j (by simp [hj])
        exact ⟨ms :: mss, .cons hms hmss⟩
    exact this _ fun i hi => (hmem i).mp hi
  have hse : (s.preOrder r).mapM (startEnd s) = .ok ((s.preOrder r).map (ends s)) := by
    apply mapM_ok
    intro i hi
    obtain ⟨ms, hms⟩ := hok i ((hmem i).mp hi)
    exact startEnd_ok hms
  refine ⟨⟨cacheTimeOf ((s.preOrder r).flatMap (ends s)), mss.flatten⟩, s.preOrder r, mss, ?_, nodup_preOrder hwf r, hmem, hmss, ?_, ?_⟩
  · simp only [fromReferenceFrame, er, hse, bind, Except.bind]
    rw [addNodes_all _ _ hmss]
    simp [List.flatMap]
  · rfl
  · exact cacheTime_for hmem

end RBM.Props
