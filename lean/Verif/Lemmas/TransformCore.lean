import Verif.Lemmas.TransformAdd

namespace RBM

open Spec

/-! ### swapping the time axis -/

theorem getD_set {l : List ℕ} {i j a : ℕ} (hi : i < l.length) :
    (l.set i a).getD j 0 = if j = i then a else l.getD j 0 := by
  simp only [List.getD_eq_getElem?_getD, List.getElem?_set]
  by_cases h : j = i
  · subst h; simp [hi]
  · simp [h, Ne.symm h]

theorem getD_cons {l : List ℕ} {x j : ℕ} : (x :: l).getD j 0 = if j = 0 then x else l.getD (j - 1) 0 := by
  cases j <;> simp

theorem getD_tail {l : List ℕ} {j : ℕ} : l.tail.getD j 0 = l.getD (j + 1) 0 := by
  cases l <;> simp

theorem swap_set_time {x : List ℕ} {q i : ℕ} (hq : q < x.length) :
    swapL 0 q (x.set q i) = i :: (swapL 0 q x).tail := by
  apply list_ext_getD (by simp; omega)
  intro j hj
  simp at hj
  rw [swapL_getD (by simp; omega) (by simpa), getD_cons, getD_tail, swapL_getD (by omega) hq,
    getD_set hq, getD_set hq, getD_set hq]
  by_cases h0 : j = 0
  · subst h0
    by_cases hq0 : q = 0
    · subst hq0; simp
    · simp [Ne.symm hq0]
  · by_cases hjq : j = q
    · subst hjq; simp [h0]
      rw [if_neg (Ne.symm h0), if_pos (by omega)]
    · simp [h0, hjq]
      rw [if_neg (by omega), Nat.sub_add_cancel (by omega)]

theorem swap_set_space {x : List ℕ} {q p c : ℕ} (hq : q < x.length) (hp : p < x.length) (hp0 : p ≠ 0) (hpq : p ≠ q) :
    swapL 0 q (x.set p c) = (swapL 0 q x).set p c := by
  apply list_ext_getD (by simp)
  intro j hj
  simp at hj
  rw [swapL_getD (by simp; omega) (by simpa), getD_set hp, getD_set hp, getD_set hp, getD_set (by simpa),
    swapL_getD (by omega) hq]
  by_cases h1 : j = p
  · subst h1; simp [hp0, hpq]
  · simp [h1, Ne.symm hpq, Ne.symm hp0]

theorem vec3_swap {X Y : ND ℝ} {d q p : ℕ} (h : ∀ y, y.length = d → X.get y = Y.get (swapL 0 q y))
    {idx : List ℕ} (hl : idx.length = d) (hq : q < d) (hp : p < d) (hp0 : p ≠ 0) (hpq : p ≠ q) (i : ℕ) :
    vec3 X p (idx.set q i) = vec3 Y p (i :: (swapL 0 q idx).tail) := by
  have key : ∀ c, X.get ((idx.set q i).set p c) = Y.get ((i :: (swapL 0 q idx).tail).set p c) := by
    intro c
    rw [h _ (by simpa), swap_set_space (by simp; omega) (by simp; omega) hp0 hpq, swap_set_time (by omega)]
  simp only [vec3, key]

theorem quat4_swap {X Y : ND ℝ} {d q p : ℕ} (h : ∀ y, y.length = d → X.get y = Y.get (swapL 0 q y))
    {idx : List ℕ} (hl : idx.length = d) (hq : q < d) (hp : p < d) (hp0 : p ≠ 0) (hpq : p ≠ q) (i : ℕ) :
    quat4 X p (idx.set q i) = quat4 Y p (i :: (swapL 0 q idx).tail) := by
  have key : ∀ c, X.get ((idx.set q i).set p c) = Y.get ((i :: (swapL 0 q idx).tail).set p c) := by
    intro c
    rw [h _ (by simpa), swap_set_space (by simp; omega) (by simp; omega) hp0 hpq, swap_set_time (by omega)]
  simp only [quat4, key]
  rfl

/-- The shape with the time axis first. -/
theorem swapShape {v : ND ℝ} {q : ℕ} {ats : List ℝ} (h : TimedArray v q ats) :
    ∃ rest, swapL 0 q v.shape = ats.length :: rest ∧ rest.length + 1 = v.ndim ∧
      ∀ n, swapL 0 q (n :: rest) = v.shape.set q n := by
  have hq := h.axis
  simp only [ND.ndim] at hq
  refine ⟨(swapL 0 q v.shape).tail, ?_, by simp [ND.ndim]; omega, ?_⟩
  · have := swap_set_time (x := v.shape) (i := ats.length) hq
    rw [← this]
    congr 1
    rw [← h.length]; exact set_getD_self.symm
  · intro n
    rw [← swap_set_time hq, swapL_swapL (by simp; omega) (by simpa)]

theorem valid_swap_tail {v : ND ℝ} {q : ℕ} {ats : List ℝ} (h : TimedArray v q ats) {rest : List ℕ}
    (hr : swapL 0 q v.shape = ats.length :: rest) {idx : List ℕ} (hv : Valid v.shape idx) :
    Valid rest (swapL 0 q idx).tail := by
  have hq := h.axis
  simp only [ND.ndim] at hq
  have := valid_swapL (i := 0) (j := q) (by omega) hq hv
  rw [hr] at this
  cases hx : swapL 0 q idx with
  | nil => rw [hx] at this; simp [Valid] at this
  | cons y ys => rw [hx] at this; exact this.2

theorem swap_getD_other {x : List ℕ} {q p : ℕ} (hq : q < x.length) (hp0 : p ≠ 0) (hpq : p ≠ q) :
    (swapL 0 q x).getD p 0 = x.getD p 0 := by
  rw [swapL_getD (by omega) hq, if_neg hpq, if_neg hp0]

/-! ### vectors, time axis first -/

/-- Rotation of the rows of a timestamped array. -/
theorem vectorsCore_timed (sq : SquadFn) (hsq : SquadLaw sq) {s : State} (h : WF s) {a b : ℕ} (ha : a < s.size)
    (hb : b < s.size) (hp : PathAll s a b (FrameOk true s)) {l : List ℕ} (hl : Route s a b l)
    (w : ND ℝ) {rest : List ℕ} {ats : List ℝ} (hs : w.shape = ats.length :: rest) (h2 : 2 ≤ ats.length)
    (hinc : StrictlyIncreasing ats) {axis : ℤ} {p : ℕ} (hax : AxisIs axis w.ndim p) (hp0 : p ≠ 0)
    (h3 : w.shape.getD p 0 = 3) (h4 : w.shape.getLast? ≠ some 4) :
    let ts := commonStamps ats (ats :: l.filterMap (stampsOf s false))
    ∃ (fs : List MFrame) (T : ℝ → Pose) (t : Arr Vec) (r : Arr Quat) (w' R : ND ℝ),
      s.getMatcher a (.byObj b) [⟨w, some ats⟩] = .ok ⟨fs, [⟨w, some ats⟩]⟩ ∧
      (⟨fs, [⟨w, some ats⟩]⟩ : Matcher).getTransformation sq = .ok (t, r, some ts) ∧
      (⟨fs, [⟨w, some ats⟩]⟩ : Matcher).getArray1 sq (some ts) = .ok w' ∧
      rotateVectorsF (expandSingletonAxes (ND.ofQuats r) w'.ndim) w' axis = .ok R ∧
      w'.shape = ts.length :: rest ∧
      R.shape = ts.length :: rest ∧ (∀ τ ∈ ts, IsTransformAt sq s a b τ (T τ) ∧ IsUnitQ (T τ).r) ∧
      (t = .many (ts.map fun τ => (T τ).t) ∨ (t = .many [0] ∧ ∀ τ, (T τ).t = 0)) ∧
      ∀ (i k : ℕ) τ js, ts[i]? = some τ → ats[k]? = some τ → Valid rest js →
        vec3 R p (i :: js) = rot (T τ).r (vec3 w p (k :: js)) := by
  intro ts
  obtain ⟨fs, T, e1, hT, hg⟩ := core_timed sq hsq h ha hb hp hl w hs rfl (by rintro rfl; simp at h2) hinc.nonDecreasing
  obtain ⟨w', e2, hw's, hw'⟩ := resample_knots sq w hs (by rw [← hs]; exact h4) rfl h2 hinc
    (ts := ts) commonStamps_sub
  have hnd : w'.ndim = w.ndim := by simp [ND.ndim, hw's, hs]
  have hax' : normAxis axis w'.ndim = some p := by rw [hnd]; exact axisIs_norm hax
  obtain ⟨p, rfl⟩ : ∃ p', p = p' + 1 := ⟨p - 1, by omega⟩
  have hpl := hax.1
  simp only [ND.ndim, hs, List.length_cons] at hpl
  have h3' : w'.shape.getD (p + 1) 0 = 3 := by
    rw [hs] at h3; rw [hw's]; simpa using h3
  have hvec : ∀ (i k : ℕ) τ js, ts[i]? = some τ → ats[k]? = some τ →
      vec3 w' (p + 1) (i :: js) = vec3 w (p + 1) (k :: js) := by
    intro i k τ js hi hk
    simp only [vec3, List.set_cons_succ, hw' i k τ _ hi hk]
  have hval : ∀ (i : ℕ) τ js, ts[i]? = some τ → Valid rest js → ∀ c < 3, Valid w'.shape ((i :: js).set (p + 1) c) := by
    intro i τ js hi hj c hc
    rw [hw's] at h3' ⊢
    apply valid_set (p := p + 1) (k := c)
    · exact ⟨(List.getElem?_eq_some_iff.mp hi).1, hj⟩
    · rw [h3']; exact hc
  rcases hg with hg | ⟨rfl, hid, hg⟩
  · obtain ⟨R, r1, r2, r3⟩ := rotateF_many (ts.map fun τ => (T τ).r) (by
      intro q hq
      obtain ⟨τ, hτ, rfl⟩ := List.mem_map.mp hq
      exact (hT τ hτ).2) w' hax' (by omega) h3' (by rw [hw's]; simp)
    refine ⟨fs, T, _, _, w', R, e1, hg, getArray1_of e2, r1, hw's, r2.trans hw's, hT, .inl rfl, ?_⟩
    intro i k τ js hi hk hj
    have hjl := hj.length
    rw [← hvec i k τ js hi hk]
    apply vec3_of_entries (by simp; omega)
    intro c
    rw [r3 _ (hval i τ js hi hj c c.2), ← vec3_eq, vec3_set]
    congr 2
    simp [List.getD_eq_getElem?_getD, hi]
  · obtain ⟨R, r1, r2, r3⟩ := rotateF_one 1 one_ne_zero w'.ndim w' hax' h3'
    refine ⟨fs, T, _, _, w', R, e1, hg, getArray1_of e2, r1, hw's, r2.trans hw's, hT, .inr ⟨rfl, fun τ => by rw [hid]; rfl⟩, ?_⟩
    intro i k τ js hi hk hj
    have hjl := hj.length
    rw [← hvec i k τ js hi hk, hid]
    apply vec3_of_entries (by simp; omega)
    intro c
    rw [r3, ← vec3_eq, vec3_set]
    rfl

end RBM
