import Verif.Spec.Errors
import Verif.Lemmas.Nearby
import Mathlib.Analysis.InnerProductSpace.PiL2
import Mathlib.Analysis.Quaternion

/-!
Propagation of measurement errors (C100).
-/

namespace RBM

open Spec

theorem sdist_eq (v w : Vec) : Spec.dist v w = Dist.dist (WithLp.toLp 2 v : EuclideanSpace ℝ (Fin 3)) (WithLp.toLp 2 w) := by
  rw [EuclideanSpace.dist_eq, Fin.sum_univ_three]
  simp only [Spec.dist, dot, Pi.sub_apply, Real.dist_eq, sq, abs_mul_abs_self]

theorem sdist_triangle (u v w : Vec) : Spec.dist u w ≤ Spec.dist u v + Spec.dist v w := by
  rw [sdist_eq, sdist_eq, sdist_eq]; exact dist_triangle _ _ _

theorem sdist_nonneg (v w : Vec) : 0 ≤ Spec.dist v w := Real.sqrt_nonneg _

theorem sdist_sub (u v w : Vec) : Spec.dist (u - w) (v - w) = Spec.dist u v := by simp [Spec.dist]

theorem sdist_add (u v w : Vec) : Spec.dist (u + w) (v + w) = Spec.dist u v := by simp [Spec.dist]

theorem sdist_comm (u v : Vec) : Spec.dist u v = Spec.dist v u := by rw [sdist_eq, sdist_eq]; exact dist_comm _ _

theorem sdist_self (u : Vec) : Spec.dist u u = 0 := by simp [Spec.dist, dot]

theorem sdist_eq_zero {u v : Vec} (h : Spec.dist u v = 0) : u = v := by
  rw [sdist_eq, dist_eq_zero] at h
  exact congrArg WithLp.ofLp h

theorem sdist_rot {q : Quat} (hq : q ≠ 0) (u v : Vec) : Spec.dist (rot q u) (rot q v) = Spec.dist u v := by
  rw [Spec.dist, ← rot_sub, dot_rot q hq, Spec.dist]

theorem sdist_zero_rot {q : Quat} (hq : q ≠ 0) (u : Vec) : Spec.dist (rot q u) 0 = Spec.dist u 0 := by
  have := sdist_rot hq u 0
  rwa [rot_zero] at this

theorem Spec.TurnedBy.nonneg {η : ℝ} {r r' : Quat} (h : TurnedBy η r r') : 0 ≤ η := by
  have h1 := (sdist_nonneg _ _).trans (h ![1, 0, 0])
  have : Spec.dist ![1, 0, 0] 0 = 1 := by simp [Spec.dist, dot]
  rwa [this, mul_one] at h1

theorem turnedBy_refl {η : ℝ} (h : 0 ≤ η) (r : Quat) : TurnedBy η r r := fun v => by
  rw [sdist_self]; exact mul_nonneg h (sdist_nonneg _ _)

theorem nsq_norm (q : Quat) : Real.sqrt (nsq q) = ‖q‖ := by
  rw [nsq_eq_normSq, Quaternion.normSq_eq_norm_mul_self, Real.sqrt_mul_self (norm_nonneg _)]

theorem sdist_norm (u v : Vec) : Spec.dist u v = ‖Spec.pure u - Spec.pure v‖ := by
  rw [← nsq_norm, Spec.dist]
  congr 1
  simp [nsq, dot]
  ring

/-- Unit quaternions that are close turn vectors by little. -/
theorem turnedBy_unit {q q' : Quat} (hq : IsUnitQ q) (hq' : IsUnitQ q') : TurnedBy (2 * Real.sqrt (nsq (q' - q))) q q' := by
  intro v
  have n : ‖q‖ = 1 := by rw [← nsq_norm, hq, Real.sqrt_one]
  have n' : ‖q'‖ = 1 := by rw [← nsq_norm, hq', Real.sqrt_one]
  have i : ∀ {x : Quat}, IsUnitQ x → x⁻¹ = star x := by
    intro x hx
    have : nsq x = 1 := hx
    rw [nsq_eq_normSq] at this
    rw [Quaternion.inv_def, this]
    simp
  have h0 : Spec.dist v 0 = ‖Spec.pure v‖ := by
    rw [sdist_norm]; congr 1
    rw [show Spec.pure 0 = 0 by ext <;> simp [Spec.pure], sub_zero]
  rw [sdist_norm, pure_rot _ hq.ne_zero, pure_rot _ hq'.ne_zero, h0, nsq_norm, i hq, i hq']
  have e : q' * Spec.pure v * star q' - q * Spec.pure v * star q = (q' - q) * Spec.pure v * star q' + q * Spec.pure v * star (q' - q) := by
    rw [star_sub]; noncomm_ring
  rw [e]
  refine (norm_add_le _ _).trans ?_
  rw [norm_mul, norm_mul, norm_mul, norm_mul, norm_star, norm_star, n, n']
  linarith

/-- Poses whose positions are `ε` apart and whose orientations are turned by `η`. -/
structure PoseOff (ε η : ℝ) (P P' : Pose) : Prop where
  pos : Spec.dist P'.t P.t ≤ ε
  turn : TurnedBy η P.r P'.r
  ne : P.r ≠ 0
  ne' : P'.r ≠ 0

theorem PoseOff.act {ε η : ℝ} {P P' : Pose} (h : PoseOff ε η P P') (p p' : Vec) {R : ℝ} (hR : η * Spec.dist p 0 ≤ η * R) :
    Spec.dist (P'.act p') (P.act p) ≤ Spec.dist p' p + (ε + η * R) := by
  have h1 := sdist_triangle (P'.act p') (P'.act p) (P.act p)
  have h2 : Spec.dist (P'.act p') (P'.act p) = Spec.dist p' p := by
    simp only [Pose.act, sdist_add, sdist_rot h.ne']
  have h3 := sdist_triangle (P'.act p) (rot P.r p + P'.t) (P.act p)
  have h4 : Spec.dist (P'.act p) (rot P.r p + P'.t) ≤ η * Spec.dist p 0 := by
    simp only [Pose.act, sdist_add]; exact h.turn p
  have h5 : Spec.dist (rot P.r p + P'.t) (P.act p) = Spec.dist P'.t P.t := by
    simp only [Pose.act]
    rw [add_comm, add_comm (rot P.r p), sdist_add]
  linarith [h.pos]

theorem PoseOff.inv_act {ε η : ℝ} {P P' : Pose} (h : PoseOff ε η P P') (p p' : Vec) {R : ℝ} (hR : η * Spec.dist (P.inv.act p) 0 ≤ η * R) :
    Spec.dist (P'.inv.act p') (P.inv.act p) ≤ Spec.dist p' p + (ε + η * R) := by
  have ha := h.act (P.inv.act p) (P'.inv.act p') hR
  have key : Spec.dist (P'.inv.act p') (P.inv.act p) = Spec.dist (P'.act (P'.inv.act p')) (P'.act (P.inv.act p)) := by
    simp only [Pose.act, sdist_add, sdist_rot h.ne']
  have e' : P'.act (P'.inv.act p') = p' := by
    rw [← Pose.comp_act h.ne' (Pose.inv_r_ne h.ne'), Pose.comp_inv h.ne']; simp [Pose.act, Pose.id]
  have e : P.act (P.inv.act p) = p := by
    rw [← Pose.comp_act h.ne (Pose.inv_r_ne h.ne), Pose.comp_inv h.ne]; simp [Pose.act, Pose.id]
  have h0 := h.act (P.inv.act p) (P.inv.act p) hR
  rw [sdist_self, zero_add, e] at h0
  rw [key, e']
  have := sdist_triangle p' p (P'.act (P.inv.act p))
  rw [sdist_comm p] at this
  linarith

theorem map_ne {f : ℕ → Pose} {l : List ℕ} (h : ∀ i ∈ l, (f i).r ≠ 0) : ∀ Q ∈ l.map f, Q.r ≠ 0 := by
  intro Q hQ
  obtain ⟨i, hi, rfl⟩ := List.mem_map.mp hQ
  exact h i hi

theorem chain_off {f f' : ℕ → Pose} {ε η R : ℕ → ℝ} : ∀ (l : List ℕ) (p p' : Vec), (∀ i ∈ l, PoseOff (ε i) (η i) (f i) (f' i)) →
    (∀ m i k, l = m ++ i :: k → η i * Spec.dist ((chain (m.map f)).act p) 0 ≤ η i * R i) →
    Spec.dist ((chain (l.map f')).act p') ((chain (l.map f)).act p) ≤ Spec.dist p' p + (l.map fun i => ε i + η i * R i).sum
  | [], p, p', _, _ => by simp [chain, Pose.act, Pose.id]
  | i :: l, p, p', h, hR => by
    have hl : ∀ j ∈ l, PoseOff (ε j) (η j) (f j) (f' j) := fun j hj => h j (List.mem_cons_of_mem _ hj)
    have hi := h i (by simp)
    have n1 : ∀ Q ∈ l.map f, Q.r ≠ 0 := map_ne fun j hj => (hl j hj).ne
    have n2 : ∀ Q ∈ l.map f', Q.r ≠ 0 := map_ne fun j hj => (hl j hj).ne'
    have ih := chain_off l ((f i).act p) ((f' i).act p') hl (fun m j k hj => by
      have := hR (i :: m) j k (by rw [hj]; rfl)
      rw [List.map_cons, chain, Pose.comp_act (chain_r_ne (map_ne fun x hx => (hl x (by rw [hj]; simp [hx])).ne)) hi.ne] at this
      exact this)
    have h0 := hR [] i l rfl
    have : η i * Spec.dist p 0 ≤ η i * R i := by
      rw [List.map_nil, show (chain []).act p = p by simp [chain, Pose.act, Pose.id]] at h0; exact h0
    have h1 := hi.act p p' this
    rw [List.map_cons, List.map_cons, List.map_cons, List.sum_cons, chain, chain, Pose.comp_act (chain_r_ne n1) hi.ne, Pose.comp_act (chain_r_ne n2) hi.ne']
    linarith

theorem chain_inv_off {f f' : ℕ → Pose} {ε η R : ℕ → ℝ} : ∀ (l : List ℕ) (p p' : Vec), (∀ i ∈ l, PoseOff (ε i) (η i) (f i) (f' i)) →
    (∀ m i k, l = m ++ i :: k → η i * Spec.dist ((chain ((i :: k).map f)).inv.act p) 0 ≤ η i * R i) →
    Spec.dist ((chain (l.map f')).inv.act p') ((chain (l.map f)).inv.act p) ≤ Spec.dist p' p + (l.map fun i => ε i + η i * R i).sum
  | [], p, p', _, _ => by simp [chain, Pose.act, Pose.id, Pose.inv]
  | i :: l, p, p', h, hR => by
    have hl : ∀ j ∈ l, PoseOff (ε j) (η j) (f j) (f' j) := fun j hj => h j (List.mem_cons_of_mem _ hj)
    have hi := h i (by simp)
    have n1 := chain_r_ne (l := l.map f) (map_ne fun j hj => (hl j hj).ne)
    have n2 := chain_r_ne (l := l.map f') (map_ne fun j hj => (hl j hj).ne')
    have ih := chain_inv_off l p p' hl (fun m j k hj => hR (i :: m) j k (by rw [hj]; rfl))
    have e1 : ∀ x, (chain ((i :: l).map f)).inv.act x = (f i).inv.act ((chain (l.map f)).inv.act x) := fun x => by
      rw [List.map_cons, chain, Pose.comp_inv_rev n1 hi.ne, Pose.comp_act (Pose.inv_r_ne hi.ne) (Pose.inv_r_ne n1)]
    have e2 : ∀ x, (chain ((i :: l).map f')).inv.act x = (f' i).inv.act ((chain (l.map f')).inv.act x) := fun x => by
      rw [List.map_cons, chain, Pose.comp_inv_rev n2 hi.ne', Pose.comp_act (Pose.inv_r_ne hi.ne') (Pose.inv_r_ne n2)]
    have h0 := hR [] i l rfl
    rw [e1] at h0
    have h1 := hi.inv_act ((chain (l.map f)).inv.act p) ((chain (l.map f')).inv.act p') h0
    rw [e1, e2, List.map_cons (f := fun i => ε i + η i * R i), List.sum_cons]
    linarith

theorem Spec.TurnedBy.mul {η η' : ℝ} {r r' q q' : Quat} (h1 : TurnedBy η r r') (h2 : TurnedBy η' q q') (nr : r ≠ 0) (nr' : r' ≠ 0) (nq : q ≠ 0) (nq' : q' ≠ 0) :
    TurnedBy (η + η') (r * q) (r' * q') := by
  intro v
  rw [rot_mul _ _ nr nq, rot_mul _ _ nr' nq']
  have a := sdist_triangle (rot r' (rot q' v)) (rot r' (rot q v)) (rot r (rot q v))
  rw [sdist_rot nr'] at a
  have b := h1 (rot q v)
  rw [sdist_zero_rot nq] at b
  linarith [h2 v]

theorem Spec.TurnedBy.inv {η : ℝ} {r r' : Quat} (h : TurnedBy η r r') (nr : r ≠ 0) (nr' : r' ≠ 0) : TurnedBy η r⁻¹ r'⁻¹ := by
  intro v
  have := h (rot r⁻¹ v)
  rw [rot_rot_inv _ nr, sdist_zero_rot (inv_ne_zero nr)] at this
  rw [← sdist_rot nr', rot_rot_inv _ nr', sdist_comm]
  exact this

theorem chain_turned {f f' : ℕ → Pose} {ε η : ℕ → ℝ} : ∀ (l : List ℕ), (∀ i ∈ l, PoseOff (ε i) (η i) (f i) (f' i)) →
    TurnedBy (l.map η).sum (chain (l.map f)).r (chain (l.map f')).r
  | [], _ => turnedBy_refl (le_refl _) _
  | i :: l, h => by
    have hl : ∀ j ∈ l, PoseOff (ε j) (η j) (f j) (f' j) := fun j hj => h j (List.mem_cons_of_mem _ hj)
    have hi := h i (by simp)
    rw [List.map_cons, List.map_cons, List.map_cons, List.sum_cons, add_comm]
    exact (chain_turned l hl).mul hi.turn (chain_r_ne (map_ne fun j hj => (hl j hj).ne)) (chain_r_ne (map_ne fun j hj => (hl j hj).ne')) hi.ne hi.ne'

theorem linInterp_off {ev : List ℝ} {tr tr' : List Vec} {τ ε : ℝ} (hag : ∀ (k : ℕ) t t', tr[k]? = some t → tr'[k]? = some t' → Spec.dist t' t ≤ ε)
    (hs : StrictlyIncreasing ev) (hl : tr.length = ev.length) {t t' : Vec} (h : IsLinInterp ev tr τ t) (h' : IsLinInterp ev tr' τ t') : Spec.dist t' t ≤ ε := by
  obtain ⟨k, x0, x1, y0, y1, e0, e1, f0, f1, hlt, hle0, hle1, rfl⟩ := h'
  have b1 := (List.getElem?_eq_some_iff.mp e1).1
  have g0 : tr[k]? = some tr[k] := List.getElem?_eq_getElem (by omega)
  have g1 : tr[k + 1]? = some tr[k + 1] := List.getElem?_eq_getElem (by omega)
  have := h.unique hs ⟨k, x0, x1, _, _, e0, e1, g0, g1, hlt, hle0, hle1, rfl⟩
  rw [this]
  have d0 := hag k _ _ g0 f0
  have d1 := hag (k + 1) _ _ g1 f1
  set l := (τ - x0) / (x1 - x0) with hldef
  have l0 : 0 ≤ l := div_nonneg (by linarith) (by linarith)
  have l1 : l ≤ 1 := by rw [hldef, div_le_one (by linarith)]; linarith
  have sm : ∀ (c : ℝ) (u v : Vec), 0 ≤ c → Spec.dist (c • u) (c • v) = c * Spec.dist u v := by
    intro c u v hc
    have : dot (c • u - c • v) (c • u - c • v) = c ^ 2 * dot (u - v) (u - v) := by
      simp only [dot, Pi.sub_apply, Pi.smul_apply, smul_eq_mul]; ring
    rw [Spec.dist, this, Real.sqrt_mul (sq_nonneg c), Real.sqrt_sq hc, Spec.dist]
  have tri := sdist_triangle ((1 - l) • y0 + l • y1) ((1 - l) • tr[k] + l • y1) ((1 - l) • tr[k] + l • tr[k + 1])
  rw [sdist_add, add_comm ((1 - l) • tr[k]) (l • y1), add_comm ((1 - l) • tr[k]) (l • tr[k + 1]), sdist_add, sm _ _ _ l0, sm _ _ _ (by linarith)] at tri
  rw [add_comm ((1 - l) • tr[k]) (l • tr[k + 1])]
  nlinarith [mul_le_mul_of_nonneg_left d0 (show 0 ≤ 1 - l by linarith), mul_le_mul_of_nonneg_left d1 l0]

theorem offBy_pose {sq : SquadFn} (hsq : SquadLaw sq) {τ ε η : ℝ} {d d' : FrameData} (h : OffBy τ ε η d d')
    (hg : GoodData d) (hg' : GoodData d') {P P' : Pose} (hP : IsPoseAt sq d τ P) (hP' : IsPoseAt sq d' τ P') (ne : P.r ≠ 0) (ne' : P'.r ≠ 0) : PoseOff ε η P P' := by
  cases h with
  | static h1 h2 => cases hP; cases hP'; exact ⟨h1, h2, ne, ne'⟩
  | discrete h1 h2 =>
    cases hP with
    | discrete a1 a2 a3 =>
    cases hP' with
    | discrete b1 b2 b3 =>
      have e := a1.unique b1
      subst e
      exact ⟨h1 _ _ _ a2 b2, h2 _ _ _ a3 b3, ne, ne'⟩
  | sampled h1 hm h2 =>
    cases hg with
    | continuous a1 a2 a3 a4 a5 =>
    cases hg' with
    | continuous b1 b2 b3 b4 b5 =>
    cases hP with
    | continuous c1 =>
    cases hP' with
    | continuous c2 =>
      refine ⟨linInterp_off h1 a4 a1 c1 c2, ?_, ne, ne'⟩
      obtain ⟨k, hk⟩ := List.mem_iff_getElem?.mp hm
      obtain ⟨bk, _⟩ := List.getElem?_eq_some_iff.mp hk
      have q1 := List.getElem?_eq_getElem (l := _) (i := k) (show k < _ from by rw [a2]; exact bk)
      have q2 := List.getElem?_eq_getElem (l := _) (i := k) (show k < _ from by rw [b2]; exact bk)
      show TurnedBy η (sq _ _ τ) (sq _ _ τ)
      rw [hsq.knot _ _ k _ τ a2 a3 a4 a5 q1 hk, hsq.knot _ _ k _ τ b2 a3 a4 b5 q2 hk]
      exact h2 k _ _ q1 q2
  | between h1 h2 =>
    cases hg with
    | continuous a1 a2 a3 a4 a5 =>
    cases hP with
    | continuous c1 =>
    cases hP' with
    | continuous c2 => exact ⟨linInterp_off h1 a4 a1 c1 c2, turnedBy_refl h2 _, ne, ne'⟩

open Classical in
/-- Some pose of frame `i` at `τ`. -/
noncomputable def poseFn (sq : SquadFn) (s : State) (τ : ℝ) (i : ℕ) : Pose := if h : ∃ P, PoseOf sq s τ i P then h.choose else Pose.id

theorem poseFn_of {sq : SquadFn} {s : State} {τ : ℝ} {i : ℕ} {P : Pose} (h : PoseOf sq s τ i P) : PoseOf sq s τ i (poseFn sq s τ i) := by
  have hx : ∃ P, PoseOf sq s τ i P := ⟨P, h⟩
  rw [poseFn, dif_pos hx]
  exact hx.choose_spec

theorem poses_map {sq : SquadFn} {s : State} {τ : ℝ} {mv : Bool} {l : List ℕ} {Ps : List Pose} (hok : ∀ i ∈ l, FrameOk mv s i)
    (h : List.Forall₂ (PoseOf sq s τ) l Ps) : Ps = l.map (poseFn sq s τ) ∧ ∀ i ∈ l, PoseOf sq s τ i (poseFn sq s τ i) := by
  have h2 : ∀ i ∈ l, PoseOf sq s τ i (poseFn sq s τ i) := by
    clear hok
    induction h with
    | nil => simp
    | cons h1 _ ih =>
      intro i hi
      rcases List.mem_cons.mp hi with rfl | hi
      · exact poseFn_of h1
      · exact ih i hi
  refine ⟨poses_unique hok h ?_, h2⟩
  rw [List.forall₂_map_right_iff]
  exact List.forall₂_same.mpr h2

theorem pathTo_split {s : State} (hw : WF s) {c a i : ℕ} {m k : List ℕ} (h : PathTo s.parent c a (m ++ i :: k)) :
    PathTo s.parent i a m ∧ PathTo s.parent c i (i :: k) := by
  induction m generalizing a with
  | nil =>
    cases h with
    | up hn hp h => exact ⟨.here, .up hn hp h⟩
  | cons x m ih =>
    cases h with
    | up hn hp h =>
      obtain ⟨h1, h2⟩ := ih h
      refine ⟨.up ?_ hp h1, h2⟩
      rintro rfl
      exact hw.acyclic _ (Relation.TransGen.head' hp (ancestorOrSelf_of_pathTo h1))

/-- Errors of the recordings on the path and the error of the change of coordinates. -/
theorem transformAt_off {sq : SquadFn} {s s' : State} {a b : ℕ} {l : List ℕ} {τ : ℝ} {mv : Bool} (hsq : mv = true → SquadLaw sq)
    (hw : WF s) (hw' : WF s') (hre : Rerecorded s s') (hp : PathAll s a b (FrameOk mv s)) (hp' : PathAll s' a b (FrameOk mv s')) (hl : Route s a b l)
    {ε η : ℕ → ℝ} (hoff : ∀ i ∈ l, ∀ d d', s.data i = some d → s'.data i = some d' → OffBy τ (ε i) (η i) d d') {A A' : Pose}
    (hA : IsTransformAt sq s a b τ A) (hA' : IsTransformAt sq s' a b τ A') :
    TurnedBy (l.map η).sum A.r A'.r ∧ ∀ (p p' : Vec) (R : ℕ → ℝ), (∀ i ∈ l, η i ≠ 0 → ∀ B, IsTransformAt sq s a i τ B → Spec.dist (B.act p) 0 ≤ R i) →
      Spec.dist (A'.act p') (A.act p) ≤ Spec.dist p' p + (l.map fun i => ε i + η i * R i).sum := by
  obtain ⟨c, la, lb, hc, hla, hlb, hok⟩ := hp
  obtain ⟨c2, la2, lb2, hc2, hla2, hlb2, rfl⟩ := hl
  have := hc.unique hw hc2
  subst this
  obtain rfl := hla.unique hla2
  obtain rfl := hlb.unique hlb2
  obtain ⟨c', la', lb', hc', hla', hlb', hok'⟩ := hp'
  have := (hre.nearest hc).unique hw' hc'
  subst this
  rw [hre.parent] at hla' hlb'
  obtain rfl := hla.unique hla'
  obtain rfl := hlb.unique hlb'
  obtain ⟨⟨Pa, Pb, p1, p2, p3, rfl⟩, _⟩ := hA.chainAt hw hsq hc hla hlb hok
  obtain ⟨⟨Qa, Qb, q1, q2, q3, rfl⟩, _⟩ := hA'.chainAt hw' hsq hc' (by rw [hre.parent]; exact hla) (by rw [hre.parent]; exact hlb) hok'
  obtain ⟨rfl, fa⟩ := poses_map (fun i hi => hok i (by simp [hi])) p1
  obtain ⟨rfl, fb⟩ := poses_map (fun i hi => hok i (by simp [hi])) p2
  obtain ⟨rfl, ga⟩ := poses_map (fun i hi => hok' i (by simp [hi])) q1
  obtain ⟨rfl, gb⟩ := poses_map (fun i hi => hok' i (by simp [hi])) q2
  set f := poseFn sq s τ
  set f' := poseFn sq s' τ
  have key : ∀ i ∈ la ++ lb, PoseOf sq s τ i (f i) → PoseOf sq s' τ i (f' i) → PoseOff (ε i) (η i) (f i) (f' i) := by
    rintro i hi ⟨d, hd, h1⟩ ⟨d', hd', h2⟩
    have hne : (f i).r ≠ 0 := p3 _ (by rw [← List.map_append]; exact List.mem_map_of_mem hi)
    have hne' : (f' i).r ≠ 0 := q3 _ (by rw [← List.map_append]; exact List.mem_map_of_mem hi)
    have ho := hoff i (by simpa using hi) d d' hd hd'
    cases mv with
    | true =>
      obtain ⟨d0, hd0, hg⟩ := frameOk_true.mp (hok i hi)
      rw [hd] at hd0; cases hd0
      obtain ⟨d0, hd0, hg'⟩ := frameOk_true.mp (hok' i hi)
      rw [hd'] at hd0; cases hd0
      exact offBy_pose (hsq rfl) ho hg hg' h1 h2 hne hne'
    | false =>
      have hst := hok i hi
      simp only [FrameOk, Bool.false_eq_true, if_false] at hst
      obtain ⟨P, ⟨disc, e⟩, _⟩ := hst
      rw [hd] at e; cases e
      generalize f i = X at *
      generalize f' i = Y at *
      cases ho with
      | static o1 o2 => cases h1; cases h2; exact ⟨o1, o2, hne, hne'⟩
  have ka : ∀ i ∈ la, PoseOff (ε i) (η i) (f i) (f' i) := fun i hi => key i (by simp [hi]) (fa i hi) (ga i hi)
  have kb : ∀ i ∈ lb, PoseOff (ε i) (η i) (f i) (f' i) := fun i hi => key i (by simp [hi]) (fb i hi) (gb i hi)
  have na := chain_r_ne (map_ne fun i hi => (ka i hi).ne)
  have nb := chain_r_ne (map_ne fun i hi => (kb i hi).ne)
  have na' := chain_r_ne (map_ne fun i hi => (ka i hi).ne')
  have nb' := chain_r_ne (map_ne fun i hi => (kb i hi).ne')
  refine ⟨?_, fun p p' R hR => ?_⟩
  · rw [List.map_append, List.map_reverse, List.sum_append, List.sum_reverse, add_comm]
    exact ((chain_turned lb kb).inv nb nb').mul (chain_turned la ka) (inv_ne_zero nb) (inv_ne_zero nb') na na'
  · rw [Pose.comp_act (Pose.inv_r_ne nb) na, Pose.comp_act (Pose.inv_r_ne nb') na']
    have h1 := chain_off (R := R) la p p' ka (fun m i k e => by
      subst e
      have hp1 := (pathTo_split hw hla).1
      by_cases h0 : η i = 0
      · rw [h0]; simp
      refine mul_le_mul_of_nonneg_left (hR i (by simp) h0 _ ?_) (ka i (by simp)).turn.nonneg
      refine ChainAt.isTransformAt (c := i) (la := m) (lb := []) ⟨ancestorOrSelf_of_pathTo hp1, .refl, fun d _ h => h⟩ hp1 .here ⟨m.map f, [], ?_, .nil, ?_, ?_⟩
      · rw [List.forall₂_map_right_iff]; exact List.forall₂_same.mpr fun j hj => fa j (by simp [hj])
      · simp only [List.append_nil]; exact map_ne fun j hj => (ka j (by simp [hj])).ne
      · have : (chain []).inv = Pose.id := by simp [chain, Pose.id, Pose.inv]
        rw [this, Pose.id_comp])
    have h2 := chain_inv_off (R := R) lb ((chain (la.map f)).act p) ((chain (la.map f')).act p') kb (fun m i k e => by
      subst e
      obtain ⟨hp1, hp2⟩ := pathTo_split hw hlb
      have ni := chain_r_ne (l := (i :: k).map f) (map_ne fun j hj => (kb j (by simp at hj ⊢; tauto)).ne)
      rw [← Pose.comp_act (Pose.inv_r_ne ni) na]
      by_cases h0 : η i = 0
      · rw [h0]; simp
      refine mul_le_mul_of_nonneg_left (hR i (by simp) h0 _ ?_) (kb i (by simp)).turn.nonneg
      refine ChainAt.isTransformAt (c := c) ⟨hc.1, ancestorOrSelf_of_pathTo hp2, fun d h h' => hc.2.2 d h ((ancestorOrSelf_of_pathTo hp1).trans h')⟩ hla hp2
        ⟨la.map f, (i :: k).map f, p1, ?_, ?_, rfl⟩
      · rw [List.forall₂_map_right_iff]; exact List.forall₂_same.mpr fun j hj => fb j (by simp at hj ⊢; tauto)
      · rw [← List.map_append]
        refine map_ne fun j hj => ?_
        rcases List.mem_append.mp hj with hj | hj
        · exact (ka j hj).ne
        · exact (kb j (by simp at hj ⊢; tauto)).ne)
    rw [List.map_append, List.map_reverse, List.sum_append, List.sum_reverse]
    linarith

end RBM
