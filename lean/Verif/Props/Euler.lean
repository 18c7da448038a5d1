import Verif.Spec.Euler
import Verif.Props.Quaternions

/-!
`from_euler_angles` (C42).
-/

namespace RBM.Props

open RBM Spec

/-- Rotors about the coordinate axes. -/
noncomputable def rotorX (θ : ℝ) : Quat := ⟨Real.cos (θ / 2), Real.sin (θ / 2), 0, 0⟩
noncomputable def rotorY (θ : ℝ) : Quat := ⟨Real.cos (θ / 2), 0, Real.sin (θ / 2), 0⟩
noncomputable def rotorZ (θ : ℝ) : Quat := ⟨Real.cos (θ / 2), 0, 0, Real.sin (θ / 2)⟩

theorem sinc_abs (x : ℝ) (h : |x| ≠ 0) : Real.sin |x| / |x| * x = Real.sin x := by
  have hx0 : x ≠ 0 := by simpa using h
  rcases le_total 0 x with hx | hx
  · rw [abs_of_nonneg hx] at *; field_simp
  · rw [abs_of_nonpos hx] at *
    rw [Real.sin_neg]; field_simp

theorem fromRot_aux (v : Vec) (x : ℝ) (h2 : v 0 * v 0 + v 1 * v 1 + v 2 * v 2 = x * x)
    (h : ∀ i, v i = x ∨ v i = 0) : fromRotationVector v =
      ⟨Real.cos (x / 2), if v 0 = 0 then 0 else Real.sin (x / 2), if v 1 = 0 then 0 else Real.sin (x / 2), if v 2 = 0 then 0 else Real.sin (x / 2)⟩ := by
  have e : Real.sqrt (v 0 / 2 * (v 0 / 2) + v 1 / 2 * (v 1 / 2) + v 2 / 2 * (v 2 / 2)) = |x / 2| := by
    rw [← Real.sqrt_mul_self_eq_abs]; congr 1; linarith
  simp only [fromRotationVector, e]
  by_cases hx : |x / 2| = 0
  · have hx' : x = 0 := by simpa using hx
    have hv : ∀ i, v i = 0 := fun i => by rcases h i with h | h <;> simp [h, hx']
    simp [hx', hv]; rfl
  · refine (if_neg hx).trans ?_
    rw [Real.cos_abs]
    have key : ∀ i, Real.sin |x / 2| / |x / 2| * (v i / 2) = if v i = 0 then 0 else Real.sin (x / 2) := by
      intro i
      rcases h i with h | h
      · have : v i ≠ 0 := by rw [h]; intro h0; exact hx (by simp [h0])
        rw [if_neg this, h, sinc_abs _ hx]
      · simp [h]
    rw [key, key, key]

theorem fromRot_x (x : ℝ) : fromRotationVector ![x, 0, 0] = rotorX x := by
  rw [fromRot_aux _ x (by simp) (by intro i; fin_cases i <;> simp)]
  by_cases h : x = 0
  · simp [h, rotorX]; rfl
  · simp [h, rotorX]; rfl

theorem fromRot_y (x : ℝ) : fromRotationVector ![0, x, 0] = rotorY x := by
  rw [fromRot_aux _ x (by simp) (by intro i; fin_cases i <;> simp)]
  by_cases h : x = 0
  · simp [h, rotorY]; rfl
  · simp [h, rotorY]; rfl

theorem fromRot_z (x : ℝ) : fromRotationVector ![0, 0, x] = rotorZ x := by
  rw [fromRot_aux _ x (by simp) (by intro i; fin_cases i <;> simp)]
  by_cases h : x = 0
  · simp [h, rotorZ]; rfl
  · simp [h, rotorZ]; rfl

theorem half_angle (θ : ℝ) : Real.cos θ = Real.cos (θ/2) ^ 2 - Real.sin (θ/2) ^ 2 ∧ Real.sin θ = 2 * Real.sin (θ/2) * Real.cos (θ/2) ∧
      Real.cos (θ/2) ^ 2 + Real.sin (θ/2) ^ 2 = 1 := by
  refine ⟨?_, ?_, Real.cos_sq_add_sin_sq _⟩
  · rw [← Real.cos_two_mul']; congr 1; ring
  · rw [← Real.sin_two_mul]; congr 1; ring

/-- Written out formula of a rotation by a unit quaternion. -/
theorem rot_unit_formula {q : Quat} (hq : IsUnitQ q) {w x y z : ℝ} (h0 : q.re = w) (h1 : q.imI = x) (h2 : q.imJ = y) (h3 : q.imK = z) (v : Vec) :
    rot q v = ![(w^2 + x^2 - y^2 - z^2) * v 0 + 2 * (x*y - w*z) * v 1 + 2 * (x*z + w*y) * v 2,
      2 * (x*y + w*z) * v 0 + (w^2 - x^2 + y^2 - z^2) * v 1 + 2 * (y*z - w*x) * v 2,
      2 * (x*z - w*y) * v 0 + 2 * (y*z + w*x) * v 1 + (w^2 - x^2 - y^2 + z^2) * v 2] := by
  have h : nsq q = 1 := hq
  funext i
  fin_cases i <;> simp [rot, inv_re, inv_imI, inv_imJ, inv_imK, h, h0, h1, h2, h3] <;> ring

theorem rotorX_spec (θ : ℝ) : IsUnitQ (rotorX θ) ∧ ∀ v, rot (rotorX θ) v = rotX θ v := by
  obtain ⟨h1, h2, h3⟩ := half_angle θ
  have hu : IsUnitQ (rotorX θ) := by simp [IsUnitQ, nsq, rotorX]
  refine ⟨hu, fun v => ?_⟩
  rw [rot_unit_formula hu (w := Real.cos (θ / 2)) (x := Real.sin (θ / 2)) (y := 0) (z := 0) rfl rfl rfl rfl, rotX, h1, h2]
  funext i
  fin_cases i
  · simp [h3]
  · simp only [Matrix.cons_val_zero, Matrix.cons_val_one, Matrix.cons_val, Fin.zero_eta, Fin.mk_one, Fin.reduceFinMk]; ring
  · simp only [Matrix.cons_val_zero, Matrix.cons_val_one, Matrix.cons_val, Fin.zero_eta, Fin.mk_one, Fin.reduceFinMk]; ring

theorem rotorY_spec (θ : ℝ) : IsUnitQ (rotorY θ) ∧ ∀ v, rot (rotorY θ) v = rotY θ v := by
  obtain ⟨h1, h2, h3⟩ := half_angle θ
  have hu : IsUnitQ (rotorY θ) := by simp [IsUnitQ, nsq, rotorY]
  refine ⟨hu, fun v => ?_⟩
  rw [rot_unit_formula hu (w := Real.cos (θ / 2)) (x := 0) (y := Real.sin (θ / 2)) (z := 0) rfl rfl rfl rfl, rotY, h1, h2]
  funext i
  fin_cases i
  · simp only [Matrix.cons_val_zero, Matrix.cons_val_one, Matrix.cons_val, Fin.zero_eta, Fin.mk_one, Fin.reduceFinMk]; ring
  · simp [h3]
  · simp only [Matrix.cons_val_zero, Matrix.cons_val_one, Matrix.cons_val, Fin.zero_eta, Fin.mk_one, Fin.reduceFinMk]; ring

theorem rotorZ_spec (θ : ℝ) : IsUnitQ (rotorZ θ) ∧ ∀ v, rot (rotorZ θ) v = rotZ θ v := by
  obtain ⟨h1, h2, h3⟩ := half_angle θ
  have hu : IsUnitQ (rotorZ θ) := by simp [IsUnitQ, nsq, rotorZ]
  refine ⟨hu, fun v => ?_⟩
  rw [rot_unit_formula hu (w := Real.cos (θ / 2)) (x := 0) (y := 0) (z := Real.sin (θ / 2)) rfl rfl rfl rfl, rotZ, h1, h2]
  funext i
  fin_cases i
  · simp only [Matrix.cons_val_zero, Matrix.cons_val_one, Matrix.cons_val, Fin.zero_eta, Fin.mk_one, Fin.reduceFinMk]; ring
  · simp only [Matrix.cons_val_zero, Matrix.cons_val_one, Matrix.cons_val, Fin.zero_eta, Fin.mk_one, Fin.reduceFinMk]; ring
  · simp [h3]

/-- The rotor of a letter. -/
noncomputable def rotor (r p y : ℝ) (c : Char) : Quat :=
  if c = 'r' then rotorX r else if c = 'p' then rotorY p else rotorZ y

theorem rotor_spec (r p y : ℝ) (c : Char) : IsUnitQ (rotor r p y c) ∧ ∀ v, rot (rotor r p y c) v = elementary r p y c v := by
  unfold rotor elementary
  split
  · exact rotorX_spec r
  · split
    · exact rotorY_spec p
    · exact rotorZ_spec y

/-! ### The order argument -/

theorem perm3 {a b c : Char} (h : [a, b, c].Perm ['r', 'p', 'y']) :
    (a = 'r' ∧ b = 'p' ∧ c = 'y') ∨ (a = 'r' ∧ b = 'y' ∧ c = 'p') ∨ (a = 'p' ∧ b = 'r' ∧ c = 'y') ∨
    (a = 'p' ∧ b = 'y' ∧ c = 'r') ∨ (a = 'y' ∧ b = 'r' ∧ c = 'p') ∨ (a = 'y' ∧ b = 'p' ∧ c = 'r') := by
  have hmem : ∀ x, x ∈ [a, b, c] ↔ x ∈ ['r', 'p', 'y'] := fun x => h.mem_iff
  have hnd : [a, b, c].Nodup := h.nodup_iff.mpr (by decide)
  have ha := (hmem a).mp (by simp)
  have hb := (hmem b).mp (by simp)
  have hc := (hmem c).mp (by simp)
  simp only [List.mem_cons, List.not_mem_nil, or_false] at ha hb hc
  simp only [List.nodup_cons, List.mem_cons, List.not_mem_nil, or_false, not_or] at hnd
  obtain ⟨⟨h1, h2⟩, h3, _⟩ := hnd
  rcases ha with rfl | rfl | rfl <;> rcases hb with rfl | rfl | rfl <;> rcases hc with rfl | rfl | rfl <;> simp_all

theorem orderOk_iff (order : List Char) : OrderOk order ↔
    ∃ a b c rest, order = a :: b :: c :: rest ∧ [a, b, c].Perm ['r', 'p', 'y'] := by
  constructor
  · intro h
    have hl := h.length_eq
    match order, h, hl with
    | a :: b :: c :: rest, h, _ => exact ⟨a, b, c, rest, rfl, by simpa [OrderOk] using h⟩
    | [], _, hl => simp at hl
    | [_], _, hl => simp at hl
    | [_, _], _, hl => simp at hl
  · rintro ⟨a, b, c, rest, rfl, h⟩
    simpa [OrderOk] using h

/-- Which rotor of a letter. -/
def pick {α : Type _} (r p y : Option α) (c : Char) : Option α :=
  if c = 'r' then r else if c = 'p' then p else y

theorem arrange_ok {α : Type _} {a b c : Char} {rest : List Char} (h : [a, b, c].Perm ['r', 'p', 'y']) (r p y : Option α) :
    arrange (a :: b :: c :: rest) r p y = .ok [pick r p y a, pick r p y b, pick r p y c] := by
  rcases perm3 h with ⟨rfl, rfl, rfl⟩ | ⟨rfl, rfl, rfl⟩ | ⟨rfl, rfl, rfl⟩ | ⟨rfl, rfl, rfl⟩ | ⟨rfl, rfl, rfl⟩ | ⟨rfl, rfl, rfl⟩ <;>
    simp [arrange, setRotor, strIndex, List.idxOf_cons, bind, Except.bind, Pure.pure, Except.pure, pick]

theorem setRotor_ok {α : Type _} {l l' : List (Option α)} {order : List Char} {c : Char} {x : Option α}
    (h : setRotor l order c x = .ok l') : c ∈ order ∧ order.idxOf c < l.length ∧ l' = l.set (order.idxOf c) x := by
  simp only [setRotor, strIndex, bind, Except.bind] at h
  by_cases hc : c ∈ order
  · simp only [hc, if_true] at h
    by_cases hk : order.idxOf c < l.length
    · simp only [hk, if_true, Pure.pure, Except.pure, Except.ok.injEq] at h
      exact ⟨hc, hk, h.symm⟩
    · simp [hk, throw, throwThe, MonadExceptOf.throw] at h
  · simp [hc] at h

theorem setRotor_err {α : Type _} (l : List (Option α)) (order : List Char) (c : Char) (x : Option α) :
    (∃ l', setRotor l order c x = .ok l') ∨ setRotor l order c x = .error .valueError := by
  simp only [setRotor, strIndex, bind, Except.bind]
  by_cases hc : c ∈ order
  · simp only [hc, if_true]
    by_cases hk : order.idxOf c < l.length
    · left; exact ⟨l.set (order.idxOf c) x, by simp [hk, Pure.pure, Except.pure]⟩
    · right; simp [hk, throw, throwThe, MonadExceptOf.throw]
  · right; simp [hc]

theorem arrange_bad {α : Type _} {order : List Char} (h : ¬ OrderOk order) (r p y : Option α) :
    arrange order r p y = .error .valueError := by
  simp only [arrange, bind, Except.bind]
  rcases setRotor_err [none, none, none] order 'r' r with ⟨l1, e1⟩ | e1
  · simp only [e1]
    rcases setRotor_err l1 order 'p' p with ⟨l2, e2⟩ | e2
    · simp only [e2]
      rcases setRotor_err l2 order 'y' y with ⟨l3, e3⟩ | e3
      · exfalso
        obtain ⟨a1, a2, rfl⟩ := setRotor_ok e1
        obtain ⟨b1, b2, rfl⟩ := setRotor_ok e2
        obtain ⟨c1, c2, rfl⟩ := setRotor_ok e3
        simp only [List.length_set, List.length_cons, List.length_nil] at a2 b2 c2
        apply h
        have hr := List.getElem_idxOf (List.idxOf_lt_length_iff.mpr a1)
        have hp := List.getElem_idxOf (List.idxOf_lt_length_iff.mpr b1)
        have hy := List.getElem_idxOf (List.idxOf_lt_length_iff.mpr c1)
        have mr : 'r' ∈ order.take 3 := List.mem_take_iff_getElem.mpr ⟨_, by simp; exact ⟨a2, List.idxOf_lt_length_iff.mpr a1⟩, hr⟩
        have mp : 'p' ∈ order.take 3 := List.mem_take_iff_getElem.mpr ⟨_, by simp; exact ⟨b2, List.idxOf_lt_length_iff.mpr b1⟩, hp⟩
        have my : 'y' ∈ order.take 3 := List.mem_take_iff_getElem.mpr ⟨_, by simp; exact ⟨c2, List.idxOf_lt_length_iff.mpr c1⟩, hy⟩
        have hsub : ['r', 'p', 'y'].Subperm (order.take 3) := by
          apply List.Nodup.subperm (by decide)
          intro x hx
          simp only [List.mem_cons, List.not_mem_nil, or_false] at hx
          rcases hx with rfl | rfl | rfl
          · exact mr
          · exact mp
          · exact my
        exact (hsub.perm_of_length_le (by simp)).symm
      · exact e3
    · simp only [e2]
  · simp only [e1]

/-! ### Chaining the rotors -/

/-- The array, broadcast to `sh`, has the values `f`. -/
def Rep (sh : List ℕ) (q : ND Quat) (f : List ℕ → Quat) : Prop :=
  (q.shape = sh ∨ q.shape = []) ∧ ∀ idx, Valid sh idx → q.bget idx = f idx

theorem bop_rep {sh : List ℕ} {q r : ND Quat} {f : List ℕ → Quat} (h : Rep sh q f) (hr : r.shape = sh) :
    ∃ R, ND.bop (fun a b => a * b) q r = .ok R ∧ R.shape = sh ∧ Rep sh R (fun idx => f idx * r.get idx) := by
  have hb : ND.bshape q.shape r.shape = some sh := by
    rcases h.1 with h | h
    · rw [h, hr]; exact bshape_left (Bcast.refl _)
    · rw [h, hr]
      apply bshape_pad
      simp only [List.length_nil, Nat.sub_zero, List.append_nil]
      exact List.forall₂_iff_get.mpr ⟨by simp, by intro i h1 h2; simp⟩
  refine ⟨⟨sh, fun idx => q.bget idx * r.bget idx⟩, by simp only [ND.bop, hb], rfl, .inl rfl, fun idx hv => ?_⟩
  rw [bget_valid _ (by exact hv)]
  simp only
  rw [h.2 idx hv, bget_valid r (by rw [hr]; exact hv)]

theorem chainRotors_spec (sh : List ℕ) : ∀ (rs : List (Option (ND Quat))) (q : ND Quat) (f : List ℕ → Quat), Rep sh q f →
    (∀ r, some r ∈ rs → r.shape = sh) →
    ∃ R, chainRotors rs q = .ok R ∧ ((q.shape = sh ∨ ∃ r, some r ∈ rs) → R.shape = sh) ∧
      Rep sh R (fun idx => f idx * (rs.map fun r => (r.map fun r => r.get idx).getD 1).prod)
  | [], q, f, h, _ => ⟨q, rfl, by simp, by simpa using h⟩
  | none :: rs, q, f, h, hs => by
    obtain ⟨R, r1, r2, r3⟩ := chainRotors_spec sh rs q f h fun r hr => hs r (List.mem_cons_of_mem _ hr)
    refine ⟨R, r1, fun hx => r2 ?_, by simpa using r3⟩
    rcases hx with hx | ⟨r, hr⟩
    · exact .inl hx
    · exact .inr ⟨r, by simpa using hr⟩
  | some r :: rs, q, f, h, hs => by
    obtain ⟨R', e1, e2, e3⟩ := bop_rep h (hs r List.mem_cons_self)
    obtain ⟨R, r1, r2, r3⟩ := chainRotors_spec sh rs R' _ e3 fun r hr => hs r (List.mem_cons_of_mem _ hr)
    refine ⟨R, ?_, fun _ => r2 (.inl e2), ?_⟩
    · simp only [chainRotors, e1, bind, Except.bind]; exact r1
    · simpa [mul_assoc] using r3

/-- The rotors built from an optional angle. -/
noncomputable def optRotor (e : ℝ → Vec) (a : Option (ND ℝ)) : Option (ND Quat) :=
  a.map fun a => a.map fun x => fromRotationVector (e x)

theorem rotor_zero : rotorX 0 = 1 ∧ rotorY 0 = 1 ∧ rotorZ 0 = 1 := by
  refine ⟨?_, ?_, ?_⟩ <;> simp [rotorX, rotorY, rotorZ] <;> rfl

theorem angleRotors_ok (e : ℝ → Vec) {sh : List ℕ} {a : Option (ND ℝ)} (h : ShapeIs sh a) {s : Option (List ℕ)}
    (hs : s = none ∨ s = some sh) :
    angleRotors e a s = .ok (optRotor e a, if a.isSome then some sh else s) := by
  cases a with
  | none => simp [angleRotors, optRotor]
  | some a =>
    have := h a rfl
    rcases hs with rfl | rfl <;> simp [angleRotors, optRotor, this]

/-- The part of `from_euler_angles` after the arguments have been read. -/
theorem euler_core {o : EulerArgs} {roll pitch yaw : Option (ND ℝ)} {s : Option (List ℕ)} {sh : List ℕ}
    (e : splitRpy o = .ok (roll, pitch, yaw, s)) (hs : s = none ∨ s = some sh)
    (hr : ShapeIs sh roll) (hp : ShapeIs sh pitch) (hy : ShapeIs sh yaw)
    (hne : roll.isSome ∨ pitch.isSome ∨ yaw.isSome) {a b c : Char} {rest : List Char} (ho : o.order = a :: b :: c :: rest)
    (hperm : [a, b, c].Perm ['r', 'p', 'y']) :
    ∃ Q, fromEulerQ o = .ok Q ∧ Q.shape = sh ∧ ∀ idx, Valid sh idx →
      Q.get idx = rotor (angleAt roll idx) (angleAt pitch idx) (angleAt yaw idx) a *
        rotor (angleAt roll idx) (angleAt pitch idx) (angleAt yaw idx) b *
        rotor (angleAt roll idx) (angleAt pitch idx) (angleAt yaw idx) c := by
  set R := optRotor (fun x => ![x, 0, 0]) roll with hR
  set P := optRotor (fun x => ![0, x, 0]) pitch with hP
  set Y := optRotor (fun x => ![0, 0, x]) yaw with hY
  have hval : ∀ idx ch, ch ∈ ['r', 'p', 'y'] → ((pick R P Y ch).map fun r => r.get idx).getD 1 =
      rotor (angleAt roll idx) (angleAt pitch idx) (angleAt yaw idx) ch := by
    intro idx ch hch
    simp only [List.mem_cons, List.not_mem_nil, or_false] at hch
    rcases hch with rfl | rfl | rfl
    · cases roll <;> simp [hR, optRotor, pick, rotor, angleAt, ND.map, rotor_zero, fromRot_x]
    · cases pitch <;> simp [hP, optRotor, pick, rotor, angleAt, ND.map, rotor_zero, fromRot_y]
    · cases yaw <;> simp [hY, optRotor, pick, rotor, angleAt, ND.map, rotor_zero, fromRot_z]
  have hshape : ∀ ch r, pick R P Y ch = some r → r.shape = sh := by
    intro ch r h
    unfold pick at h
    split at h
    · cases roll with
      | none => simp [hR, optRotor] at h
      | some x => have := hr x rfl; simp [hR, optRotor] at h; rw [← h, ← this]; rfl
    · split at h
      · cases pitch with
        | none => simp [hP, optRotor] at h
        | some x => have := hp x rfl; simp [hP, optRotor] at h; rw [← h, ← this]; rfl
      · cases yaw with
        | none => simp [hY, optRotor] at h
        | some x => have := hy x rfl; simp [hY, optRotor] at h; rw [← h, ← this]; rfl
  obtain ⟨Q, q1, q2, q3⟩ := chainRotors_spec sh [pick R P Y a, pick R P Y b, pick R P Y c] ⟨[], fun _ => ⟨1, 0, 0, 0⟩⟩
    (fun _ => 1) ⟨.inr rfl, fun idx _ => rfl⟩ (by
      intro r hr'
      simp only [List.mem_cons, List.not_mem_nil, or_false] at hr'
      rcases hr' with h | h | h
      · exact hshape a r h.symm
      · exact hshape b r h.symm
      · exact hshape c r h.symm)
  have hqs : Q.shape = sh := by
    apply q2; right
    have hm : ∀ ch, ch ∈ ['r', 'p', 'y'] → pick R P Y ch ∈ [pick R P Y a, pick R P Y b, pick R P Y c] := by
      intro ch hch
      have : ch ∈ [a, b, c] := hperm.mem_iff.mpr hch
      simp only [List.mem_cons, List.not_mem_nil, or_false] at this ⊢
      rcases this with rfl | rfl | rfl <;> simp
    rcases hne with h | h | h
    · cases roll with
      | none => simp at h
      | some x => exact ⟨_, hm 'r' (by simp)⟩
    · cases pitch with
      | none => simp at h
      | some x => exact ⟨_, hm 'p' (by simp)⟩
    · cases yaw with
      | none => simp at h
      | some x => exact ⟨_, hm 'y' (by simp)⟩
  refine ⟨Q, ?_, hqs, fun idx hv => ?_⟩
  · have e1 : rollRotors roll s = .ok (R, if roll.isSome then some sh else s) := by
      cases roll with
      | none => simp [hR, optRotor, rollRotors]
      | some x => have := hr x rfl; simp [hR, optRotor, this, rollRotors]
    have e2 := angleRotors_ok (fun x => ![0, x, 0]) hp (s := if roll.isSome then some sh else s) (by
      split
      · right; rfl
      · exact hs)
    have e3 := angleRotors_ok (fun x => ![0, 0, x]) hy
      (s := if pitch.isSome then some sh else if roll.isSome then some sh else s) (by
      split
      · right; rfl
      · split
        · right; rfl
        · exact hs)
    have e4 : ¬ (if yaw.isSome then some sh else if pitch.isSome then some sh else if roll.isSome then some sh else s) = none := by
      revert hne
      cases roll <;> cases pitch <;> cases yaw <;> simp
    simp only [fromEulerQ, e, bind, Except.bind, e1, e2, e3, if_neg e4, ho, arrange_ok hperm, Pure.pure, Except.pure]
    exact q1
  · have := q3.2 idx hv
    rw [bget_valid _ (by rw [hqs]; exact hv)] at this
    rw [this]
    have hm := fun ch hch => hperm.mem_iff (a := ch) |>.mp hch
    simp only [List.map_cons, List.map_nil, List.prod_cons, List.prod_nil, mul_one, one_mul]
    rw [hval idx a (hm a (by simp)), hval idx b (hm b (by simp)), hval idx c (hm c (by simp)), mul_assoc]

theorem rotor_product (r p y : ℝ) (a b c : Char) : IsEuler (rotor r p y a * rotor r p y b * rotor r p y c) r p y a b c := by
  obtain ⟨a1, a2⟩ := rotor_spec r p y a
  obtain ⟨b1, b2⟩ := rotor_spec r p y b
  obtain ⟨c1, c2⟩ := rotor_spec r p y c
  refine ⟨(a1.mul b1).mul c1, fun v => ?_⟩
  rw [rot_mul _ _ (a1.mul b1).ne_zero c1.ne_zero, rot_mul _ _ a1.ne_zero b1.ne_zero, a2, b2, c2]

/-- `from_euler_angles(roll=, pitch=, yaw=, order=, return_quaternion=True)` with at least one angle
given, all given ones of the same shape: an array of that shape with unit quaternions that
represent the product of the elementary rotations in the order of the letters. Angles that are not
given count as zero. -/
theorem C42_product {roll pitch yaw : Option (ND ℝ)} {sh : List ℕ}
    (hr : ShapeIs sh roll) (hp : ShapeIs sh pitch) (hy : ShapeIs sh yaw)
    (hne : roll.isSome ∨ pitch.isSome ∨ yaw.isSome) (axis : ℤ) {a b c : Char} (hperm : [a, b, c].Perm ['r', 'p', 'y']) :
    ∃ Q, fromEulerQ { roll := roll, pitch := pitch, yaw := yaw, axis := axis, order := [a, b, c] } = .ok Q ∧ Q.shape = sh ∧
      ∀ idx, Valid sh idx → IsEuler (Q.get idx) (angleAt roll idx) (angleAt pitch idx) (angleAt yaw idx) a b c := by
  obtain ⟨Q, q1, q2, q3⟩ := euler_core (o := { roll := roll, pitch := pitch, yaw := yaw, axis := axis, order := [a, b, c] })
    (s := none) (sh := sh) rfl (.inl rfl) hr hp hy hne rfl hperm
  exact ⟨Q, q1, q2, fun idx hv => by rw [q3 idx hv]; exact rotor_product ..⟩

theorem swap_dropLast_set {sh : List ℕ} {p k : ℕ} (hp : p < sh.length) :
    (swapL (sh.length - 1) p (sh.set p k)).dropLast = (swapL (sh.length - 1) p sh).dropLast := by
  rw [swap_set_at (by omega) hp, dropLast_snoc_set (by simp) (by omega), List.dropLast_concat]

/-- The same with `return_quaternion=False` and the default axis: the quaternions are stored along a
new last axis of length 4. -/
theorem C42_product_float {roll pitch yaw : Option (ND ℝ)} {sh : List ℕ}
    (hr : ShapeIs sh roll) (hp : ShapeIs sh pitch) (hy : ShapeIs sh yaw)
    (hne : roll.isSome ∨ pitch.isSome ∨ yaw.isSome) {a b c : Char} (hperm : [a, b, c].Perm ['r', 'p', 'y']) :
    ∃ out, fromEuler { roll := roll, pitch := pitch, yaw := yaw, order := [a, b, c] } = .ok out ∧ out.shape = sh ++ [4] ∧
      ∀ idx k, Valid sh idx → k < 4 →
        IsEuler (quat4 out sh.length (idx ++ [k])) (angleAt roll idx) (angleAt pitch idx) (angleAt yaw idx) a b c := by
  obtain ⟨Q, q1, q2, q3⟩ := C42_product hr hp hy hne (-1) hperm
  have hax : AxisIs (-1) (⟨sh ++ [4], fun _ => 0⟩ : ND ℝ).ndim sh.length := by
    simp [AxisIs, ND.ndim]
  have hsw : ∀ l : List ℕ, l.length = sh.length + 1 → swapL ((sh ++ [4]).length - 1) sh.length l = l := by
    intro l hl
    rw [List.length_append, List.length_singleton, Nat.add_sub_cancel, swapL_self (by omega)]
  obtain ⟨out, o1, o2, o3⟩ := quat_write ⟨sh ++ [4], fun _ => 0⟩ hax (by simp) Q (by
    simp only [ND.ndim]; rw [hsw _ (by simp), List.dropLast_concat, q2])
  refine ⟨out, ?_, o2, fun idx k hv hk => ?_⟩
  · simp only [fromEuler, q1, bind, Except.bind]; exact o1
  · have hl : (idx ++ [k]).length = sh.length + 1 := by simp [hv.length]
    rw [o3 _ (by simpa [ND.ndim] using hl)]
    simp only [ND.ndim]
    rw [hsw _ hl, List.dropLast_concat]
    exact q3 idx hv

/-- `from_euler_angles(rpy, axis=axis, order=)` for an array of any shape with roll, pitch, yaw along
axis `p`: the result has length 4 along that axis, and the quaternion at each position represents
the product of the elementary rotations with the angles at that position. -/
theorem C42_rpy (rpy : ND ℝ) {axis : ℤ} {p : ℕ} (hax : AxisIs axis rpy.ndim p) (h3 : rpy.shape.getD p 0 = 3)
    {a b c : Char} (hperm : [a, b, c].Perm ['r', 'p', 'y']) :
    ∃ out, fromEuler { rpy := some rpy, axis := axis, order := [a, b, c] } = .ok out ∧ out.shape = rpy.shape.set p 4 ∧
      ∀ idx, Valid (rpy.shape.set p 4) idx →
        IsEuler (quat4 out p idx) (rpy.get (idx.set p 0)) (rpy.get (idx.set p 1)) (rpy.get (idx.set p 2)) a b c := by
  have hp : p < rpy.shape.length := hax.1
  have hd : 0 < rpy.ndim := by simp only [ND.ndim]; omega
  have hm : rpy.ndim - 1 < rpy.shape.length := by simp only [ND.ndim]; omega
  set w2 := rpy.swapaxes p (rpy.ndim - 1) with hw2
  have e0 : rpy.swapaxesZ axis (-1) = .ok w2 := by
    simp only [ND.swapaxesZ, axisIs_norm hax, normAxis_neg_one hd, hw2]
  have hsh : w2.shape = swapL (rpy.ndim - 1) p rpy.shape := swapL_comm hp hm
  have hlast : w2.shape.getLast? = some 3 := by
    have hg : w2.shape.getD (rpy.ndim - 1) 0 = 3 := by
      rw [hsh, swapL_getD hm hp]
      split
      · rename_i h; rw [h, h3]
      · rw [if_pos rfl, h3]
    have hl : w2.shape.length = rpy.ndim := by rw [hsh]; simp [ND.ndim]
    rw [List.getLast?_eq_getElem?, hl]
    rw [List.getD_eq_getElem?_getD] at hg
    cases hx : w2.shape[rpy.ndim - 1]? with
    | none => rw [hx] at hg; simp at hg
    | some y => rw [hx] at hg; simp at hg; rw [hg]
  have et : ∀ k, k < 3 → takeLast w2 k = .ok ⟨w2.shape.dropLast, fun idx => w2.get (idx ++ [k])⟩ := by
    intro k hk; simp only [takeLast, hlast, if_pos hk]
  obtain ⟨Q, q1, q2, q3⟩ := euler_core (o := { rpy := some rpy, axis := axis, order := [a, b, c] }) (sh := w2.shape.dropLast)
    (s := some w2.shape.dropLast) (roll := some ⟨w2.shape.dropLast, fun idx => w2.get (idx ++ [0])⟩)
    (pitch := some ⟨w2.shape.dropLast, fun idx => w2.get (idx ++ [1])⟩) (yaw := some ⟨w2.shape.dropLast, fun idx => w2.get (idx ++ [2])⟩)
    (by simp [splitRpy, e0, bind, Except.bind, et, Pure.pure, Except.pure]) (.inr rfl)
    (by rintro x h; cases h; rfl) (by rintro x h; cases h; rfl) (by rintro x h; cases h; rfl) (.inl rfl) rfl hperm
  have hax' : AxisIs axis (⟨rpy.shape.set p 4, fun _ => 0⟩ : ND ℝ).ndim p := by simpa [ND.ndim] using hax
  have hdrop := swap_dropLast_set (k := 4) hp
  obtain ⟨out, o1, o2, o3⟩ := quat_write ⟨rpy.shape.set p 4, fun _ => 0⟩ hax' (by rw [getD_set hp]; simp) Q (by
    simp only [ND.ndim, List.length_set]
    rw [hdrop, q2, hsh]; rfl)
  refine ⟨out, ?_, o2, fun idx hv => ?_⟩
  · simp only [fromEuler, q1, bind, Except.bind]; exact o1
  · have hl : idx.length = rpy.shape.length := by simpa using hv.length
    rw [o3 idx (by simpa [ND.ndim] using hl)]
    have hv2 : Valid w2.shape.dropLast (swapL (rpy.shape.length - 1) p idx).dropLast := by
      have := valid_read (w := ⟨rpy.shape.set p 4, fun _ => (0 : ℝ)⟩) (p := p) (by simpa [ND.ndim] using hp) hv
      simp only [ND.ndim, List.length_set] at this
      rw [hdrop] at this
      rw [hsh]; exact this
    have hang : ∀ k, w2.get ((swapL (rpy.shape.length - 1) p idx).dropLast ++ [k]) = rpy.get (idx.set p k) := by
      intro k
      rw [← dropLast_snoc_set (by simpa using hl) (by omega : 0 < rpy.shape.length), ← swap_set_at (by omega) (by omega)]
      simp only [hw2, ND.swapaxes, ND.ndim]
      rw [swapL_comm (i := p) (by simp; omega) (by simp; omega), swapL_swapL (by simp; omega) (by simp; omega)]
    have := q3 _ hv2
    simp only [angleAt, hang] at this
    simp only [ND.ndim, List.length_set]
    rw [this]
    exact rotor_product ..

/-- If the first three letters of `order` are not a permutation of r, p, y, the call is refused with
`ValueError`, for every choice of angles with consistent shapes. -/
theorem C42_order_refused {roll pitch yaw : Option (ND ℝ)} {sh : List ℕ}
    (hr : ShapeIs sh roll) (hp : ShapeIs sh pitch) (hy : ShapeIs sh yaw)
    (axis : ℤ) {order : List Char} (ho : ¬ OrderOk order) :
    fromEulerQ { roll := roll, pitch := pitch, yaw := yaw, axis := axis, order := order } = .error .valueError ∧
    fromEuler { roll := roll, pitch := pitch, yaw := yaw, axis := axis, order := order } = .error .valueError := by
  have key : fromEulerQ { roll := roll, pitch := pitch, yaw := yaw, axis := axis, order := order } = .error .valueError := by
    have e1 : rollRotors roll none = .ok (optRotor (fun x => ![x, 0, 0]) roll, if roll.isSome then some sh else none) := by
      cases roll with
      | none => simp [optRotor, rollRotors]
      | some x => have := hr x rfl; simp [optRotor, this, rollRotors]
    have e2 := angleRotors_ok (fun x => ![0, x, 0]) hp (s := if roll.isSome then some sh else none) (by split <;> simp)
    have e3 := angleRotors_ok (fun x => ![0, 0, x]) hy
      (s := if pitch.isSome then some sh else if roll.isSome then some sh else none) (by
        split
        · right; rfl
        · split <;> simp)
    simp only [fromEulerQ, splitRpy, bind, Except.bind, e1, e2, e3, arrange_bad ho]
    split_ifs <;> rfl
  exact ⟨key, by simp only [fromEuler, key, bind, Except.bind]⟩

/-- With any arguments whatsoever such an order leads to an exception. -/
theorem C42_order_never_accepted (o : EulerArgs) (ho : ¬ OrderOk o.order) : ∃ e, fromEulerQ o = .error e ∧ fromEuler o = .error e := by
  have key : ∃ e, fromEulerQ o = .error e := by
    simp only [fromEulerQ, bind, Except.bind]
    cases splitRpy o with
    | error e => exact ⟨e, rfl⟩
    | ok x =>
      simp only
      cases rollRotors x.1 x.2.2.2 with
      | error e => exact ⟨e, rfl⟩
      | ok y =>
        simp only
        cases angleRotors (fun x => ![0, x, 0]) x.2.1 y.2 with
        | error e => exact ⟨e, rfl⟩
        | ok z =>
          simp only
          cases angleRotors (fun x => ![0, 0, x]) x.2.2.1 z.2 with
          | error e => exact ⟨e, rfl⟩
          | ok w =>
            simp only [arrange_bad ho]
            exact ⟨.valueError, by split_ifs <;> rfl⟩
  obtain ⟨e, he⟩ := key
  exact ⟨e, he, by simp only [fromEuler, he, bind, Except.bind]⟩

/-- Letters after the third are ignored: "rpyx" is not a permutation of "rpy" but is accepted. -/
theorem C42_longer_order_accepted :
    ¬ ∀ (o : EulerArgs), ¬ o.order.Perm ['r', 'p', 'y'] → fromEulerQ o = .error .valueError := by
  intro h
  have h1 := h { roll := some ⟨[], fun _ => 0⟩, order := ['r', 'p', 'y', 'x'] } (by
    intro hp; have := hp.length_eq; simp at this)
  obtain ⟨Q, q1, -, -⟩ := euler_core (o := { roll := some ⟨[], fun _ => 0⟩, order := ['r', 'p', 'y', 'x'] })
    (s := none) (sh := []) rfl (.inl rfl) (by rintro x hx; cases hx; rfl) (by rintro x hx; cases hx) (by rintro x hx; cases hx)
    (.inl rfl) (a := 'r') (b := 'p') (c := 'y') (rest := ['x']) rfl (List.Perm.refl _)
  rw [q1] at h1
  simp at h1

/-- Contradictory or missing angle arguments and angles of different shapes are refused. -/
theorem C42_arguments_refused (o : EulerArgs)
    (h : (o.rpy.isSome ∧ (o.roll.isSome ∨ o.pitch.isSome ∨ o.yaw.isSome)) ∨
      (o.rpy = none ∧ o.roll = none ∧ o.pitch = none ∧ o.yaw = none) ∨
      (o.rpy = none ∧ ∃ x y, x ∈ [o.roll, o.pitch, o.yaw] ∧ y ∈ [o.roll, o.pitch, o.yaw] ∧
        ∃ u v : ND ℝ, x = some u ∧ y = some v ∧ u.shape ≠ v.shape)) :
    fromEulerQ o = .error .valueError ∧ fromEuler o = .error .valueError := by
  have key : fromEulerQ o = .error .valueError := by
    obtain ⟨rpy, roll, pitch, yaw, axis, order⟩ := o
    rcases h with ⟨h1, h2⟩ | ⟨h1, h2, h3, h4⟩ | ⟨h1, x, y, hx, hy, u, v, hu, hv, hne⟩
    · cases rpy with
      | none => simp at h1
      | some rpy => simp only [fromEulerQ, splitRpy, if_pos h2, bind, Except.bind]
    · simp only at h1 h2 h3 h4
      subst h1 h2 h3 h4
      simp only [fromEulerQ, splitRpy, bind, Except.bind, rollRotors, angleRotors, if_true]; rfl
    · simp only at h1 hx hy
      subst h1 hu hv
      simp only [fromEulerQ, splitRpy, bind, Except.bind]
      cases roll <;> cases pitch <;> cases yaw <;>
        simp only [rollRotors, angleRotors, List.mem_cons, List.not_mem_nil, or_false, reduceCtorEq, false_or, Option.some.injEq] at hx hy ⊢
      all_goals first
        | (subst hx hy; exact absurd rfl hne)
        | (rename_i a b
           have : a.shape ≠ b.shape := by
             rcases hx with rfl | rfl <;> rcases hy with rfl | rfl <;> first | exact hne | exact hne.symm | exact absurd rfl hne
           simp only [this, ne_eq, not_false_eq_true, if_true])
        | (rename_i a b c
           by_cases h1 : a.shape = b.shape
           · have : a.shape ≠ c.shape := by
               intro h2
               rcases hx with rfl | rfl | rfl <;> rcases hy with rfl | rfl | rfl <;> exact hne (by grind)
             simp only [h1, ne_eq, not_true_eq_false, if_false]
             rw [if_pos (by rw [← h1]; exact this)]
           · simp only [h1, ne_eq, not_false_eq_true, if_true])
  exact ⟨key, by simp only [fromEuler, key, bind, Except.bind]⟩

/-- Non-vacuity: yaw by a right angle alone. -/
example : ∃ Q, fromEulerQ { yaw := some ⟨[2], fun _ => Real.pi / 2⟩, order := ['y', 'p', 'r'] } = .ok Q ∧
    rot (Q.get [1]) ![1, 0, 0] = ![0, 1, 0] := by
  obtain ⟨Q, q1, q2, q3⟩ := C42_product (roll := none) (pitch := none) (yaw := some ⟨[2], fun _ => Real.pi / 2⟩) (sh := [2])
    (by rintro x h; cases h) (by rintro x h; cases h) (by rintro x h; cases h; rfl) (by simp) (-1) (a := 'y') (b := 'p') (c := 'r')
    (by decide)
  refine ⟨Q, q1, ?_⟩
  rw [(q3 [1] (by simp [Valid])).2]
  simp [elementary, angleAt, rotX, rotY, rotZ]

/-- Roll and yaw of two poses in another order, also as float array (`C42_product_float`); all three angles in rows (`C42_rpy`). -/
example : (∃ out, fromEuler { roll := some ⟨[2], fun _ => 1⟩, yaw := some ⟨[2], fun _ => 2⟩, order := ['p', 'y', 'r'] } = .ok out ∧ out.shape = [2, 4]) ∧
    ∃ out, fromEuler { rpy := some ⟨[5, 3], fun idx => idx.getD 1 0⟩, order := ['r', 'p', 'y'] } = .ok out ∧ out.shape = [5, 4] := by
  constructor
  · obtain ⟨out, h1, h2, -⟩ := C42_product_float (roll := some ⟨[2], fun _ => 1⟩) (pitch := none) (yaw := some ⟨[2], fun _ => 2⟩) (sh := [2])
      (by rintro x ⟨⟩; rfl) (by rintro x ⟨⟩) (by rintro x ⟨⟩; rfl) (.inl rfl) (a := 'p') (b := 'y') (c := 'r') (by decide)
    exact ⟨out, h1, h2⟩
  · obtain ⟨out, h1, h2, -⟩ := C42_rpy ⟨[5, 3], fun idx => idx.getD 1 0⟩ (axis := -1) (p := 1) ⟨by simp [ND.ndim], .inr (by simp [ND.ndim])⟩ rfl
      (a := 'r') (b := 'p') (c := 'y') (by decide)
    exact ⟨out, h1, h2⟩

/-- A letter twice, angles of different shapes, and no angle at all. -/
example : (fromEulerQ { roll := some ⟨[2], fun _ => 1⟩, order := ['r', 'r', 'y'] } = .error .valueError) ∧
    fromEulerQ { roll := some ⟨[2], fun _ => 1⟩, pitch := some ⟨[3], fun _ => 1⟩ } = .error .valueError ∧ fromEulerQ {} = .error .valueError := by
  refine ⟨?_, ?_, ?_⟩
  · exact (C42_order_refused (roll := some ⟨[2], fun _ => 1⟩) (pitch := none) (yaw := none) (sh := [2]) (by rintro x ⟨⟩; rfl) (by rintro x ⟨⟩)
      (by rintro x ⟨⟩) (-1) (order := ['r', 'r', 'y']) (by unfold OrderOk; decide)).1
  · exact (C42_arguments_refused _ (.inr (.inr ⟨rfl, _, _, List.mem_cons_self .., List.mem_cons_of_mem _ (List.mem_cons_self ..), _, _, rfl, rfl, by simp⟩))).1
  · exact (C42_arguments_refused _ (.inr (.inl ⟨rfl, rfl, rfl, rfl⟩))).1

end RBM.Props
