import Verif.Props.Plumbing

/-!
`transform_coordinates` (C44).
-/

namespace RBM.Props

open RBM Spec

/-! ### The conversion functions -/

theorem cs_convert {o i dim : String} {n : ℕ} {labels : List String} (hc : Conversion o i n dim labels) {arr : ND ℝ} {axis : ℤ} {p : ℕ}
    (h : TupleAxis arr axis p n) (hd : InDomain o i arr p) :
    ∃ f out, csFunc o i = some f ∧ f arr axis = .ok out ∧ Converted o i arr out p := by
  cases hc with
  | toPolar =>
    obtain ⟨out, h1, h2, h3⟩ := C43_to_polar h
    exact ⟨_, out, rfl, h1, h2, fun idx hv => ⟨fun _ _ => h3 idx hv, by simp, by simp, by simp⟩⟩
  | fromPolar =>
    obtain ⟨out, h1, h2, h3⟩ := C43_from_polar h
    exact ⟨_, out, rfl, h1, h2, fun idx hv => ⟨by simp, fun _ _ => h3 idx hv, by simp, by simp⟩⟩
  | toSpherical =>
    obtain ⟨out, h1, h2, h3⟩ := C43_to_spherical h (hd rfl rfl)
    exact ⟨_, out, rfl, h1, h2, fun idx hv => ⟨by simp, by simp, fun _ _ => h3 idx hv, by simp⟩⟩
  | fromSpherical =>
    obtain ⟨out, h1, h2, h3⟩ := C43_from_spherical h
    exact ⟨_, out, rfl, h1, h2, fun idx hv => ⟨by simp, by simp, by simp, fun _ _ => h3 idx hv⟩⟩

/-- Every conversion can be undone. -/
theorem Spec.Conversion.symm {o i dim : String} {n : ℕ} {labels : List String} (hc : Conversion o i n dim labels) :
    ∃ dim' labels', Conversion i o n dim' labels' := by
  cases hc
  exacts [⟨_, _, .fromPolar⟩, ⟨_, _, .toPolar⟩, ⟨_, _, .fromSpherical⟩, ⟨_, _, .toSpherical⟩]

theorem cs_back {o i dim : String} {n : ℕ} {labels : List String} (hc : Conversion o i n dim labels) {arr : ND ℝ} {axis : ℤ} {p : ℕ}
    (h : TupleAxis arr axis p n) (hd : Invertible o i arr p) :
    ∃ f g mid out, csFunc o i = some f ∧ csFunc i o = some g ∧ f arr axis = .ok mid ∧ g mid axis = .ok out ∧ ND.Same out arr := by
  cases hc with
  | toPolar =>
    obtain ⟨mid, out, h1, h2, h3⟩ := C43_cartesian_polar_cartesian h
    exact ⟨_, _, mid, out, rfl, rfl, h1, h2, h3⟩
  | fromPolar =>
    obtain ⟨mid, out, h1, h2, h3⟩ := C43_polar_cartesian_polar h (hd.2.1 rfl)
    exact ⟨_, _, mid, out, rfl, rfl, h1, h2, h3⟩
  | toSpherical =>
    obtain ⟨mid, out, h1, h2, h3⟩ := C43_cartesian_spherical_cartesian h (hd.1 rfl rfl)
    exact ⟨_, _, mid, out, rfl, rfl, h1, h2, h3⟩
  | fromSpherical =>
    obtain ⟨mid, out, h1, h2, h3⟩ := C43_spherical_cartesian_spherical h (hd.2.2 rfl)
    exact ⟨_, _, mid, out, rfl, rfl, h1, h2, h3⟩

/-! ### Plain arrays -/

theorem orDefault_none (d : ℤ) : orDefault none d = d := rfl

theorem unpack_plain {a : ND ℝ} {axis : Option ℤ} {p : ℕ} (hp : AxisIs (orDefault axis (-1)) a.ndim p) (h0 : p ≠ 0) :
    maybeUnpack (.nd a) none axis none .no = .ok ⟨a, orDefault axis (-1), none, some 0, none, .no, none⟩ := by
  have hn : ¬ a.ndim = 0 := by have := hp.1; omega
  have hmod : orDefault axis (-1) % a.ndim = p := by
    have hr := hp.1
    rcases hp.2 with h' | h'
    · rw [h']; exact Int.emod_eq_of_lt (by omega) (by omega)
    · rw [h', show ((p : ℤ) - a.ndim) = p + a.ndim * (-1) by ring, Int.add_mul_emod_self_left]
      exact Int.emod_eq_of_lt (by omega) (by omega)
  simp only [maybeUnpack, checkAxes, if_neg hn, hmod, orDefault_none, Int.zero_emod]
  rw [if_neg (by omega)]

/-- A plain array whose spatial axis is not the first one is converted (missing `axis` means the last
axis). -/
theorem C44_plain_partial (x : XrOps) {o i dim : String} {n : ℕ} {labels : List String} (hc : Conversion o i n dim labels) {a : ND ℝ}
    {axis : Option ℤ} {p : ℕ} (h : TupleAxis a (orDefault axis (-1)) p n) (h0 : p ≠ 0) (hd : InDomain o i a p) (replace : Bool) :
    ∃ out, transformCoordinates x (.nd a) i (some o) none axis replace = .ok (.nd out) ∧ Converted o i a out p := by
  obtain ⟨f, out, hf, h1, h2⟩ := cs_convert hc h hd
  refine ⟨out, ?_, h2⟩
  simp only [transformCoordinates, unpack_plain h.axis h0, resolveCs, Option.bind_some, hf, bind, Except.bind, h1, Option.map_none,
    Pure.pure, Except.pure]

/-- ... and converting forth and back is the identity. -/
theorem C44_plain_back_partial (x : XrOps) {o i dim : String} {n : ℕ} {labels : List String} (hc : Conversion o i n dim labels) {a : ND ℝ}
    {axis : Option ℤ} {p : ℕ} (h : TupleAxis a (orDefault axis (-1)) p n) (h0 : p ≠ 0) (hd : Invertible o i a p) (replace replace' : Bool) :
    ∃ mid out, transformCoordinates x (.nd a) i (some o) none axis replace = .ok (.nd mid) ∧
      transformCoordinates x (.nd mid) o (some i) none axis replace' = .ok (.nd out) ∧ ND.Same out a := by
  obtain ⟨f, g, mid, out, hf, hg, h1, h2, h3⟩ := cs_back hc h hd
  obtain ⟨f', mid', hf', h1', hm⟩ := cs_convert hc h hd.1
  cases hf.symm.trans hf'
  cases h1.symm.trans h1'
  have hax : AxisIs (orDefault axis (-1)) mid.ndim p := by
    rw [show mid.ndim = a.ndim by simp only [ND.ndim, hm.1]]; exact h.axis
  refine ⟨mid, out, ?_, ?_, h3⟩
  · simp only [transformCoordinates, unpack_plain h.axis h0, resolveCs, Option.bind_some, hf, bind, Except.bind, h1, Option.map_none,
      Pure.pure, Except.pure]
  · simp only [transformCoordinates, unpack_plain hax h0, resolveCs, Option.bind_some, hg, bind, Except.bind, h2, Option.map_none,
      Pure.pure, Except.pure]

/-- A single point given as a plain array is never converted, whatever the systems: `ValueError`.
More generally this happens if the spatial axis is the first one. -/
theorem C44_first_axis_fails (x : XrOps) {a : ND ℝ} {axis : Option ℤ} (h : AxisIs (orDefault axis (-1)) a.ndim 0) (i : String) (o : Option String)
    (replace : Bool) : transformCoordinates x (.nd a) i o none axis replace = .error .valueError := by
  have hn : ¬ a.ndim = 0 := by have := h.1; omega
  have hmod : orDefault axis (-1) % a.ndim = 0 := by
    rcases h.2 with h' | h'
    · rw [h']; simp
    · rw [h']; simp
  simp only [transformCoordinates, maybeUnpack, checkAxes, if_neg hn, hmod, orDefault_none, Int.zero_emod, if_true, bind, Except.bind]

/-- The full property is false: the point (1, 0) has polar coordinates. -/
theorem C44_is_false : ¬ ∀ (x : XrOps) (o i dim : String) (n : ℕ) (labels : List String) (a : ND ℝ) (axis : Option ℤ) (p : ℕ),
    Conversion o i n dim labels → TupleAxis a (orDefault axis (-1)) p n → InDomain o i a p →
    ∃ out, transformCoordinates x (.nd a) i (some o) none axis true = .ok (.nd out) ∧ Converted o i a out p := by
  intro h
  have ht : TupleAxis (ND.vec1 [1, 0]) (orDefault none (-1)) 0 2 := ⟨⟨by simp [ND.vec1, ND.ndim], .inr (by simp [ND.vec1, ND.ndim, orDefault])⟩, rfl⟩
  obtain ⟨out, h1, -⟩ := h ⟨fun c _ _ => c, fun c _ _ => c⟩ _ _ _ _ _ (ND.vec1 [1, 0]) none 0 .toPolar ht (fun _ h => by simp at h)
  rw [C44_first_axis_fails _ ht.axis] at h1
  cases h1

/-! ### Refused arguments -/

theorem csFunc_none {o i : String} (h : ¬ ∃ n dim labels, Conversion o i n dim labels) : csFunc o i = none := by
  unfold csFunc
  split
  · rename_i e; subst e
    split
    · rename_i e; subst e; exact absurd ⟨_, _, _, .toPolar⟩ h
    · split
      · rename_i e; subst e; exact absurd ⟨_, _, _, .toSpherical⟩ h
      · rfl
  · split
    · rename_i e; subst e
      split
      · rename_i e; subst e; exact absurd ⟨_, _, _, .fromPolar⟩ h
      · rfl
    · split
      · rename_i e; subst e
        split
        · rename_i e; subst e; exact absurd ⟨_, _, _, .fromSpherical⟩ h
        · rfl
      · rfl

/-- Unsupported pairs of coordinate systems are refused with `ValueError`; no argument makes them
succeed. -/
theorem C44_unsupported (x : XrOps) {o i : String} (h : ¬ ∃ n dim labels, Conversion o i n dim labels) (arr : PyArr) (dim : Option String)
    (axis : Option ℤ) (replace : Bool) :
    (∀ u, maybeUnpack arr dim axis none .no = .ok u → transformCoordinates x arr i (some o) dim axis replace = .error .valueError) ∧
    ∀ r, transformCoordinates x arr i (some o) dim axis replace ≠ .ok r := by
  constructor
  · intro u hu
    simp only [transformCoordinates, hu, resolveCs, Option.bind_some, csFunc_none h, bind, Except.bind]; rfl
  · intro r hr
    cases hu : maybeUnpack arr dim axis none .no with
    | error e => simp only [transformCoordinates, hu, bind, Except.bind] at hr; cases hr
    | ok u =>
      simp only [transformCoordinates, hu, resolveCs, Option.bind_some, csFunc_none h, bind, Except.bind] at hr; cases hr

/-- Without `outof`, the attribute `coordinate_system` is used; if there is none, `ValueError`. -/
theorem C44_no_outof (x : XrOps) (i : String) (dim : Option String) (axis : Option ℤ) (replace : Bool) :
    (∀ (d : DArr) (o : String), Attr d "coordinate_system" (some o) →
      transformCoordinates x (.da d) i none dim axis replace = transformCoordinates x (.da d) i (some o) dim axis replace) ∧
    (∀ (d : DArr) u, dictGet d.info.attrs "coordinate_system" = none → maybeUnpack (.da d) dim axis none .no = .ok u →
      transformCoordinates x (.da d) i none dim axis replace = .error .valueError) ∧
    (∀ (a : ND ℝ) u, maybeUnpack (.nd a) dim axis none .no = .ok u → transformCoordinates x (.nd a) i none dim axis replace = .error .valueError) := by
  refine ⟨fun d o h => ?_, fun d u h hu => ?_, fun a u hu => ?_⟩
  · cases hu : maybeUnpack (.da d) dim axis none .no with
    | error e => simp only [transformCoordinates, hu, bind, Except.bind]
    | ok u =>
      have hi := (unpack_da hu).2.1
      have h' : dictGet d.info.attrs "coordinate_system" = some (some o) := h
      simp only [transformCoordinates, hu, bind, Except.bind, resolveCs, hi, h']
  · have hi := (unpack_da hu).2.1
    simp only [transformCoordinates, hu, bind, Except.bind, resolveCs, hi, h]
  · have hi : u.info = none := by
      cases dim with
      | some n => cases hu
      | none =>
        simp only [maybeUnpack, checkAxes] at hu
        split at hu
        · cases hu
        · split at hu
          · cases hu
          · cases hu; rfl
    simp only [transformCoordinates, hu, bind, Except.bind, resolveCs, hi]

/-! ### DataArrays -/

theorem map_replace_eq_set {l : List String} (hl : l.Nodup) {p : ℕ} (hp : p < l.length) (n : String) :
    (l.map fun d => if d ≠ l[p] then d else n) = l.set p n := by
  apply List.ext_getElem
  · simp
  · intro k h1 h2
    have hk : k < l.length := by simpa using h1
    rw [List.getElem_map, List.getElem_set]
    by_cases e : p = k
    · subst e; simp
    · rw [if_neg e, if_pos]
      intro hc
      exact e ((List.Nodup.getElem_inj_iff hl).mp hc).symm

theorem nodup_set {l : List String} (hl : l.Nodup) {p : ℕ} (hp : p < l.length) {n : String} (hn : n ∉ l ∨ n = l[p]) : (l.set p n).Nodup := by
  rcases hn with hn | hn
  · rw [List.nodup_iff_injective_getElem]
    intro i j hij
    have hi : i.1 < l.length := by simpa using i.2
    have hj : j.1 < l.length := by simpa using j.2
    simp only [List.getElem_set] at hij
    apply Fin.ext
    split at hij
    · split at hij
      · omega
      · exact absurd (hij ▸ List.getElem_mem hj) hn
    · split at hij
      · exact absurd (hij ▸ List.getElem_mem hi) hn
      · exact (List.Nodup.getElem_inj_iff hl).mp hij
  · rw [hn, List.set_getElem_self]; exact hl

theorem dictGet_filter {α : Type} (f : α → Bool) (k : String) : ∀ (l : List (String × α)), (l.map Prod.fst).Nodup →
    dictGet (l.filter fun c => f c.2) k = (dictGet l k).filter f
  | [], _ => rfl
  | (n, c) :: l, h => by
    have h' := List.nodup_cons.mp h
    have ih := dictGet_filter f k l h'.2
    by_cases e : k = n
    · subst e
      have hl : dictGet (l.filter fun c => f c.2) k = none := by
        rw [ih]
        cases hg : dictGet l k with
        | none => rfl
        | some c => exact absurd (List.mem_map.mpr ⟨_, mem_of_dictGet hg, rfl⟩) h'.1
      by_cases hf : f c
      · simp [dictGet, hf, Option.filter]
      · simp only [dictGet] at hl
        simp [dictGet, hf, hl, Option.filter]
    · have hb : (k == n) = false := by simpa using e
      simp only [dictGet] at ih
      by_cases hf : f c
      · simp [dictGet, hf, List.lookup_cons, hb, ih]
      · simp [dictGet, hf, List.lookup_cons, hb, ih]

theorem mem_dictSet {α : Type} {l : List (String × α)} {k : String} {v : α} {c : String × α} (h : c ∈ dictSet l k v) :
    c = (k, v) ∨ c ∈ l := by
  induction l with
  | nil => simpa [dictSet] using h
  | cons a l ih =>
    obtain ⟨k', v'⟩ := a
    simp only [dictSet] at h
    split at h
    · rcases List.mem_cons.mp h with h | h
      exacts [.inl h, .inr (List.mem_cons_of_mem _ h)]
    · rcases List.mem_cons.mp h with h | h
      · exact .inr (h ▸ List.mem_cons_self)
      · rcases ih h with h | h
        exacts [.inl h, .inr (List.mem_cons_of_mem _ h)]

theorem newDim_conv {o i ndim : String} {n : ℕ} {labels : List String} (hc : Conversion o i n ndim labels) :
    newDim i n = .ok (ndim, labels) ∧ labels.length = n := by
  cases hc <;> exact ⟨rfl, rfl⟩

theorem unpack_da_untimed {d : DArr} (hok : DArr.Ok d) {dim : Option String} {axis : Option ℤ} {old : String} {p : ℕ} (hat : DimAt d old p)
    (hdim : dim = some old ∧ axis = none ∨ dim = none ∧ AxisIs (orDefault axis (-1)) d.data.ndim p) :
    ∃ ax, AxisIs ax d.data.ndim p ∧ (dim = some old → ax = p) ∧
      maybeUnpack (.da d) dim axis none .no = .ok ⟨d.data, ax, some old, none, none, .none, some d.info⟩ := by
  rcases hdim with ⟨rfl, rfl⟩ | ⟨rfl, h⟩
  · exact ⟨p, axisIs_nat (idxOf_of_dimAt hok hat).2.2, fun _ => rfl, C56_untimed hok hat none (.inl rfl)⟩
  · refine ⟨_, h, fun h => by simp at h, ?_⟩
    simp only [maybeUnpack, unpackAxis_axis hok h hat, unpackTime, bind, Except.bind, checkAxes]

theorem keys_dictSet {α : Type} (k : String) (v : α) : ∀ {l : List (String × α)}, (l.map Prod.fst).Nodup → ((dictSet l k v).map Prod.fst).Nodup
  | [], _ => by simp [dictSet]
  | (n, c) :: l, h => by
    have h' := List.nodup_cons.mp h
    simp only [dictSet]
    split
    · rename_i e; subst e; exact List.nodup_cons.mpr h'
    · rename_i e
      refine List.nodup_cons.mpr ⟨fun hm => ?_, keys_dictSet k v h'.2⟩
      obtain ⟨c', hc', e'⟩ := List.mem_map.mp hm
      rcases mem_dictSet hc' with rfl | hc'
      · exact e e'.symm
      · exact h'.1 (List.mem_map.mpr ⟨c', hc', e'⟩)

theorem tc_da (x : XrOps) {o i ndim : String} {n : ℕ} {labels : List String} (hc : Conversion o i n ndim labels)
    {d : DArr} (hok : DArr.Ok d) {dim : Option String} {axis : Option ℤ} {old : String} {p : ℕ} (hat : DimAt d old p)
    (hdim : dim = some old ∧ axis = none ∨ dim = none ∧ AxisIs (orDefault axis (-1)) d.data.ndim p)
    (hlen : d.data.shape.getD p 0 = n) (hd : InDomain o i d.data p) (hfree : ndim ∉ d.info.dims ∨ ndim = old) :
    ∃ out : DArr, transformCoordinates x (.da d) i (some o) dim axis true = .ok (.da out) ∧
      (∃ f, ∃ ax : ℤ, csFunc o i = some f ∧ (dim = some old → ax = p) ∧ f d.data ax = .ok out.data) ∧ DArr.Ok out ∧
      Converted o i d.data out.data p ∧
      out.info.dims = d.info.dims.set p ndim ∧ out.info.name = d.info.name ∧
      (∃ c, dictGet out.info.coords ndim = some c ∧ c.dims = [ndim] ∧
        ∃ l, c.vals = .lab l ∧ l.shape = [labels.length] ∧ ∀ k (hk : k < labels.length), l.get [k] = labels[k]) ∧
      (∀ k, k ≠ ndim → dictGet out.info.coords k = (dictGet d.info.coords k).filter fun c => decide (old ∉ c.dims)) ∧
      (∀ k, dictGet out.info.attrs k = if k = "coordinate_system" then (dictGet d.info.attrs k).map fun _ => some i
        else dictGet d.info.attrs k) := by
  obtain ⟨ax, hax, haxp, hu⟩ := unpack_da_untimed hok hat hdim
  obtain ⟨f, out, hf, h1, h2⟩ := cs_convert hc ⟨hax, hlen⟩ hd
  obtain ⟨hnew, hll⟩ := newDim_conv hc
  obtain ⟨hp, hold⟩ := List.getElem?_eq_some_iff.mp hat
  have hp' : p < d.data.ndim := hax.1
  set m : Meta := if (dictGet d.info.attrs "coordinate_system").isSome then
    { d.info with attrs := dictSet d.info.attrs "coordinate_system" (some i) } else d.info with hm
  have mdims : m.dims = d.info.dims := by rw [hm]; split <;> rfl
  have mcoords : m.coords = d.info.coords := by rw [hm]; split <;> rfl
  have mname : m.name = d.info.name := by rw [hm]; split <;> rfl
  have hshape : pyShape out.shape ax = .ok n := by
    have := axisIs_norm hax
    simp only [ND.ndim] at this
    simp only [pyShape, h2.1, this, hlen]
  have hget : tupleGet m.dims ax = .ok old := by
    have hg : d.info.dims.getD p "" = old := by rw [List.getD_eq_getElem?_getD, hat]; rfl
    simp only [tupleGet, mdims, hok.ndim, axisIs_norm hax, hg]
  have hset : (d.info.dims.map fun e => if e ≠ old then e else ndim) = d.info.dims.set p ndim := by
    rw [← hold]; exact map_replace_eq_set hok.nodup hp ndim
  have hnd : (d.info.dims.set p ndim).Nodup := nodup_set hok.nodup hp (by rw [hold]; exact hfree)
  set m' : Meta := { m with
    dims := m.dims.map fun e => if e ≠ old then e else ndim
    coords := dictSet (m.coords.filter fun c => decide (old ∉ c.2.dims)) ndim (labelCoord ndim labels) } with hm'
  have hrep : replaceDim m ax i n = .ok m' := by
    simp only [replaceDim, hget, hnew, bind, Except.bind, Pure.pure, Except.pure, hm']
  have m'dims : m'.dims = d.info.dims.set p ndim := by simp only [hm', mdims, hset]
  have hpn : (d.info.dims.set p ndim).idxOf ndim = p := by
    have hl : p < (d.info.dims.set p ndim).length := by simpa using hp
    have := hnd.idxOf_getElem p hl
    rwa [List.getElem_set_self] at this
  have hlen' : m'.dims.length = out.ndim := by
      rw [m'dims, List.length_set, hok.ndim]; simp only [ND.ndim, h2.1]
  have hall : ∀ c ∈ m'.coords, (∀ e ∈ c.2.dims, e ∈ m'.dims) ∧ c.2.vals.shape = c.2.dims.map fun e => out.shape.getD (m'.dims.idxOf e) 0 := by
    intro c hcm
    simp only [hm'] at hcm
    rcases mem_dictSet hcm with rfl | hcm
    · refine ⟨fun e he => ?_, ?_⟩
      · have : e = ndim := by simpa [labelCoord] using he
        rw [this, m'dims]
        exact List.mem_set hp _
      · simp only [labelCoord, CVals.shape, List.map_cons, List.map_nil, m'dims, hpn, h2.1, hlen, hll]
    · rw [List.mem_filter, mcoords] at hcm
      obtain ⟨hcm, ho⟩ := hcm
      have ho : old ∉ c.2.dims := by simpa using ho
      have hx : ∀ e ∈ c.2.dims, e ∈ d.info.dims.set p ndim ∧ (d.info.dims.set p ndim).idxOf e = d.info.dims.idxOf e := by
        intro e he
        have hed := hok.coordDims c hcm e he
        obtain ⟨k, hk, hke⟩ := List.getElem_of_mem hed
        have hkp : p ≠ k := by rintro rfl; rw [hold] at hke; exact ho (hke ▸ he)
        have hk' : k < (d.info.dims.set p ndim).length := by simpa using hk
        have hke' : (d.info.dims.set p ndim)[k] = e := by rw [List.getElem_set_ne hkp, hke]
        refine ⟨hke' ▸ List.getElem_mem hk', ?_⟩
        have e1 := hnd.idxOf_getElem k hk'
        have e2 := hok.nodup.idxOf_getElem k hk
        rw [hke'] at e1
        rw [hke] at e2
        rw [e1, e2]
      refine ⟨fun e he => by rw [m'dims]; exact (hx e he).1, ?_⟩
      rw [hok.coordShape c hcm, h2.1, m'dims]
      apply List.map_congr_left
      intro e he
      rw [(hx e he).2]
  have hmk : mkDArr out m' = .ok ⟨out, m'⟩ := by
    simp only [mkDArr]
    rw [if_neg (not_not.mpr hlen'), if_pos]
    rw [List.all_eq_true]
    intro c hcm
    simp only [decide_eq_true_eq]
    exact hall c hcm
  have hcoords : ∀ k, k ≠ ndim → dictGet m'.coords k = (dictGet d.info.coords k).filter fun c => decide (old ∉ c.dims) := by
    intro k hk
    simp only [hm', dictGet_set, if_neg (Ne.symm hk), mcoords]
    exact dictGet_filter (fun c => decide (old ∉ c.dims)) k _ hok.keys
  have hnc : dictGet m'.coords ndim = some (labelCoord ndim labels) := by simp only [hm', dictGet_set, if_true]
  have hok' : DArr.Ok ⟨out, m'⟩ := by
    refine ⟨hlen', by rw [m'dims]; exact hnd, fun c hc => (hall c hc).1, fun c hc => (hall c hc).2, ?_, fun k c hk hkd => ?_⟩
    · simp only [hm']
      apply keys_dictSet
      rw [mcoords]
      exact (List.Sublist.map _ List.filter_sublist).nodup hok.keys
    · by_cases e : k = ndim
      · subst e; rw [hnc] at hk; cases hk; rfl
      · change dictGet m'.coords k = some c at hk
        rw [hcoords k e] at hk
        cases hg : dictGet d.info.coords k with
        | none => rw [hg] at hk; cases hk
        | some c' =>
          rw [hg, Option.filter] at hk
          split at hk
          · cases hk
            refine hok.index k _ hg ?_
            change k ∈ m'.dims at hkd
            rw [m'dims] at hkd
            rcases List.mem_or_eq_of_mem_set hkd with h | h
            exacts [h, absurd h e]
          · cases hk
  refine ⟨⟨out, m'⟩, ?_, ⟨f, ax, hf, haxp, h1⟩, hok', h2, m'dims, mname, ?_, fun k hk => ?_, fun k => ?_⟩
  · simp only [transformCoordinates, hu, resolveCs, Option.bind_some, hf, bind, Except.bind, h1, Option.map_some, if_true, hshape,
      Pure.pure, Except.pure]
    rw [← hm]
    simp only [hrep, makeDataArray, hmk]
  · refine ⟨labelCoord ndim labels, ?_, rfl, _, rfl, rfl, fun k hk => by simp [hk]⟩
    exact hnc
  · exact hcoords k hk
  · change dictGet m.attrs k = _
    rw [hm]
    by_cases hs : (dictGet d.info.attrs "coordinate_system").isSome
    · rw [if_pos hs]
      simp only [dictGet_set]
      by_cases hk : "coordinate_system" = k
      · subst hk
        obtain ⟨v, hv⟩ := Option.isSome_iff_exists.mp hs
        simp [hv]
      · rw [if_neg hk, if_neg (Ne.symm hk)]
    · rw [if_neg hs]
      by_cases hk : k = "coordinate_system"
      · subst hk
        rw [if_pos rfl]
        cases hg : dictGet d.info.attrs "coordinate_system" with
        | none => rfl
        | some v => rw [hg] at hs; simp at hs
      · rw [if_neg hk]

/-- A DataArray is converted into a proper DataArray along the given dimension (or axis). The spatial dimension is replaced
by the one describing the new system, with its labels; coordinates that do not involve the old
dimension are kept, those which do are dropped; the attribute `coordinate_system` is updated if
there is one and all other attributes and the name are kept. -/
theorem C44_dataarray (x : XrOps) {o i ndim : String} {n : ℕ} {labels : List String} (hc : Conversion o i n ndim labels)
    {d : DArr} (hok : DArr.Ok d) {dim : Option String} {axis : Option ℤ} {old : String} {p : ℕ} (hat : DimAt d old p)
    (hdim : dim = some old ∧ axis = none ∨ dim = none ∧ AxisIs (orDefault axis (-1)) d.data.ndim p)
    (hlen : d.data.shape.getD p 0 = n) (hd : InDomain o i d.data p) (hfree : ndim ∉ d.info.dims ∨ ndim = old) :
    ∃ out : DArr, transformCoordinates x (.da d) i (some o) dim axis true = .ok (.da out) ∧
      DArr.Ok out ∧ Converted o i d.data out.data p ∧
      out.info.dims = d.info.dims.set p ndim ∧ out.info.name = d.info.name ∧
      (∃ c, dictGet out.info.coords ndim = some c ∧ c.dims = [ndim] ∧
        ∃ l, c.vals = .lab l ∧ l.shape = [labels.length] ∧ ∀ k (hk : k < labels.length), l.get [k] = labels[k]) ∧
      (∀ k, k ≠ ndim → dictGet out.info.coords k = (dictGet d.info.coords k).filter fun c => decide (old ∉ c.dims)) ∧
      (∀ k, dictGet out.info.attrs k = if k = "coordinate_system" then (dictGet d.info.attrs k).map fun _ => some i
        else dictGet d.info.attrs k) := by
  obtain ⟨out, h1, -, h2⟩ := tc_da x hc hok hat hdim hlen hd hfree
  exact ⟨out, h1, h2⟩

/-- Converting a DataArray forth and back gives the same data; the dimension is named after the
original system. -/
theorem C44_dataarray_back (x : XrOps) {o i ndim odim : String} {n : ℕ} {labels olabels : List String} (hc : Conversion o i n ndim labels)
    (hc' : Conversion i o n odim olabels)
    {d : DArr} (hok : DArr.Ok d) {old : String} {p : ℕ} (hat : DimAt d old p)
    (hlen : d.data.shape.getD p 0 = n) (hd : Invertible o i d.data p) (hfree : ndim ∉ d.info.dims ∨ ndim = old)
    (hfree' : odim ∉ d.info.dims ∨ odim = old) :
    ∃ mid out : DArr, transformCoordinates x (.da d) i (some o) (some old) none true = .ok (.da mid) ∧
      transformCoordinates x (.da mid) o (some i) (some ndim) none true = .ok (.da out) ∧
      ND.Same out.data d.data ∧ out.info.dims = d.info.dims.set p odim ∧ out.info.name = d.info.name := by
  obtain ⟨mid, m1, ⟨f, ax, f1, f2, f3⟩, m2, m3, m4, m5, -⟩ := tc_da x hc hok hat (.inl ⟨rfl, rfl⟩) hlen hd.1 hfree
  obtain ⟨hp, hold⟩ := List.getElem?_eq_some_iff.mp hat
  have hax := axisIs_nat (idxOf_of_dimAt hok hat).2.2
  obtain ⟨f', g', mid', out', c1, c2, c3, c4, c5⟩ := cs_back hc ⟨hax, hlen⟩ hd
  cases f1.symm.trans c1
  have hax' := f2 rfl
  subst hax'
  have hmid : mid' = mid.data := Except.ok.inj (c3.symm.trans f3)
  subst hmid
  have hat' : DimAt mid ndim p := by rw [DimAt, m4, List.getElem?_set_self hp]
  have hndim : odim ∉ mid.info.dims ∨ odim = ndim := by
    rw [m4]
    by_cases e : odim = ndim
    · exact .inr e
    · refine .inl fun hm => ?_
      rcases hfree' with h | h
      · rcases List.mem_or_eq_of_mem_set hm with h' | h'
        exacts [h h', e h']
      · obtain ⟨k, hk, hke⟩ := List.getElem_of_mem hm
        have hk' : k < d.info.dims.length := by simpa using hk
        rw [List.getElem_set] at hke
        split at hke
        · exact e hke.symm
        · rename_i hne
          rw [h, ← hold] at hke
          exact hne ((List.Nodup.getElem_inj_iff hok.nodup).mp hke).symm
  have hind : InDomain i o mid.data p := by
    intro h1 h2
    cases hc with
    | toPolar => simp at h1
    | fromPolar => simp at h2
    | toSpherical => simp at h1
    | fromSpherical =>
      rintro idx hv ⟨z0, z1, z2⟩
      have hv' : Valid d.data.shape idx := by rw [← m3.1]; exact hv
      obtain ⟨d1, d2, d3, -⟩ := hd.2.2 rfl idx hv'
      obtain ⟨e0, e1, e2⟩ := (m3.2 idx hv').2.2.2 rfl rfl
      have hs := Real.sin_pos_of_pos_of_lt_pi d2 d3
      rw [z0] at e0; rw [z1] at e1
      have hc0 : Real.cos (entry d.data p idx 2) = 0 := by
        rcases mul_eq_zero.mp e0.symm with h | h
        · exact absurd h (mul_pos d1 hs).ne'
        · exact h
      have hs0 : Real.sin (entry d.data p idx 2) = 0 := by
        rcases mul_eq_zero.mp e1.symm with h | h
        · exact absurd h (mul_pos d1 hs).ne'
        · exact h
      have := Real.sin_sq_add_cos_sq (entry d.data p idx 2)
      rw [hs0, hc0] at this; norm_num at this
  obtain ⟨out, o1, ⟨g, ax, g1, g2, g3⟩, o2, o3, o4, o5, -⟩ := tc_da x hc' m2 hat' (.inl ⟨rfl, rfl⟩) (by rw [m3.1]; exact hlen) hind hndim
  cases g1.symm.trans c2
  have hax' := g2 rfl
  subst hax'
  have hout : out' = out.data := Except.ok.inj (c4.symm.trans g3)
  subst hout
  exact ⟨mid, out, m1, o1, c5, by rw [o4, m4, List.set_set], o5.trans m5⟩

/-- The position (1, 0, 1) as a DataArray with a dimension `cartesian_axis`. -/
noncomputable def exDA : DArr :=
  ⟨ND.vec1 [1, 0, 1], ⟨[("cartesian_axis", labelCoord "cartesian_axis" ["x", "y", "z"])], ["cartesian_axis"], some "position",
    [("coordinate_system", some "cartesian")]⟩⟩

theorem exDA_ok : DArr.Ok exDA := by
  refine ⟨rfl, by simp [exDA], ?_, ?_, by simp [exDA], ?_⟩
  · intro c hc; simp only [exDA, List.mem_singleton] at hc; subst hc; simp [labelCoord, exDA]
  · intro c hc; simp only [exDA, List.mem_singleton] at hc; subst hc; simp [labelCoord, exDA, CVals.shape, ND.vec1]
  · intro k c hc hk
    simp only [exDA, List.mem_singleton] at hk
    subst hk
    simp [exDA, dictGet] at hc
    subst hc; rfl

/-- Its spherical coordinates are computed and turned back. -/
example (x : XrOps) : ∃ mid out : DArr, transformCoordinates x (.da exDA) "spherical" (some "cartesian") (some "cartesian_axis") none true = .ok (.da mid) ∧
    transformCoordinates x (.da mid) "cartesian" (some "spherical") (some "spherical_axis") none true = .ok (.da out) ∧
    ND.Same out.data exDA.data ∧ out.info.dims = ["cartesian_axis"] := by
  obtain ⟨mid, out, h1, h2, h3, h4, -⟩ := C44_dataarray_back x .toSpherical .fromSpherical exDA_ok (old := "cartesian_axis") (p := 0) rfl rfl
    ⟨fun _ _ idx hv h => by
      have := h.1
      cases idx <;> simp [entry, exDA, ND.vec1] at this, fun h => by simp at h, fun h => by simp at h⟩ (.inl (by simp [exDA])) (.inr rfl)
  exact ⟨mid, out, h1, h2, h3, by rw [h4]; rfl⟩

/-- Two points in the plane (rows). -/
example (x : XrOps) : ∃ out, transformCoordinates x (.nd ⟨[2, 2], fun idx => idx.getD 0 0 + idx.getD 1 0⟩) "polar" (some "cartesian") = .ok (.nd out) ∧
    out.shape = [2, 2] := by
  obtain ⟨out, h1, h2⟩ := C44_plain_partial x .toPolar (a := ⟨[2, 2], fun idx => idx.getD 0 0 + idx.getD 1 0⟩) (axis := none) (p := 1)
    ⟨⟨by simp [ND.ndim], .inr (by simp [ND.ndim, orDefault])⟩, rfl⟩ (by simp) (fun _ h => by simp at h) true
  exact ⟨out, h1, h2.1⟩

/-- The same two points to polar coordinates and back (`C44_plain_back_partial`); a column of coordinates is refused (`C44_first_axis_fails`);
there is no conversion between polar and spherical coordinates (`C44_unsupported`). -/
example (x : XrOps) :
    (∃ mid out, transformCoordinates x (.nd ⟨[2, 2], fun idx => idx.getD 0 0 + idx.getD 1 0⟩) "polar" (some "cartesian") = .ok (.nd mid) ∧
      transformCoordinates x (.nd mid) "cartesian" (some "polar") = .ok (.nd out) ∧
      ND.Same out ⟨[2, 2], fun idx => idx.getD 0 0 + idx.getD 1 0⟩) ∧
    transformCoordinates x (.nd ⟨[3], fun _ => 1⟩) "spherical" (some "cartesian") = .error .valueError ∧
    transformCoordinates x (.da exDA) "polar" (some "spherical") (some "cartesian_axis") ≠ .ok (.da exDA) := by
  refine ⟨?_, ?_, ?_⟩
  · exact C44_plain_back_partial x .toPolar (a := ⟨[2, 2], fun idx => idx.getD 0 0 + idx.getD 1 0⟩) (axis := none) (p := 1)
      ⟨⟨by simp [ND.ndim], .inr (by simp [ND.ndim, orDefault])⟩, rfl⟩ (by simp) ⟨fun _ h => by simp at h, fun h => by simp at h, fun h => by simp at h⟩ true true
  · exact C44_first_axis_fails x (a := ⟨[3], fun _ => 1⟩) (axis := none) ⟨by simp [ND.ndim], .inr (by simp [ND.ndim, orDefault])⟩ _ _ _
  · refine (C44_unsupported x ?_ (.da exDA) (some "cartesian_axis") none true).2 _
    have key : ∀ o i n dim labels, Conversion o i n dim labels → ¬ (o = "spherical" ∧ i = "polar") := by
      intro o i n dim labels h
      cases h <;> simp
    rintro ⟨n, dim, labels, h⟩
    exact key _ _ _ _ _ h ⟨rfl, rfl⟩

/-- The coordinate system of a DataArray is taken from its attribute (`C44_no_outof`); the result of `C44_dataarray` for the axis given as number. -/
example (x : XrOps) : ∃ out : DArr, transformCoordinates x (.da exDA) "spherical" none none (some 0) true = .ok (.da out) ∧
    out.info.dims = ["spherical_axis"] ∧ dictGet out.info.attrs "coordinate_system" = some (some "spherical") := by
  obtain ⟨out, h1, -, -, h2, -, -, -, h3⟩ := C44_dataarray x .toSpherical exDA_ok (dim := none) (axis := some 0) (old := "cartesian_axis") (p := 0) rfl
    (.inr ⟨rfl, ⟨by simp [ND.ndim, exDA, ND.vec1], .inr (by simp [orDefault, ND.ndim, exDA, ND.vec1])⟩⟩) rfl
    (fun _ _ idx hv h => by
      have := h.1
      cases idx <;> simp [entry, exDA, ND.vec1] at this) (.inl (by simp [exDA]))
  refine ⟨out, ?_, by rw [h2]; rfl, ?_⟩
  · rw [(C44_no_outof x "spherical" none (some 0) true).1 exDA "cartesian" rfl]; exact h1
  · rw [h3, if_pos rfl]; rfl

end RBM.Props
