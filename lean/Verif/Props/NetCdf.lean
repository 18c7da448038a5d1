import Verif.Spec.RosIo

/-!
C54: netCDF export and the names of cache files.
-/

namespace RBM.Props

open RBM RBM.Ros RBM.Spec

theorem rint_near (x : ℝ) : |(rint x : ℝ) - x| ≤ 1 / 2 := by
  have h1 := Int.floor_add_fract x
  have h2 := Int.fract_nonneg x
  have h3 := Int.fract_lt_one x
  unfold rint
  by_cases c1 : Int.fract x < 1 / 2
  · rw [if_pos c1, abs_le]; constructor <;> linarith
  · rw [if_neg c1]
    by_cases c2 : 1 / 2 < Int.fract x
    · rw [if_pos c2, abs_le]; push_cast; constructor <;> linarith
    · rw [if_neg c2]
      have c3 : Int.fract x = 1 / 2 := by linarith
      split_ifs <;> rw [abs_le] <;> push_cast <;> constructor <;> linarith

theorem rint_int (k : ℤ) : rint (k : ℝ) = k := by
  unfold rint
  rw [if_pos (by rw [Int.fract_intCast]; norm_num), Int.floor_intCast]

theorem rint_of_near {x : ℝ} {k : ℤ} (h : |x - k| < 1 / 2) : rint x = k := by
  have h1 := rint_near x
  have h2 : |((rint x - k : ℤ) : ℝ)| < 1 := by
    push_cast
    rw [abs_lt] at *
    rw [abs_le] at h1
    constructor <;> linarith [h.1, h.2, h1.1, h1.2]
  have h3 : |rint x - k| < 1 := by exact_mod_cast h2
  have := Int.abs_lt_one_iff.mp h3
  omega

theorem encode_in {cast : ℤ → ℤ} {x : ℝ} (h : |x| < 214748.36475) :
    encode cast (some x) = rint (x / scale) ∧ intMin < rint (x / scale) ∧ rint (x / scale) ≤ intMax := by
  have h1 := rint_near (x / scale)
  rw [abs_le] at h1
  rw [abs_lt] at h
  have e : x / scale = x * 10000 := by rw [scale]; field_simp
  rw [e] at h1
  have l : (-2147483648 : ℝ) < (rint (x * 10000) : ℝ) := by linarith [h1.1, h.1]
  have u : (rint (x * 10000) : ℝ) < 2147483648 := by linarith [h1.2, h.2]
  have l' : -2147483648 < rint (x * 10000) := by exact_mod_cast l
  have u' : rint (x * 10000) < 2147483648 := by exact_mod_cast u
  rw [e]
  have a : intMin < rint (x * 10000) := l'
  have b : rint (x * 10000) ≤ intMax := by unfold intMax; omega
  refine ⟨?_, a, b⟩
  simp only [encode, e]
  rw [if_pos ⟨a.le, b⟩]

/-- A value in range that is written and read back differs by at most half the scale factor. -/
theorem C54_value (cast : ℤ → ℤ) {x : ℝ} (h : |x| < 214748.36475) :
    ∃ y, decode (encode cast (some x)) = some y ∧ |y - x| ≤ 0.0001 / 2 := by
  obtain ⟨h1, h2, -⟩ := encode_in (cast := cast) h
  refine ⟨_, by rw [h1, decode, if_neg h2.ne'], ?_⟩
  have e : (rint (x / scale) : ℝ) * scale - x = (rint (x / scale) - x / scale) * scale := by
    rw [scale]; field_simp
  rw [e, abs_mul, abs_of_pos (show (0 : ℝ) < scale by rw [scale]; norm_num)]
  have := rint_near (x / scale)
  rw [scale] at *
  linarith

/-- Multiples of the scale factor are read back exactly. -/
theorem C54_exact (cast : ℤ → ℤ) (k : ℤ) (h : |k| ≤ 2147483647) :
    decode (encode cast (some ((k : ℝ) * 0.0001))) = some ((k : ℝ) * 0.0001) := by
  have e : (k : ℝ) * 0.0001 / scale = k := by rw [scale]; norm_num
  rw [abs_le] at h
  have a : intMin < k := by unfold intMin; omega
  have b : k ≤ intMax := by unfold intMax; omega
  simp only [encode, e, rint_int]
  rw [if_pos ⟨a.le, b⟩, decode, if_neg a.ne', scale]
  norm_num

/-- NaN is read back as NaN. -/
theorem C54_nan (cast : ℤ → ℤ) : decode (encode cast none) = none := by simp [encode, decode]

/-- Values out of range are never read back correctly, whatever the cast to 32 bits makes of them. -/
theorem C54_out_of_range {cast : ℤ → ℤ} (hc : ∀ k, -2147483648 ≤ cast k ∧ cast k ≤ 2147483647) {x : ℝ} (h : 214748.36475 < |x|) (y : ℝ)
    (hy : decode (encode cast (some x)) = some y) : 0.0001 / 2 < |y - x| := by
  obtain ⟨k, hk, hk1, hk2⟩ : ∃ k : ℤ, encode cast (some x) = k ∧ -2147483648 ≤ k ∧ k ≤ 2147483647 := by
    simp only [encode]
    split_ifs with c
    · exact ⟨_, rfl, c.1, c.2⟩
    · exact ⟨_, rfl, hc _⟩
  rw [hk, decode] at hy
  split_ifs at hy with c
  have c' : -2147483647 ≤ k := by unfold intMin at c; omega
  obtain rfl : (k : ℝ) * scale = y := by simpa using hy
  have r1 : (-2147483647 : ℝ) ≤ k := by exact_mod_cast c'
  have r2 : (k : ℝ) ≤ 2147483647 := by exact_mod_cast hk2
  have s : |(k : ℝ) * scale| ≤ 214748.3647 := by rw [scale, abs_le]; constructor <;> linarith
  have := abs_sub_abs_le_abs_sub x ((k : ℝ) * scale)
  rw [abs_sub_comm]
  linarith

/-- The smallest 32 bit integer is the fill value: the number it stands for becomes NaN. -/
theorem C54_fill (cast : ℤ → ℤ) : decode (encode cast (some (-214748.3648))) = none := by
  have e : (-214748.3648 : ℝ) / scale = ((-2147483648 : ℤ) : ℝ) := by rw [scale]; norm_num
  simp only [encode, e, rint_int]
  simp [intMin, intMax, decode]

theorem table_within {cast : ℤ → ℤ} {a : List (List (Option ℝ))} (h : TableBelow 214748.36475 a) :
    TableWithin (0.0001 / 2) ((a.map fun r => r.map (encode cast)).map fun r => r.map decode) a := by
  unfold TableWithin
  rw [List.map_map, List.forall₂_map_left_iff, List.forall₂_same]
  intro r hr
  simp only [Function.comp, List.map_map]
  rw [List.forall₂_map_left_iff, List.forall₂_same]
  intro x hx
  cases x with
  | none => exact Or.inl ⟨C54_nan cast, rfl⟩
  | some x =>
    obtain ⟨y, h1, h2⟩ := C54_value cast (h r hr x hx)
    exact Or.inr ⟨y, x, h1, rfl, h2⟩

/-- A whole dataset that is exported and opened again. -/
theorem C54_dataset (cast : ℤ → ℤ) {ds : Dataset} (h : DatasetBelow 214748.36475 ds) :
    DatasetWithin (0.0001 / 2) (openDataset (writeNetcdf cast ds)) ds := by
  obtain ⟨h1, h2, h3⟩ := h
  refine ⟨rfl, table_within h1, table_within h2, ?_⟩
  cases hv : ds.velocity with
  | none => exact Or.inl ⟨by simp [openDataset, writeNetcdf, hv], rfl⟩
  | some v =>
    obtain ⟨h4, h5⟩ := h3 v hv
    refine Or.inr ⟨_, v, by simp only [openDataset, writeNetcdf, hv, Option.map_some]; rfl, rfl, table_within h4, table_within h5⟩

theorem encode_decode {cast : ℤ → ℤ} (hc : ∀ k, -2147483648 ≤ cast k ∧ cast k ≤ 2147483647) (x : Option ℝ) :
    encode cast (decode (encode cast x)) = encode cast x := by
  obtain ⟨k, hk, hk1, hk2⟩ : ∃ k : ℤ, encode cast x = k ∧ intMin ≤ k ∧ k ≤ intMax := by
    cases x with
    | none => exact ⟨intMin, rfl, le_rfl, by unfold intMin intMax; omega⟩
    | some x =>
      simp only [encode]
      split_ifs with c
      · exact ⟨_, rfl, c.1, c.2⟩
      · exact ⟨_, rfl, hc _⟩
  rw [hk, decode]
  split_ifs with c
  · rw [c]; rfl
  · have e : (k : ℝ) * scale / scale = k := by rw [scale]; field_simp
    simp only [encode, e, rint_int]
    rw [if_pos ⟨hk1, hk2⟩]

/-- Exporting again what was read from a file changes nothing more. -/
theorem C54_idempotent {cast : ℤ → ℤ} (hc : ∀ k, -2147483648 ≤ cast k ∧ cast k ≤ 2147483647) (ds : Dataset) :
    openDataset (writeNetcdf cast (openDataset (writeNetcdf cast ds))) = openDataset (writeNetcdf cast ds) := by
  have ht : ∀ a : List (List (Option ℝ)), ((((a.map fun r => r.map (encode cast)).map fun r => r.map decode).map fun r => r.map (encode cast)).map
      fun r => r.map decode) = (a.map fun r => r.map (encode cast)).map fun r => r.map decode := by
    intro a
    simp only [List.map_map, Function.comp_def, encode_decode hc]
  simp only [openDataset, writeNetcdf, ht, Option.map_map, Function.comp_def]

/-- Orientations that are read from a file are unit quaternions only up to the scale factor. -/
theorem C54_orientation (cast : ℤ → ℤ) {w x y z : ℝ} (h : w ^ 2 + x ^ 2 + y ^ 2 + z ^ 2 = 1) :
    ∃ w' x' y' z', [some w, some x, some y, some z].map (fun c => decode (encode cast c)) = [some w', some x', some y', some z'] ∧
      |Real.sqrt (w' ^ 2 + x' ^ 2 + y' ^ 2 + z' ^ 2) - 1| ≤ 0.0001 := by
  have hb : ∀ c : ℝ, c ^ 2 ≤ 1 → |c| < 214748.36475 := fun c hc => by
    have : |c| ≤ 1 := abs_le_one_iff_mul_self_le_one.mpr (by nlinarith)
    linarith
  obtain ⟨w', hw, ew⟩ := C54_value cast (hb w (by nlinarith [sq_nonneg x, sq_nonneg y, sq_nonneg z]))
  obtain ⟨x', hx, ex⟩ := C54_value cast (hb x (by nlinarith [sq_nonneg w, sq_nonneg y, sq_nonneg z]))
  obtain ⟨y', hy, ey⟩ := C54_value cast (hb y (by nlinarith [sq_nonneg w, sq_nonneg x, sq_nonneg z]))
  obtain ⟨z', hz, ez⟩ := C54_value cast (hb z (by nlinarith [sq_nonneg w, sq_nonneg y, sq_nonneg x]))
  refine ⟨w', x', y', z', by simp [hw, hx, hy, hz], ?_⟩
  have hs : ∀ c d : ℝ, |d - c| ≤ 0.0001 / 2 → (d - c) ^ 2 ≤ (0.0001 / 2) ^ 2 := fun c d hh => by
    rw [← sq_abs]; exact pow_le_pow_left₀ (abs_nonneg _) hh 2
  have qw := hs _ _ ew
  have qx := hs _ _ ex
  have qy := hs _ _ ey
  have qz := hs _ _ ez
  generalize hN : w' ^ 2 + x' ^ 2 + y' ^ 2 + z' ^ 2 = N
  have hN0 : 0 ≤ N := by rw [← hN]; positivity
  -- the inner product `d` of the two quaternions satisfies 2 d = N + 1 - |difference|²
  have hd : N + 1 - 2 * (w * w' + x * x' + y * y' + z * z') ≤ 0.0001 ^ 2 := by rw [← hN]; nlinarith
  have hcs : (w * w' + x * x' + y * y' + z * z') ^ 2 ≤ N := by
    rw [← hN, ← one_mul (w' ^ 2 + _), ← h]
    nlinarith [sq_nonneg (w * x' - x * w'), sq_nonneg (w * y' - y * w'), sq_nonneg (w * z' - z * w'), sq_nonneg (x * y' - y * x'),
      sq_nonneg (x * z' - z * x'), sq_nonneg (y * z' - z * y')]
  have hle : w * w' + x * x' + y * y' + z * z' ≤ Real.sqrt N := Real.le_sqrt_of_sq_le hcs
  have hsq : Real.sqrt N ^ 2 = N := Real.sq_sqrt hN0
  have : (Real.sqrt N - 1) ^ 2 ≤ 0.0001 ^ 2 := by nlinarith
  exact abs_le_of_sq_le_sq this (by norm_num)

/-- Cached orientations need not be unit quaternions. -/
theorem C54_orientation_not_unit (cast : ℤ → ℤ) : ∃ w x y z w' x' y' z' : ℝ, w ^ 2 + x ^ 2 + y ^ 2 + z ^ 2 = 1 ∧
    [some w, some x, some y, some z].map (fun c => decode (encode cast c)) = [some w', some x', some y', some z'] ∧
    w' ^ 2 + x' ^ 2 + y' ^ 2 + z' ^ 2 ≠ 1 := by
  have e : ∀ (x : ℝ) (k : ℤ), |x / scale - k| < 1 / 2 → |k| ≤ 10000 → decode (encode cast (some x)) = some (k * scale) := by
    intro x k h1 h2
    rw [abs_le] at h2
    simp only [encode, rint_of_near h1]
    rw [if_pos ⟨by unfold intMin; omega, by unfold intMax; omega⟩, decode, if_neg (by unfold intMin; omega)]
  refine ⟨3 / 5, 4 / 5 * (3 / 5) , 4 / 5 * (20 / 29 * (4 / 5)), 4 / 5 * (21 / 29 * (4 / 5)), (6000 : ℤ) * scale, (4800 : ℤ) * scale, (4414 : ℤ) * scale, (4634 : ℤ) * scale, by norm_num, ?_, by rw [scale]; norm_num⟩
  simp only [List.map_cons, List.map_nil]
  rw [e _ 6000 (by rw [scale]; norm_num) (by norm_num), e _ 4800 (by rw [scale]; norm_num) (by norm_num), e _ 4414 (by rw [scale]; norm_num [abs_lt]) (by norm_num),
    e _ 4634 (by rw [scale]; norm_num [abs_lt]) (by norm_num)]

/-! ### Names of cache files -/

theorem cachePath_eq_iff (rd : Reader) (a b : String) : rd.cachePath a = rd.cachePath b ↔ cacheName a = cacheName b := by
  simp [Reader.cachePath]

theorem cacheName_eq_iff (a b : String) : cacheName a = cacheName b ↔
    List.Forall₂ (fun c d => c = d ∨ ((c = '/' ∨ c = '_') ∧ (d = '/' ∨ d = '_'))) a.toList b.toList := by
  have h1 : cacheName a = cacheName b ↔
      (a.toList.map fun c => if c = '/' then '_' else c) = b.toList.map fun c => if c = '/' then '_' else c := by
    unfold cacheName
    constructor
    · intro h; have := congrArg String.toList h; simpa using this
    · intro h; rw [h]
  rw [h1]
  generalize a.toList = l
  generalize b.toList = m
  induction l generalizing m with
  | nil => cases m <;> simp
  | cons c l ih =>
    cases m with
    | nil => simp
    | cons d m =>
      simp only [List.map_cons, List.cons.injEq, List.forall₂_cons, ih]
      refine and_congr_left fun _ => ?_
      by_cases hc : c = '/' <;> by_cases hd : d = '/' <;> simp [hc, hd, eq_comm]
      rintro rfl rfl
      rfl

/-- Two topics of a bag share a cache file exactly if they differ in nothing but slashes and underscores. -/
theorem C54_names (rd : Reader) (a b : String) : rd.cachePath a = rd.cachePath b ↔
    List.Forall₂ (fun c d => c = d ∨ ((c = '/' ∨ c = '_') ∧ (d = '/' ∨ d = '_'))) a.toList b.toList := by
  rw [cachePath_eq_iff, cacheName_eq_iff]

/-- Topics without underscores have different cache files. -/
theorem C54_names_partial (rd : Reader) {a b : String} (ha : '_' ∉ a.toList) (hb : '_' ∉ b.toList) (h : rd.cachePath a = rd.cachePath b) : a = b := by
  rw [C54_names] at h
  have : a.toList = b.toList := by
    generalize a.toList = l at *
    generalize b.toList = m at *
    induction h with
    | nil => rfl
    | @cons c d l m h1 _ ih =>
      simp only [List.mem_cons, not_or] at ha hb
      rw [ih ha.2 hb.2]
      rcases h1 with rfl | ⟨h2, h3⟩
      · rfl
      · rcases h2 with rfl | rfl
        · rcases h3 with rfl | rfl
          · rfl
          · exact absurd rfl hb.1
        · exact absurd rfl ha.1
  exact String.toList_inj.mp this

/-- The second half of C54 is false: two topics can share a cache file. -/
theorem C54_names_is_false (rd : Reader) : rd.cachePath "/imu/left" = rd.cachePath "/imu_left" ∧ "/imu/left" ≠ "/imu_left" := by
  refine ⟨(C54_names rd _ _).mpr ?_, by decide⟩
  simp

/-- A value in range (`C54_value`) and one out of range, if the cast gives 0 (`C54_out_of_range`, whose bound on the cast is that of `C54_idempotent`). -/
example : (∃ y, decode (encode (fun _ => 0) (some 3.14159)) = some y ∧ |y - 3.14159| ≤ 0.0001 / 2) ∧
    ∃ y, decode (encode (fun _ => 0) (some 300000)) = some y ∧ 0.0001 / 2 < |y - 300000| := by
  refine ⟨C54_value _ (by rw [abs_of_pos (by norm_num)]; norm_num), 0, ?_, ?_⟩
  · have e : rint ((300000 : ℝ) / scale) = 3000000000 := by
      rw [show (300000 : ℝ) / scale = ((3000000000 : ℤ) : ℝ) by rw [scale]; norm_num, rint_int]
    simp only [encode, e]
    rw [if_neg (by simp [intMin, intMax])]
    simp [decode, intMin]
  · rw [zero_sub, abs_neg, abs_of_pos (by norm_num)]
    norm_num

/-- A dataset with a NaN and a velocity (`C54_dataset`), a rotation (`C54_orientation`) and topics (`C54_names_partial`). -/
example (cast : ℤ → ℤ) :
    DatasetWithin (0.0001 / 2) (openDataset (writeNetcdf cast ⟨[7], [[some 1.23456, none, some 0]], [[some 1, some 0, some 0, some 0]],
      some ([[some 2, some 3, some 0]], [[some 0, some 0.5, some 0]])⟩))
      ⟨[7], [[some 1.23456, none, some 0]], [[some 1, some 0, some 0, some 0]], some ([[some 2, some 3, some 0]], [[some 0, some 0.5, some 0]])⟩ ∧
    (∃ w' x' y' z', [some (3 / 5), some (4 / 5), some 0, some 0].map (fun c => decode (encode cast c)) = [some w', some x', some y', some z'] ∧
      |Real.sqrt (w' ^ 2 + x' ^ 2 + y' ^ 2 + z' ^ 2) - 1| ≤ 0.0001) ∧
    ∀ rd : Reader, rd.cachePath "/imu/left" ≠ rd.cachePath "/imu/right" := by
  refine ⟨C54_dataset cast ⟨?_, ?_, ?_⟩, C54_orientation cast (by norm_num), fun rd h => ?_⟩
  · intro r hr x hx
    simp only [List.mem_singleton] at hr
    subst hr
    simp at hx
    rcases hx with rfl | rfl <;> rw [abs_of_nonneg (by norm_num)] <;> norm_num
  · intro r hr x hx
    simp only [List.mem_singleton] at hr
    subst hr
    simp at hx
    rcases hx with rfl | rfl <;> rw [abs_of_nonneg (by norm_num)] <;> norm_num
  · intro v hv
    injection hv with hv
    subst hv
    constructor
    all_goals
      intro r hr x hx
      simp only [List.mem_singleton] at hr
      subst hr
      simp at hx
      rcases hx with rfl | rfl | rfl <;> rw [abs_of_nonneg (by norm_num)] <;> norm_num
  · exact absurd (C54_names_partial rd (by decide) (by decide) h) (by decide)

end RBM.Props
