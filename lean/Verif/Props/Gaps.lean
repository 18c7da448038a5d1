import Verif.Props.Angular
import Verif.Lemmas.GapsAgree

/-!
C77: angular velocities of a series with missing (NaN) samples.
-/

namespace RBM.Props

open RBM.Spec

section

variable {ext : Ext} {arr : ND (Option ℝ)} {axis ta : Option ℤ} {pa p : ℕ} {ts : List ℝ}

theorem estimateAngularGaps_plain (ext : Ext) (arr : ND (Option ℝ)) {axis ta : Option ℤ} {pa p : ℕ} (ts : List ℝ)
    (hax : AxisIs (orDefault axis (-1)) arr.ndim pa) (hp : AxisIs (orDefault ta 0) arr.ndim p) (hne : pa ≠ p) (mode : String)
    (outlier cutoff : Option ℝ) :
    estimateAngularVelocityGaps ext arr none axis (.arr (ofList ts)) ta mode outlier cutoff =
      estimateAngularGaps ext arr ts (orDefault axis (-1)) (orDefault ta 0) mode outlier cutoff := by
  rw [estimateAngularVelocityGaps, (C56_plain_timed arr.fill axis ta (ofList ts) hax hp).1 hne]
  simp only [bind, Except.bind, stampList_ofList, Option.getD_some]

theorem estimateLinearGaps_plain (ext : Ext) (arr : ND (Option ℝ)) {axis ta : Option ℤ} {pa p : ℕ} (ts : List ℝ)
    (hax : AxisIs (orDefault axis (-1)) arr.ndim pa) (hp : AxisIs (orDefault ta 0) arr.ndim p) (hne : pa ≠ p)
    (outlier cutoff : Option ℝ) :
    estimateLinearVelocityGaps ext arr none axis (.arr (ofList ts)) ta outlier cutoff =
      estimateLinearGaps ext arr ts (orDefault ta 0) outlier cutoff := by
  rw [estimateLinearVelocityGaps, (C56_plain_timed arr.fill axis ta (ofList ts) hax hp).1 hne]
  simp only [bind, Except.bind, stampList_ofList, Option.getD_some]

/-- Errors before outlier handling end the call. -/
theorem angularGaps_error {mode : String} {e : PyErr} (hax : AxisIs (orDefault axis (-1)) arr.ndim pa) (hp : AxisIs (orDefault ta 0) arr.ndim p) (hne : pa ≠ p)
    (h : rawAngularGaps ext (arr.swapaxes pa (arr.ndim - 1)) ts (if p + 1 = arr.ndim then pa else p) mode = .error e) (o c : Option ℝ) :
    estimateAngularGaps ext arr ts (orDefault axis (-1)) (orDefault ta 0) mode o c = .error e := by
  have := hax.1; have := hp.1
  rw [estimateAngularGaps, if_neg (by omega), angularAxes_eq hax hp]
  simp only [h, bind, Except.bind]

theorem angular_error {arr : ND ℝ} {mode : String} {e : PyErr} (hax : AxisIs (orDefault axis (-1)) arr.ndim pa) (hp : AxisIs (orDefault ta 0) arr.ndim p) (hne : pa ≠ p)
    (h : rawAngular ext (arr.swapaxes pa (arr.ndim - 1)) ts (if p + 1 = arr.ndim then pa else p) mode = .error e) (o c : Option ℝ) :
    estimateAngular ext arr ts (orDefault axis (-1)) (orDefault ta 0) mode o c = .error e := by
  have := hax.1; have := hp.1
  rw [estimateAngular, if_neg (by omega), angularAxes_eq hax hp]
  simp only [h, bind, Except.bind]

theorem selected_times {ks : List ℕ} {arr' : ND ℝ} {ts' : List ℝ} (hpr : Present arr p ks) (hsel : Selected arr ts p ks arr' ts')
    (hn : arr.shape.getD p 0 = ts.length) : ts' = ks.map fun i => ts.getD i 0 := by
  refine List.ext_getElem (by simp [hsel.length]) fun k h1 h2 => ?_
  have hk : k < ks.length := by rw [← hsel.length]; exact h1
  have h := hsel.times k ks[k] (List.getElem?_eq_getElem hk)
  have hi : ks[k] < ts.length := by rw [← hn]; exact ((hpr.mem _).mp (List.getElem_mem hk)).1
  rw [List.getElem?_eq_getElem h1, List.getElem?_eq_getElem hi] at h
  rw [List.getElem_map, getD_eq hi]
  exact Option.some.inj h

theorem selected_get {ks : List ℕ} {arr' : ND ℝ} {ts' : List ℝ} (hp : p < arr.ndim) (hsel : Selected arr ts p ks arr' ts')
    {idx : List ℕ} (hv : Valid arr'.shape idx) : (arr.takeRows p ks).fill.get idx = arr'.get idx := by
  have hk : idx.getD p 0 < ks.length := by
    have := (valid_iff.mp hv).2 p (by rw [hsel.shape, List.length_set]; exact hp)
    rwa [hsel.shape, getD_set hp, if_pos rfl] at this
  have h := hsel.entries idx (ks.getD (idx.getD p 0) 0) hv (by rw [getD_eq hk]; exact List.getElem?_eq_getElem hk)
  show (arr.get (idx.set p _)).getD 0 = _
  rw [h]; rfl

/-- Quaternion mode, every array, pattern of NaN, axis and time axis: with NaN in the data, the call fails exactly as the
call with the incomplete samples left out, or returns the velocities of that call at the complete samples and NaN at the
incomplete ones. -/
theorem C77_gaps (x : XrOps) (hax : AxisIs (orDefault axis (-1)) arr.ndim pa) (hp : AxisIs (orDefault ta 0) arr.ndim p) (hne : pa ≠ p)
    (hn : arr.shape.getD p 0 = ts.length) {ks : List ℕ} (hpr : Present arr p ks) {arr' : ND ℝ} {ts' : List ℝ} (hsel : Selected arr ts p ks arr' ts') :
    (∃ e, estimateAngularVelocity ext x (.nd arr') none axis (.arr (ofList ts')) ta "quaternion" none none = .error e ∧
      estimateAngularVelocityGaps ext arr none axis (.arr (ofList ts)) ta "quaternion" none none = .error e) ∨
    ∃ v w, estimateAngularVelocity ext x (.nd arr') none axis (.arr (ofList ts')) ta "quaternion" none none = .ok (.nd v) ∧
      estimateAngularVelocityGaps ext arr none axis (.arr (ofList ts)) ta "quaternion" none none = .ok w ∧
      w.shape = arr.shape.set pa 3 ∧
      (∀ idx, Valid w.shape idx → idx.getD p 0 ∉ ks → w.get idx = none) ∧
      ∀ idx (k i : ℕ), Valid w.shape idx → ks[k]? = some i → idx.getD p 0 = i → w.get idx = v.get (idx.set p k) ∧ w.get idx ≠ none := by
  have hpa := hax.1
  have hpp := hp.1
  have hdim : arr'.ndim = arr.ndim := by simp [ND.ndim, hsel.shape]
  have hts := selected_times hpr hsel hn
  have hax' : AxisIs (orDefault axis (-1)) arr'.ndim pa := by rw [hdim]; exact hax
  have hp' : AxisIs (orDefault ta 0) arr'.ndim p := by rw [hdim]; exact hp
  rw [estimateAngular_plain ext x arr' ts' hax' hp' hne, estimateAngularGaps_plain ext arr ts hax hp hne]
  have hn' : arr'.shape.getD p 0 = ts'.length := by rw [hsel.shape, getD_set hpp, if_pos rfl, hsel.length]
  have hpa4 : arr'.shape.getD pa 0 = arr.shape.getD pa 0 := by rw [hsel.shape, getD_set hpp, if_neg hne]
  have hpt : (arr.swapaxes pa (arr.ndim - 1)).shape.getD (if p + 1 = arr.ndim then pa else p) 0 = arr.shape.getD p 0 :=
    swapL_pos hpa hpp hne (idx := arr.shape) rfl
  have hpt' : (arr'.swapaxes pa (arr'.ndim - 1)).shape.getD (if p + 1 = arr'.ndim then pa else p) 0 = arr'.shape.getD p 0 :=
    swapL_pos (n := arr'.ndim) (by omega) (by omega) hne (idx := arr'.shape) rfl
  have hrows := hpr.rows_swap hpa hpp hne
  cases hacc : ext.derivErr ts' with
  | some e =>
    left
    refine ⟨e, ?_, ?_⟩
    · rw [angular_error hax' hp' hne (e := e)]
      · rfl
      · rw [rawAngular, if_pos rfl, if_neg (by rw [hpt', hn']; simp), hacc]
    · refine angularGaps_error hax hp hne ?_ _ _
      rw [rawAngularGaps, if_pos rfl, if_neg (by rw [hpt, hn]; simp)]
      simp only [hrows, ← hts, hacc]
  | none =>
    by_cases h4 : arr.shape.getD pa 0 = 4
    · right
      obtain ⟨raw, r1, r2, r3⟩ := rawAngular_quat (arr := arr') (ts := ts') ext hacc (by rw [hdim]; exact hpa) (by rw [hdim]; exact hpp) hne
        (hpa4.trans h4) hn'
      obtain ⟨v, g1, g2, g3, g4⟩ := rawGaps_quat ext (arr := arr) (ts := ts) hpr (by rw [← hts]; exact hacc) hpa hpp hne h4 hn
      have hnd : raw.ndim = arr.ndim := by rw [ND.ndim, r2]; simp [ND.ndim, hsel.shape]
      have hnd' : v.ndim = arr.ndim := by rw [ND.ndim, g2]; simp [ND.ndim]
      refine ⟨(raw.map some).swapaxes pa (arr.ndim - 1), v.swapaxes pa (arr.ndim - 1), ?_, ?_, ?_, ?_, ?_⟩
      · rw [estimateAngular, if_neg (by omega), angularAxes_eq hax' hp']
        simp only [r1, bind, Except.bind, maybeOutliers, maybeFilter]
        show Except.ok (EstRet.nd ((raw.map some).swapaxes pa (raw.ndim - 1))) = _
        rw [hnd]
      · rw [estimateAngularGaps, if_neg (by omega), angularAxes_eq hax hp]
        simp only [g1, bind, Except.bind, maybeOutliersGaps, maybeFilter]
        show Except.ok (v.swapaxes pa (v.ndim - 1)) = _
        rw [hnd']
      · show swapL pa (arr.ndim - 1) v.shape = _
        rw [g2, swapL_swapL (by simp only [List.length_set]; exact hpa) (by simp only [List.length_set]; show _ < arr.ndim; omega)]
      · intro idx hv hk
        have hl : idx.length = arr.ndim := by rw [hv.length]; simp [ND.swapaxes, g2, ND.ndim]
        exact g3 idx hl hk
      · intro idx k i hv hk hi
        have hws : (v.swapaxes pa (arr.ndim - 1)).shape = arr.shape.set pa 3 := by
          show swapL pa (arr.ndim - 1) v.shape = _
          rw [g2, swapL_swapL (by simp only [List.length_set]; exact hpa) (by simp only [List.length_set]; show _ < arr.ndim; omega)]
        rw [hws] at hv
        have hl : idx.length = arr.ndim := by rw [hv.length]; simp [ND.ndim]
        have hidx : idx = (idx.set p i).set pa (idx.getD pa 0) := by
          rw [← hi, set_getD_self, set_getD_self]
        have e1 : (v.swapaxes pa (arr.ndim - 1)).get idx = v.get (swapL pa (arr.ndim - 1) ((idx.set p i).set pa (idx.getD pa 0))) := by
          rw [← hidx]; rfl
        rw [e1, g4 idx hl k i hk]
        refine ⟨?_, by simp⟩
        have hkk : k < ks.length := (List.getElem?_eq_some_iff.mp hk).1
        have e2 : ((raw.map some).swapaxes pa (arr.ndim - 1)).get (idx.set p k) =
            some (raw.get (swapL pa (arr'.ndim - 1) ((idx.set p k).set pa (idx.getD pa 0)))) := by
          rw [hdim]
          have : (idx.set p k).set pa (idx.getD pa 0) = idx.set p k := by
            rw [List.set_comm _ _ hne.symm, set_getD_self]
          rw [this]; rfl
        rw [e2, r3 _ (by rw [hdim]; simp [hl])]
        have hv4 : ∀ (c m : ℕ), c < 4 → m < ks.length → Valid arr'.shape (((idx.set p k).set pa c).set p m) := by
          intro c m hc hm
          rw [valid_iff] at hv ⊢
          refine ⟨by simp [hl, hsel.shape, ND.ndim], fun q hq => ?_⟩
          have hq' : q < arr.ndim := by rw [← hdim]; exact hq
          have hvq := hv.2 q (by simp only [List.length_set]; exact hq')
          rw [getD_set hpa] at hvq
          rw [getD_set (by simp only [List.length_set]; omega), getD_set (by simp only [List.length_set]; omega), getD_set (by omega), hsel.shape, getD_set hpp]
          by_cases q1 : q = p
          · simp only [q1, if_true]; exact hm
          · by_cases q2 : q = pa
            · rw [if_neg q1, if_pos q2, if_neg q1, q2, h4]; exact hc
            · simp only [if_neg q1, if_neg q2] at hvq ⊢
              exact hvq
        have hget : ∀ (c m : ℕ), c < 4 → m < ks.length → (arr.takeRows p ks).fill.get (((idx.set p k).set pa c).set p m) = arr'.get (((idx.set p k).set pa c).set p m) :=
          fun c m hc hm => selected_get hpp hsel (hv4 c m hc hm)
        have hq : quat4 (arr.takeRows p ks).fill pa (idx.set p k) = quat4 arr' pa (idx.set p k) := by
          have h0 : ∀ c : ℕ, c < 4 → (arr.takeRows p ks).fill.get ((idx.set p k).set pa c) = arr'.get ((idx.set p k).set pa c) := by
            intro c hc
            have := hget c k hc hkk
            rwa [List.set_comm _ _ hne, List.set_set] at this
          rw [quat4, quat4, h0 0 (by omega), h0 1 (by omega), h0 2 (by omega), h0 3 (by omega)]
        have hr : quatRate ext (arr.takeRows p ks).fill pa p ts' (idx.set p k) = quatRate ext arr' pa p ts' (idx.set p k) := by
          have h0 : ∀ c : ℕ, c < 4 → ((List.range ts'.length).map fun m => (arr.takeRows p ks).fill.get (((idx.set p k).set pa c).set p m)) =
              (List.range ts'.length).map fun m => arr'.get (((idx.set p k).set pa c).set p m) := by
            intro c hc
            refine List.map_congr_left fun m hm => hget c m hc ?_
            rw [← hsel.length]; simpa using hm
          dsimp only [quatRate]
          rw [h0 0 (by omega), h0 1 (by omega), h0 2 (by omega), h0 3 (by omega)]
        rw [← hts, hq, hr]
    · left
      have hl4 : (arr.swapaxes pa (arr.ndim - 1)).shape.getLast? ≠ some 4 := by
        have := swapped_getLast (arr := arr.fill) hpa (k := arr.shape.getD pa 0) rfl
        have e : (arr.swapaxes pa (arr.ndim - 1)).shape.getLast? = some (arr.shape.getD pa 0) := this
        rw [e]; intro h; exact h4 (Option.some.inj h)
      have hl4' : (arr'.swapaxes pa (arr'.ndim - 1)).shape.getLast? ≠ some 4 := by
        rw [swapped_getLast (arr := arr') (by omega) hpa4]
        intro h; exact h4 (Option.some.inj h)
      refine ⟨.valueError, ?_, ?_⟩
      · rw [angular_error hax' hp' hne (e := .valueError)]
        · rfl
        · rw [rawAngular, if_pos rfl, if_neg (by rw [hpt', hn']; simp), hacc]
          exact if_pos hl4'
      · refine angularGaps_error hax hp hne ?_ _ _
        rw [rawAngularGaps, if_pos rfl, if_neg (by rw [hpt, hn]; simp)]
        simp only [hrows, ← hts, hacc]
        exact if_pos hl4

/-- The samples without NaN exist for every array, so the previous theorem always applies. -/
theorem exists_selected (arr : ND (Option ℝ)) (ts : List ℝ) {p : ℕ} (hp : p < arr.ndim) (hn : arr.shape.getD p 0 = ts.length) :
    ∃ ks arr' ts', Present arr p ks ∧ Selected arr ts p ks arr' ts' := by
  have hpr := present_validRows arr p
  refine ⟨validRows arr p, (arr.takeRows p (validRows arr p)).fill, (validRows arr p).map fun i => ts.getD i 0, hpr, ⟨rfl, ?_, by simp, ?_⟩⟩
  · intro idx i hv hi
    have hi' : (validRows arr p).getD (idx.getD p 0) 0 = i := getD_idx hi
    have hsh : (arr.takeRows p (validRows arr p)).fill.shape = arr.shape.set p (validRows arr p).length := rfl
    rw [hsh] at hv
    have hmem := (hpr.mem i).mp (List.mem_of_getElem? hi)
    have hlen : p < idx.length := by rw [hv.length, List.length_set]; exact hp
    have hvi : Valid arr.shape (idx.set p i) := by
      rw [valid_iff] at hv ⊢
      refine ⟨by rw [List.length_set, hv.1, List.length_set], fun q hq => ?_⟩
      have := hv.2 q (by rw [List.length_set]; exact hq)
      rw [getD_set hp] at this
      rw [getD_set hlen]
      by_cases h : q = p
      · rw [if_pos h, h]; exact hmem.1
      · rw [if_neg h] at this ⊢; exact this
    have := hmem.2 _ hvi (by rw [getD_set hlen, if_pos rfl])
    obtain ⟨y, hy⟩ := Option.ne_none_iff_exists'.mp this
    show _ = some ((arr.get (idx.set p _)).getD 0)
    rw [hi', hy]; rfl
  · intro k i hk
    have hi : i < ts.length := by rw [← hn]; exact ((hpr.mem i).mp (List.mem_of_getElem? hk)).1
    rw [List.getElem?_map, hk, Option.map_some, getD_eq hi, List.getElem?_eq_getElem hi]

/-- With a low-pass filter a single NaN leaves nothing: every entry of the result is NaN. -/
theorem C77_filter_spoils (hax : AxisIs (orDefault axis (-1)) arr.ndim pa) (hp : AxisIs (orDefault ta 0) arr.ndim p) (hne : pa ≠ p)
    (h4 : arr.shape.getD pa 0 = 4) (hn : arr.shape.getD p 0 = ts.length) {ks : List ℕ} (hpr : Present arr p ks)
    (hacc : ext.derivErr (ks.map fun i => ts.getD i 0) = none) (hnan : ∃ idx, Valid arr.shape idx ∧ arr.get idx = none)
    {c : ℝ} (h0 : 0 < c) (h1 : c < 1) (hlong : 24 < ts.length) :
    ∃ w, estimateAngularVelocityGaps ext arr none axis (.arr (ofList ts)) ta "quaternion" none (some c) = .ok w ∧
      w.shape = arr.shape.set pa 3 ∧ ∀ idx, Valid w.shape idx → w.get idx = none := by
  classical
  have hpa := hax.1
  have hpp := hp.1
  obtain ⟨v, g1, g2, g3, g4⟩ := rawGaps_quat ext (arr := arr) (ts := ts) hpr hacc hpa hpp hne h4 hn
  have hnd : v.ndim = arr.ndim := by rw [ND.ndim, g2]; simp [ND.ndim]
  have hti : v.shape.getD (if p + 1 = arr.ndim then pa else p) 0 = ts.length := by
    rw [g2, swapL_pos hpa hpp hne (idx := arr.shape.set pa 3) (by simp [ND.ndim]), getD_set hpa, if_neg hne.symm, hn]
  have hws : swapL pa (arr.ndim - 1) v.shape = arr.shape.set pa 3 := by
    rw [g2, swapL_swapL (by simp only [List.length_set]; exact hpa) (by simp only [List.length_set]; show _ < arr.ndim; omega)]
  obtain ⟨jdx, hj1, hj2⟩ := hnan
  have hnk : jdx.getD p 0 ∉ ks := fun h => ((hpr.mem _).mp h).2 jdx hj1 rfl hj2
  refine ⟨⟨swapL pa (arr.ndim - 1) v.shape, fun idx => if none ∈ v.lane (if p + 1 = arr.ndim then pa else p) (swapL pa (arr.ndim - 1) idx) then none
      else some (ext.filt c ((v.lane (if p + 1 = arr.ndim then pa else p) (swapL pa (arr.ndim - 1) idx)).map fun x => x.getD 0)
        ((swapL pa (arr.ndim - 1) idx).getD (if p + 1 = arr.ndim then pa else p) 0))⟩, ?_, hws, ?_⟩
  · rw [estimateAngularGaps_plain ext arr ts hax hp hne, estimateAngularGaps, if_neg (by omega), angularAxes_eq hax hp]
    simp only [g1, bind, Except.bind, maybeOutliersGaps, maybeFilter]
    rw [if_neg (by push Not; exact ⟨h0, h1⟩), if_neg (by rw [hti]; omega)]
    show Except.ok (ND.swapaxes _ pa (v.ndim - 1)) = _
    rw [hnd]; rfl
  · intro idx hv
    replace hv : Valid (arr.shape.set pa 3) idx := by rw [← hws]; exact hv
    have hl : idx.length = arr.ndim := by rw [hv.length]; simp [ND.ndim]
    refine if_pos ?_
    simp only [ND.lane, List.mem_map, List.mem_range]
    refine ⟨jdx.getD p 0, ?_, ?_⟩
    · rw [hti, ← hn]; exact (valid_iff.mp hj1).2 p hpp
    · rw [← swapL_set hl hpa hpp hne]
      exact g3 _ (by simp [hl]) (by rw [getD_set (by omega), if_pos rfl]; exact hnk)

end

/-- `_maybe_unpack_dataarray` hands plain arrays through. -/
theorem checkAxes_id {u v : Unpacked} (h : checkAxes u = .ok v) : v = u := by
  unfold checkAxes at h
  split at h
  · exact (Except.ok.inj h).symm
  · split_ifs at h
    split at h
    · cases h
    · split_ifs at h
      exact (Except.ok.inj h).symm

theorem unpack_nd {arr : ND ℝ} {dim : Option String} {axis ta : Option ℤ} {ts : TsArg} {u : Unpacked}
    (h : maybeUnpack (.nd arr) dim axis ta ts = .ok u) : u.arr = arr ∧ u.info = none := by
  cases dim with
  | some d => cases h
  | none =>
    have := checkAxes_id h
    rw [this]
    exact ⟨rfl, rfl⟩

/-- Arrays without NaN, all arguments: the model with NaN and the one of C36, C37 and C39 describe the same call. -/
theorem C77_no_gaps (ext : Ext) (x : XrOps) (arr : ND ℝ) (dim : Option String) (axis : Option ℤ) (ts : TsArg) (ta : Option ℤ) (mode : String)
    (o c : Option ℝ) : ∃ r, estimateAngularVelocity ext x (.nd arr) dim axis ts ta mode o c = r.map .nd ∧
      Agree (estimateAngularVelocityGaps ext (arr.map some) dim axis ts ta mode o c) r := by
  rw [estimateAngularVelocity, estimateAngularVelocityGaps]
  have hf : (arr.map some).fill = arr := rfl
  rw [hf]
  cases h : maybeUnpack (.nd arr) dim axis ta ts with
  | error e => exact ⟨.error e, rfl, .error e⟩
  | ok u =>
    obtain ⟨h1, h2⟩ := unpack_nd h
    simp only [bind, Except.bind, h1, h2]
    cases u.ts with
    | arr a =>
      simp only
      cases stampList (some a) with
      | error e => exact ⟨.error e, rfl, .error e⟩
      | ok t =>
        refine ⟨estimateAngular ext arr t u.axis (u.timeAxis.getD 0) mode o c, ?_, estimateAngularGaps_same ..⟩
        simp only
        cases estimateAngular ext arr t u.axis (u.timeAxis.getD 0) mode o c <;> rfl
    | none => exact ⟨.error _, rfl, .error _⟩
    | name n => exact ⟨.error _, rfl, .error _⟩
    | no => exact ⟨.error _, rfl, .error _⟩

/-- The same for linear velocities. -/
theorem C78_no_gaps (ext : Ext) (x : XrOps) (arr : ND ℝ) (dim : Option String) (axis : Option ℤ) (ts : TsArg) (ta : Option ℤ)
    (o c : Option ℝ) : ∃ r, estimateLinearVelocity ext x (.nd arr) dim axis ts ta o c = r.map .nd ∧
      Agree (estimateLinearVelocityGaps ext (arr.map some) dim axis ts ta o c) r := by
  rw [estimateLinearVelocity, estimateLinearVelocityGaps]
  have hf : (arr.map some).fill = arr := rfl
  rw [hf]
  cases h : maybeUnpack (.nd arr) dim axis ta ts with
  | error e => exact ⟨.error e, rfl, .error e⟩
  | ok u =>
    obtain ⟨h1, h2⟩ := unpack_nd h
    simp only [bind, Except.bind, h1, h2]
    cases u.ts with
    | arr a =>
      simp only
      cases stampList (some a) with
      | error e => exact ⟨.error e, rfl, .error e⟩
      | ok t =>
        refine ⟨estimateLinear ext arr t (u.timeAxis.getD 0) o c, ?_, estimateLinearGaps_same ..⟩
        simp only
        cases estimateLinear ext arr t (u.timeAxis.getD 0) o c <;> rfl
    | none => exact ⟨.error _, rfl, .error _⟩
    | name n => exact ⟨.error _, rfl, .error _⟩
    | no => exact ⟨.error _, rfl, .error _⟩

end RBM.Props
