import Verif.Props.CoordSystems
import Verif.Spec.Relabel
import Verif.Lemmas.ShortestArc

/-!
`_replace_dim` followed by the construction of the DataArray.
-/

namespace RBM.Props

open RBM RBM.Spec

theorem relabel_ok (x : XrOps) {d : DArr} (hok : DArr.Ok d) {old ndim into : String} {n p : ℕ} {ax : ℤ} {labels : List String}
    (hat : DimAt d old p) (hax : AxisIs ax d.data.ndim p) (hnew : newDim into n = .ok (ndim, labels)) (hfree : ndim ∉ d.info.dims ∨ ndim = old)
    {out : ND ℝ} (hshape : out.shape = d.data.shape.set p labels.length) :
    ∃ m', replaceDim d.info ax into n = .ok m' ∧ makeDataArray x out m' none none = .ok ⟨out, m'⟩ ∧ Relabelled d ⟨out, m'⟩ p old ndim labels := by
  obtain ⟨hp, hold⟩ := List.getElem?_eq_some_iff.mp hat
  have hpd : p < d.data.shape.length := hax.1
  have hget : tupleGet d.info.dims ax = .ok old := by
    have hg : d.info.dims.getD p "" = old := by rw [List.getD_eq_getElem?_getD, hat]; rfl
    simp only [tupleGet, hok.ndim, axisIs_norm hax, hg]
  have hset : (d.info.dims.map fun e => if e ≠ old then e else ndim) = d.info.dims.set p ndim := by
    rw [← hold]; exact map_replace_eq_set hok.nodup hp ndim
  have hnd : (d.info.dims.set p ndim).Nodup := nodup_set hok.nodup hp (by rw [hold]; exact hfree)
  set m' : Meta := { d.info with
    dims := d.info.dims.map fun e => if e ≠ old then e else ndim
    coords := dictSet (d.info.coords.filter fun c => decide (old ∉ c.2.dims)) ndim (labelCoord ndim labels) } with hm'
  have hrep : replaceDim d.info ax into n = .ok m' := by
    simp only [replaceDim, hget, hnew, bind, Except.bind, Pure.pure, Except.pure, hm']
  have m'dims : m'.dims = d.info.dims.set p ndim := by simp only [hm', hset]
  have hpn : (d.info.dims.set p ndim).idxOf ndim = p := by
    have hl : p < (d.info.dims.set p ndim).length := by simpa using hp
    have := hnd.idxOf_getElem p hl
    rwa [List.getElem_set_self] at this
  have hlen' : m'.dims.length = out.ndim := by
      rw [m'dims, List.length_set, hok.ndim]; simp [ND.ndim, hshape]
  have hall : ∀ c ∈ m'.coords, (∀ e ∈ c.2.dims, e ∈ m'.dims) ∧ c.2.vals.shape = c.2.dims.map fun e => out.shape.getD (m'.dims.idxOf e) 0 := by
    intro c hcm
    simp only [hm'] at hcm
    rcases mem_dictSet hcm with rfl | hcm
    · refine ⟨fun e he => ?_, ?_⟩
      · have : e = ndim := by simpa [labelCoord] using he
        rw [this, m'dims]
        exact List.mem_set hp _
      · simp only [labelCoord, CVals.shape, List.map_cons, List.map_nil, m'dims, hpn, hshape, getD_set_same hpd]
    · rw [List.mem_filter] at hcm
      obtain ⟨hcm, ho⟩ := hcm
      have ho : old ∉ c.2.dims := by simpa using ho
      have hx : ∀ e ∈ c.2.dims, e ∈ d.info.dims.set p ndim ∧ (d.info.dims.set p ndim).idxOf e = d.info.dims.idxOf e := by
        intro e he
        have hed := hok.coordDims c hcm e he
        obtain ⟨k, hk, hke⟩ := List.getElem_of_mem hed
        have hkp : p ≠ k := by rintro rfl; rw [hold] at hke; exact ho (hke ▸ he)
        have hk' : k < (d.info.dims.set p ndim).length := by simpa using hk
        have hke' : (d.info.dims.set p ndim)[k] = e := by rw [List.getElem_set_ne hkp, hke]
        refine ⟨hke' ▸ List.getElem_mem hk', ?_⟩
        have e1 := hnd.idxOf_getElem k hk'
        have e2 := hok.nodup.idxOf_getElem k hk
        rw [hke'] at e1
        rw [hke] at e2
        rw [e1, e2]
      refine ⟨fun e he => by rw [m'dims]; exact (hx e he).1, ?_⟩
      rw [hok.coordShape c hcm, hshape, m'dims]
      apply List.map_congr_left
      intro e he
      rw [(hx e he).2]
      have hkp : p ≠ d.info.dims.idxOf e := by
        intro hpe
        have := List.getElem_idxOf (List.idxOf_lt_length_iff.mpr (hok.coordDims c hcm e he))
        apply ho
        rw [← hold]
        simp only [hpe]
        rw [this]
        exact he
      simp only [List.getD_eq_getElem?_getD, List.getElem?_set_ne hkp]
  have hmk : mkDArr out m' = .ok ⟨out, m'⟩ := by
    simp only [mkDArr]
    rw [if_neg (not_not.mpr hlen'), if_pos]
    rw [List.all_eq_true]
    intro c hcm
    simp only [decide_eq_true_eq]
    exact hall c hcm
  have hcoords : ∀ k, k ≠ ndim → dictGet m'.coords k = (dictGet d.info.coords k).filter fun c => decide (old ∉ c.dims) := by
    intro k hk
    simp only [hm', dictGet_set, if_neg (Ne.symm hk)]
    exact dictGet_filter (fun c => decide (old ∉ c.dims)) k _ hok.keys
  have hnc : dictGet m'.coords ndim = some (labelCoord ndim labels) := by simp only [hm', dictGet_set, if_true]
  have hok' : DArr.Ok ⟨out, m'⟩ := by
    refine ⟨hlen', by rw [m'dims]; exact hnd, fun c hc => (hall c hc).1, fun c hc => (hall c hc).2, ?_, fun k c hk hkd => ?_⟩
    · simp only [hm']
      apply keys_dictSet
      exact (List.Sublist.map _ List.filter_sublist).nodup hok.keys
    · by_cases e : k = ndim
      · subst e; rw [hnc] at hk; cases hk; rfl
      · change dictGet m'.coords k = some c at hk
        rw [hcoords k e] at hk
        cases hg : dictGet d.info.coords k with
        | none => rw [hg] at hk; cases hk
        | some c' =>
          rw [hg, Option.filter] at hk
          split at hk
          · cases hk
            refine hok.index k _ hg ?_
            change k ∈ m'.dims at hkd
            rw [m'dims] at hkd
            rcases List.mem_or_eq_of_mem_set hkd with h | h
            exacts [h, absurd h e]
          · cases hk
  exact ⟨m', hrep, hmk, hok', m'dims, rfl, rfl, ⟨labelCoord ndim labels, hnc, rfl, _, rfl, rfl, fun k hk => by simp [hk]⟩, hcoords⟩

end RBM.Props
