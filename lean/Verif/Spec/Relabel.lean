import Verif.Spec.Plumbing

/-!
Replacing a dimension of a DataArray.
-/

namespace RBM.Spec

open RBM

/-- `out` has the dimensions of `d` except that the dimension `old` at position `p` is now `ndim`, with the given labels; coordinates
that do not involve the old dimension are kept, those which do are dropped; name and attributes are kept. -/
structure Relabelled (d out : DArr) (p : ℕ) (old ndim : String) (labels : List String) : Prop where
  ok : DArr.Ok out
  dims : out.info.dims = d.info.dims.set p ndim
  name : out.info.name = d.info.name
  attrs : out.info.attrs = d.info.attrs
  label : ∃ c, dictGet out.info.coords ndim = some c ∧ c.dims = [ndim] ∧
    ∃ l, c.vals = .lab l ∧ l.shape = [labels.length] ∧ ∀ k (hk : k < labels.length), l.get [k] = labels[k]
  others : ∀ k, k ≠ ndim → dictGet out.info.coords k = (dictGet d.info.coords k).filter fun c => decide (old ∉ c.dims)

end RBM.Spec
