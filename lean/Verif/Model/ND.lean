import Verif.Model.Basic

/-!
n-dimensional numpy arrays as a shape together with an index function. Only the values at valid
indices (see `Valid`) are meaningful. Everything in this file models numpy (external), as far as
the library uses it.
-/

namespace RBM

/-- A numpy array. -/
structure ND (α : Type _) where
  shape : List ℕ
  get : List ℕ → α

/-- `idx` is a valid index for an array of shape `shape`. -/
def Valid : List ℕ → List ℕ → Prop
  | [], [] => True
  | n :: sh, i :: idx => i < n ∧ Valid sh idx
  | _, _ => False

namespace ND

variable {α β γ : Type _}

def ndim (a : ND α) : ℕ := a.shape.length

/-- Equality as numpy arrays: same shape, same entries at valid indices. -/
def Same (a b : ND α) : Prop := a.shape = b.shape ∧ ∀ idx, Valid a.shape idx → a.get idx = b.get idx

def map (f : α → β) (a : ND α) : ND β := ⟨a.shape, fun i => f (a.get i)⟩

end ND

/-- numpy's normalisation of an axis argument for an array with `n` dimensions
(`none`: out of range). -/
def normAxis (ax : ℤ) (n : ℕ) : Option ℕ :=
  if 0 ≤ ax ∧ ax < n then some ax.toNat
  else if -(n : ℤ) ≤ ax ∧ ax < 0 then some (ax + n).toNat
  else none

/-- Exchange two positions of an index / shape. -/
def swapL (i j : ℕ) (l : List ℕ) : List ℕ := (l.set i (l.getD j 0)).set j (l.getD i 0)

/-- Python `l[src]` removed and re-inserted at `dst`. -/
def moveL (src dst : ℕ) (l : List ℕ) : List ℕ := (l.eraseIdx src).insertIdx dst (l.getD src 0)

namespace ND

variable {α β γ : Type _}

/-- `np.swapaxes(a, i, j)` for normalised axes. -/
def swapaxes (a : ND α) (i j : ℕ) : ND α := ⟨swapL i j a.shape, fun idx => a.get (swapL i j idx)⟩

/-- `np.moveaxis(a, src, dst)` for normalised axes. -/
def moveaxis (a : ND α) (src dst : ℕ) : ND α :=
  ⟨moveL src dst a.shape, fun idx => a.get (moveL dst src idx)⟩

/-- `np.swapaxes(a, i, j)` with numpy's axis normalisation (`AxisError` is a `ValueError`). -/
def swapaxesZ (a : ND α) (i j : ℤ) : Res (ND α) :=
  match normAxis i a.ndim, normAxis j a.ndim with
  | some i, some j => .ok (a.swapaxes i j)
  | _, _ => .error .valueError

/-- `np.expand_dims(a, 1)`. -/
def expandDims1 (a : ND α) : ND α :=
  ⟨a.shape.insertIdx 1 1, fun idx => a.get (idx.eraseIdx 1)⟩

/-- Left-pad a shape with ones to length `n` (numpy broadcasting rule). -/
def padShape (n : ℕ) (sh : List ℕ) : List ℕ := List.replicate (n - sh.length) 1 ++ sh

/-- Broadcast two shapes of equal length. -/
def bshapeEq : List ℕ → List ℕ → Option (List ℕ)
  | [], [] => some []
  | m :: sh, n :: sh' =>
      match bshapeEq sh sh' with
      | none => none
      | some r => if m = n then some (m :: r) else if m = 1 then some (n :: r)
                  else if n = 1 then some (m :: r) else none
  | _, _ => none

/-- `np.broadcast_shapes`. -/
def bshape (s1 s2 : List ℕ) : Option (List ℕ) :=
  bshapeEq (padShape s2.length s1) (padShape s1.length s2)

/-- Index reduction for broadcasting: singleton axes are read at 0. -/
def bidx : List ℕ → List ℕ → List ℕ
  | s :: sh, i :: idx => (if s = 1 then 0 else i) :: bidx sh idx
  | _, _ => []

/-- Read an array broadcast to a larger shape. -/
def bget (a : ND α) (idx : List ℕ) : α := a.get (bidx a.shape (idx.drop (idx.length - a.ndim)))

/-- A numpy ufunc with broadcasting. -/
def bop (f : α → β → γ) (a : ND α) (b : ND β) : Res (ND γ) :=
  match bshape a.shape b.shape with
  | none => .error .valueError
  | some sh => .ok ⟨sh, fun idx => f (a.bget idx) (b.bget idx)⟩

/-- `np.tile(a, (n, 1))`: arrays with fewer than two dimensions get leading axes first, for more
dimensions the second to last axis is repeated. -/
def tileN1 (a : ND α) (n : ℕ) : ND α :=
  match a.shape with
  | [] => ⟨[n, 1], fun _ => a.get []⟩
  | [k] => ⟨[n, k], fun idx => a.get (idx.drop 1)⟩
  | sh =>
    let p := sh.length - 2
    ⟨sh.set p (sh.getD p 0 * n), fun idx => a.get (idx.set p (idx.getD p 0 % sh.getD p 0))⟩

end ND

/-- `as_quat_array` (numpy-quaternion): last axis of length 4 becomes a quaternion (external;
other lengths that are multiples of 4 are not used by the library). -/
def asQuatArray (a : ND ℝ) : Res (ND Quat) :=
  match a.shape.getLast? with
  | some 4 => .ok ⟨a.shape.dropLast, fun idx =>
      ⟨a.get (idx ++ [0]), a.get (idx ++ [1]), a.get (idx ++ [2]), a.get (idx ++ [3])⟩⟩
  | _ => .error .valueError

/-- The k-th component of a quaternion. -/
def qcomp (q : Quat) : ℕ → ℝ
  | 0 => q.re
  | 1 => q.imI
  | 2 => q.imJ
  | _ => q.imK

/-- `as_float_array`: quaternion array to float array with a new last axis of length 4. -/
def asFloatArray (q : ND Quat) : ND ℝ :=
  ⟨q.shape ++ [4], fun idx => qcomp (q.get idx.dropLast) (idx.getLast?.getD 0)⟩

end RBM
