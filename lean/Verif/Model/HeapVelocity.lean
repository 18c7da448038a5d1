import Verif.Model.Heap
import Verif.Model.Velocity

/-!
The array memory behind the velocity functions (reference_frames.py:302-310, 778-1321): which arrays
are copied, which are passed on, and the in-place addition `arr += angular`. Simplification: the
estimators (core.py:728-819) compute on copies and return a new array; their only assignment,
`angular[valid_idx] = ...`, goes into an array they have just made.
-/

noncomputable section

namespace RBM.Heap

open RBM

/-! ### matching arrays -/

/-- core.py:310-313: `tuple(self._resample_array(array, timestamps) for array in self.arrays)`. -/
def resampleAllH (sq : SquadFn) (ts : Option (List ℝ)) : List HMArray → HP (List NdRef)
  | [] => pure []
  | a :: as => do
    let r ← resampleArrayH sq a ts
    let rs ← resampleAllH sq ts as
    pure (r :: rs)

/-- reference_frames.py:302-310 `_match_arrays` with core.py:286-315 `get_arrays`. -/
def matchArraysH (sq : SquadFn) (arrays : List HMArray) : HP (List NdRef × Option NdRef) := do
  let x ← addArraysH arrays ⟨[], []⟩
  let ts ← getTimestampsH x
  let tl ← (fun m => (.ok (ts.map fun r => stampList (m.read r)), m) : HP (Option (List ℝ)))
  let rs ← resampleAllH sq tl x.arrays
  pure (rs, ts)

/-- `arr += other` (numpy): the result is written into `arr`. -/
def iaddH (a b : NdRef) : HP Unit := do
  let ac ← get a
  let bc ← get b
  let c ← lift (ND.iadd ac bc)
  put a c.get

/-! ### lookups -/

/-- `f.transform_vectors(arr, to, timestamps=ts, return_timestamps=True)` and others. -/
def unpackPairH (p : HP HRet) : HP (NdRef × Option NdRef) := do
  match ← p with
  | .withTs a ts => pure (a, ts)
  | .single _ => lift (.error .valueError)

/-- What `lookup_twist` returns. -/
inductive HTwist
  | pair (linear angular : NdRef)
  | triple (linear angular : NdRef) (ts : Option NdRef)

/-- Unpacking of a triple. -/
def unpackTripleH (p : HP HTwist) : HP (NdRef × NdRef × Option NdRef) := do
  match ← p with
  | .triple l a ts => pure (l, a, ts)
  | .pair _ _ => lift (.error .valueError)

/-- `if return_timestamps: return arr, ts else: return arr`. -/
def returnH (returnTimestamps : Bool) (a : NdRef) (ts : Option NdRef) : HRet :=
  if !returnTimestamps then .single a else .withTs a ts

/-- reference_frames.py:1119-1131: estimate from the looked up translation. -/
def linearRowsH (ext : Ext) (t ts : NdRef) (o : VelArgs) : HP NdRef := do
  let tc ← get t
  let sc ← get ts
  let c ← lift (linearRows ext (vecsOf tc) (stampList sc) o)
  new c

/-- reference_frames.py:1125-1127 / 1297-1303: estimate from the looked up rotation. -/
def angularRowsH (ext : Ext) (r ts : NdRef) (o : VelArgs) : HP NdRef := do
  let rc ← get r
  let sc ← get ts
  let c ← lift (angularRows ext (quatsOf rc) (stampList sc) o)
  new c

/-- reference_frames.py:1048-1150 `lookup_twist`. -/
def lookupTwistH (ext : Ext) (s : HState) (a : ℕ) (reference representIn : Option FrameRef) (o : VelArgs) : HP HTwist := do
  let ref ← lift (s.st.resolveOr a reference)
  let rep ← lift (s.st.resolveOr a representIn)
  let (t, r, ts) ← lookupTransformH ext.squad s a (.byObj ref)
  match ts with
  | none =>
    if o.allowStatic then do
      let z1 ← new zeros3
      let z2 ← new zeros3
      pure (.triple z1 z2 none)
    else lift (.error .valueError)
  | some ts => do
    let linear ← linearRowsH ext t ts o
    let angular ← angularRowsH ext r ts { o with outlier := none }
    let (linear, lts) ← unpackPairH (transformVectorsH ext.squad s ref (.array linear) (.byObj rep)
      { timestamps := some (.array ts), returnTimestamps := true })
    let (angular, ats) ← unpackPairH (transformVectorsH ext.squad s a (.array angular) (.byObj rep)
      { timestamps := some (.array ts), returnTimestamps := true })
    let (rs, tts) ← matchArraysH ext.squad [⟨angular, ats⟩, ⟨linear, lts⟩]
    match rs with
    | [angular, linear] =>
      if o.returnTimestamps then pure (.triple linear angular tts) else pure (.pair linear angular)
    | _ => lift (.error .valueError)

/-- reference_frames.py:1152-1230 `lookup_linear_velocity`. -/
def lookupLinearVelocityH (ext : Ext) (s : HState) (a : ℕ) (reference representIn : Option FrameRef) (o : VelArgs) : HP HRet := do
  let ref ← lift (s.st.resolveOr a reference)
  let rep ← lift (s.st.resolveOr a representIn)
  let (t, _, ts) ← lookupTransformH ext.squad s a (.byObj ref)
  match ts with
  | none =>
    if o.allowStatic then do
      let z ← new zeros3
      pure (.withTs z none)
    else lift (.error .valueError)
  | some ts => do
    let linear ← linearRowsH ext t ts o
    let (linear, lts) ← unpackPairH (transformVectorsH ext.squad s ref (.array linear) (.byObj rep)
      { timestamps := some (.array ts), returnTimestamps := true })
    pure (returnH o.returnTimestamps linear lts)

/-- reference_frames.py:1232-1321 `lookup_angular_velocity`. -/
def lookupAngularVelocityH (ext : Ext) (s : HState) (a : ℕ) (reference representIn : Option FrameRef) (o : VelArgs) : HP HRet := do
  let ref ← lift (s.st.resolveOr a reference)
  let rep ← lift (s.st.resolveOr a representIn)
  let (_, r, ts) ← lookupTransformH ext.squad s a (.byObj ref)
  match ts with
  | none =>
    if o.allowStatic then do
      let z ← new zeros3
      pure (.withTs z none)
    else lift (.error .valueError)
  | some ts => do
    let angular ← angularRowsH ext r ts o
    let (angular, ats) ← unpackPairH (transformVectorsH ext.squad s a (.array angular) (.byObj rep)
      { timestamps := some (.array ts), returnTimestamps := true })
    pure (returnH o.returnTimestamps angular ats)

/-! ### transforms -/

/-- reference_frames.py:873-891: transform, match, add in place. -/
def addAngularH (ext : Ext) (s : HState) (a : ℕ) (arr : ArrayLike) (dst : FrameRef) (o : HTArgs)
    (ang : NdRef) (angTs : Option NdRef) : HP HRet := do
  let (arr, ts) ← unpackPairH (transformVectorsH ext.squad s a arr dst { o with returnTimestamps := true })
  let (rs, tsOut) ← matchArraysH ext.squad [⟨arr, ts⟩, ⟨ang, angTs⟩]
  match rs with
  | [arr, ang] => do
    iaddH arr ang
    pure (returnH o.returnTimestamps arr tsOut)
  | _ => lift (.error .valueError)

/-- reference_frames.py:778-891 `transform_angular_velocity`. -/
def transformAngularVelocityH (ext : Ext) (s : HState) (a : ℕ) (arr : ArrayLike) (dst : FrameRef) (what : String)
    (o : HTArgs) (cutoff : Option ℝ) : HP HRet :=
  if what = "reference_frame" then do
    let (ang, angTs) ← unpackPairH (lookupAngularVelocityH ext s a (some dst) (some dst)
      { cutoff := cutoff, allowStatic := true, returnTimestamps := true })
    addAngularH ext s a arr dst o ang angTs
  else if what = "moving_frame" then do
    let b ← lift (s.st.resolve dst)
    let (ang, angTs) ← unpackPairH (lookupAngularVelocityH ext s b (some (.byObj a)) (some dst)
      { cutoff := cutoff, allowStatic := true, returnTimestamps := true })
    addAngularH ext s a arr dst o ang angTs
  else if what = "representation_frame" then transformVectorsH ext.squad s a arr dst o
  else lift (.error .valueError)

/-- reference_frames.py:1017-1046: transform, match, add; `arr + linear + np.cross(...)` makes new
arrays. -/
def addLinearH (ext : Ext) (s : HState) (a : ℕ) (arr : ArrayLike) (dst : FrameRef) (o : HTArgs)
    (lin ang : NdRef) (linTs angTs : Option NdRef) (tr : NdRef) (trTs : Option NdRef) : HP HRet := do
  let (arr, ts) ← unpackPairH (transformVectorsH ext.squad s a arr dst { o with returnTimestamps := true })
  let (tr, trTs) ← unpackPairH (transformVectorsH ext.squad s a (.array tr) dst
    { timestamps := trTs.map .array, returnTimestamps := true })
  let (rs, tsOut) ← matchArraysH ext.squad [⟨arr, ts⟩, ⟨lin, linTs⟩, ⟨ang, angTs⟩, ⟨tr, trTs⟩]
  match rs with
  | [arr, lin, ang, tr] => do
    let ac ← get arr
    let lc ← get lin
    let gc ← get ang
    let tc ← get tr
    let sum ← lift (ND.bop (fun x y => x + y) ac lc)
    let sr ← new sum
    let cr ← lift (npCross gc tc (-1))
    let cref ← new cr
    let sc ← get sr
    let cc ← get cref
    let out ← lift (ND.bop (fun x y => x + y) sc cc)
    let outr ← new out
    pure (returnH o.returnTimestamps outr tsOut)
  | _ => lift (.error .valueError)

/-- reference_frames.py:893-1046 `transform_linear_velocity`. -/
def transformLinearVelocityH (ext : Ext) (s : HState) (a : ℕ) (arr : ArrayLike) (dst : FrameRef) (what : String)
    (movingFrame referenceFrame : Option FrameRef) (o : HTArgs) (outlier cutoff : Option ℝ) : HP HRet :=
  if what = "reference_frame" then do
    let (lin, ang, linTs) ← unpackTripleH (lookupTwistH ext s a (some dst) (some dst)
      { cutoff := cutoff, outlier := outlier, allowStatic := true, returnTimestamps := true })
    let mf ← lift (s.st.resolveOpt movingFrame)
    let (tr, _, trTs) ← lookupTransformH ext.squad s mf (.byObj a)
    addLinearH ext s a arr dst o lin ang linTs linTs tr trTs
  else if what = "moving_frame" then do
    let b ← lift (s.st.resolve dst)
    let (lin, linTs) ← unpackPairH (lookupLinearVelocityH ext s b (some (.byObj a)) (some (.byObj b))
      { cutoff := cutoff, outlier := outlier, allowStatic := true, returnTimestamps := true })
    let (ang, angTs) ← unpackPairH (lookupAngularVelocityH ext s a referenceFrame (some (.byObj b))
      { cutoff := cutoff, allowStatic := true, returnTimestamps := true })
    let (tr, _, trTs) ← lookupTransformH ext.squad s b (.byObj a)
    addLinearH ext s a arr (.byObj b) o lin ang linTs angTs tr trTs
  else if what = "representation_frame" then transformVectorsH ext.squad s a arr dst o
  else lift (.error .valueError)

end RBM.Heap
