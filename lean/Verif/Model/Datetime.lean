import Verif.Model.Velocity

/-!
Velocities with `datetime64` timestamps. The timestamps of a `datetime64` array are counts of its unit since 1970 and are used as such everywhere, except
in the two estimators (core.py:728-823), which convert them to seconds: `timestamps.astype(float) / 1e9`. The functions of `Model/Velocity` are repeated
here with the flag `datetime`: whether the timestamps have dtype `datetime64`. Simplification: `astype(float)` is exact.
-/

noncomputable section

namespace RBM

/-- core.py:738-739, 801-802: `if np.issubdtype(timestamps.dtype, np.datetime64): timestamps = timestamps.astype(float) / 1e9`. -/
def inSeconds (datetime : Bool) (ts : List ℝ) : List ℝ := if datetime then ts.map fun τ => τ / 1000000000 else ts

/-- core.py:797-823 `_estimate_linear_velocity`. -/
def estimateLinearDt (ext : Ext) (datetime : Bool) (arr : ND ℝ) (ts : List ℝ) (timeAxis : ℤ) (outlier cutoff : Option ℝ) : Res (ND (Option ℝ)) :=
  estimateLinear ext arr (inSeconds datetime ts) timeAxis outlier cutoff

/-- core.py:728-794 `_estimate_angular_velocity`. -/
def estimateAngularDt (ext : Ext) (datetime : Bool) (arr : ND ℝ) (ts : List ℝ) (axis timeAxis : ℤ) (mode : String) (outlier cutoff : Option ℝ) :
    Res (ND (Option ℝ)) :=
  estimateAngular ext arr (inSeconds datetime ts) axis timeAxis mode outlier cutoff

/-- estimators.py:63-145 `estimate_linear_velocity`. -/
def estimateLinearVelocityDt (ext : Ext) (x : XrOps) (datetime : Bool) (arr : PyArr) (dim : Option String := none) (axis : Option ℤ := none)
    (timestamps : TsArg := .none) (timeAxis : Option ℤ := none) (outlier cutoff : Option ℝ := none) : Res EstRet := do
  let u ← maybeUnpack arr dim axis timeAxis timestamps
  let ts ← match u.ts with
    | .arr a => stampList (some a)
    | _ => stampList none
  let v ← estimateLinearDt ext datetime u.arr ts (u.timeAxis.getD 0) outlier cutoff
  match u.info with
  | none => return .nd v
  | some m => mkEst x v m u.timeDim u.ts

/-- estimators.py:148-233 `estimate_angular_velocity`. -/
def estimateAngularVelocityDt (ext : Ext) (x : XrOps) (datetime : Bool) (arr : PyArr) (dim : Option String := none) (axis : Option ℤ := none)
    (timestamps : TsArg := .none) (timeAxis : Option ℤ := none) (mode : String := "quaternion")
    (outlier cutoff : Option ℝ := none) : Res EstRet := do
  let u ← maybeUnpack arr dim axis timeAxis timestamps
  let ts ← match u.ts with
    | .arr a => stampList (some a)
    | _ => stampList none
  let v ← estimateAngularDt ext datetime u.arr ts u.axis (u.timeAxis.getD 0) mode outlier cutoff
  match u.info with
  | none => return .nd v
  | some m => do
    let m ← replaceDim m u.axis "cartesian" 3
    mkEst x v m u.timeDim u.ts

/-- reference_frames.py:1119-1124. -/
def linearRowsDt (ext : Ext) (datetime : Bool) (t : Arr Vec) (ts : List ℝ) (o : VelArgs) : Res (ND ℝ) := do
  let v ← estimateLinearDt ext datetime (ND.ofVecs t) ts 0 o.outlier o.cutoff
  v.finite

/-- reference_frames.py:1125-1127 / 1297-1303. -/
def angularRowsDt (ext : Ext) (datetime : Bool) (r : Arr Quat) (ts : List ℝ) (o : VelArgs) : Res (ND ℝ) := do
  let v ← estimateAngularDt ext datetime (ND.ofQuats r) ts (-1) 0 o.mode o.outlier o.cutoff
  v.finite

/-- reference_frames.py:1048-1150 `lookup_twist`. -/
def State.lookupTwistDt (ext : Ext) (datetime : Bool) (s : State) (a : ℕ) (reference representIn : Option FrameRef := none) (o : VelArgs := {}) :
    Res TwistRet := do
  let ref ← s.resolveOr a reference
  let rep ← s.resolveOr a representIn
  let (t, r, ts) ← s.lookupTransform ext.squad a (.byObj ref)
  match ts with
  | none => if o.allowStatic then return .triple zeros3 zeros3 none else throw .valueError
  | some ts =>
    let linear ← linearRowsDt ext datetime t ts o
    let angular ← angularRowsDt ext datetime r ts { o with outlier := none }
    let (linear, lts) ← s.vectorsWithTs ext.squad ref linear rep { timestamps := stampArg (some ts) }
    let (angular, ats) ← s.vectorsWithTs ext.squad a angular rep { timestamps := stampArg (some ts) }
    match ← matchArrays ext.squad [⟨angular, ats⟩, ⟨linear, lts⟩] with
    | ([angular, linear], tts) =>
      if o.returnTimestamps then return .triple linear angular tts else return .pair linear angular
    | _ => throw .valueError      -- not reached

/-- reference_frames.py:1152-1230 `lookup_linear_velocity`. -/
def State.lookupLinearVelocityDt (ext : Ext) (datetime : Bool) (s : State) (a : ℕ) (reference representIn : Option FrameRef := none)
    (o : VelArgs := {}) : Res PyRet := do
  let ref ← s.resolveOr a reference
  let rep ← s.resolveOr a representIn
  let (t, _, ts) ← s.lookupTransform ext.squad a (.byObj ref)
  match ts with
  | none => if o.allowStatic then return .withTs zeros3 none else throw .valueError
  | some ts =>
    let linear ← linearRowsDt ext datetime t ts o
    let (linear, lts) ← s.vectorsWithTs ext.squad ref linear rep { timestamps := stampArg (some ts) }
    return pyReturn o.returnTimestamps linear lts

/-- reference_frames.py:1232-1321 `lookup_angular_velocity`. -/
def State.lookupAngularVelocityDt (ext : Ext) (datetime : Bool) (s : State) (a : ℕ) (reference representIn : Option FrameRef := none)
    (o : VelArgs := {}) : Res PyRet := do
  let ref ← s.resolveOr a reference
  let rep ← s.resolveOr a representIn
  let (_, r, ts) ← s.lookupTransform ext.squad a (.byObj ref)
  match ts with
  | none => if o.allowStatic then return .withTs zeros3 none else throw .valueError
  | some ts =>
    let angular ← angularRowsDt ext datetime r ts o
    let (angular, ats) ← s.vectorsWithTs ext.squad a angular rep { timestamps := stampArg (some ts) }
    return pyReturn o.returnTimestamps angular ats

/-- reference_frames.py:778-891 `transform_angular_velocity`. -/
def State.transformAngularVelocityDt (ext : Ext) (datetime : Bool) (s : State) (a : ℕ) (arr : ND ℝ) (dst : FrameRef)
    (what : String := "reference_frame") (o : TArgs := {}) (cutoff : Option ℝ := none) : Res PyRet :=
  if what = "reference_frame" then do
    let (ang, angTs) ← unpackPair (s.lookupAngularVelocityDt ext datetime a (some dst) (some dst)
      { cutoff := cutoff, allowStatic := true, returnTimestamps := true })
    s.addAngular ext a arr dst o ang angTs
  else if what = "moving_frame" then do
    let b ← s.resolve dst
    let (ang, angTs) ← unpackPair (s.lookupAngularVelocityDt ext datetime b (some (.byObj a)) (some dst)
      { cutoff := cutoff, allowStatic := true, returnTimestamps := true })
    s.addAngular ext a arr dst o ang angTs
  else if what = "representation_frame" then s.transformVectors ext.squad a arr dst o
  else .error .valueError

/-- reference_frames.py:893-1046 `transform_linear_velocity`. -/
def State.transformLinearVelocityDt (ext : Ext) (datetime : Bool) (s : State) (a : ℕ) (arr : ND ℝ) (dst : FrameRef)
    (what : String := "reference_frame") (movingFrame referenceFrame : Option FrameRef := none) (o : TArgs := {})
    (outlier cutoff : Option ℝ := none) : Res PyRet :=
  if what = "reference_frame" then do
    let (lin, ang, linTs) ← unpackTriple (s.lookupTwistDt ext datetime a (some dst) (some dst)
      { cutoff := cutoff, outlier := outlier, allowStatic := true, returnTimestamps := true })
    let m ← s.resolveOpt movingFrame
    let (tr, _, trTs) ← s.lookupTransform ext.squad m (.byObj a)
    s.addLinear ext a arr dst o lin ang linTs linTs tr trTs
  else if what = "moving_frame" then do
    let b ← s.resolve dst
    let (lin, linTs) ← unpackPair (s.lookupLinearVelocityDt ext datetime b (some (.byObj a)) (some (.byObj b))
      { cutoff := cutoff, outlier := outlier, allowStatic := true, returnTimestamps := true })
    let (ang, angTs) ← unpackPair (s.lookupAngularVelocityDt ext datetime a referenceFrame (some (.byObj b))
      { cutoff := cutoff, allowStatic := true, returnTimestamps := true })
    let (tr, _, trTs) ← s.lookupTransform ext.squad b (.byObj a)
    s.addLinear ext a arr (.byObj b) o lin ang linTs angTs tr trTs
  else if what = "representation_frame" then s.transformVectors ext.squad a arr dst o
  else .error .valueError

end RBM
