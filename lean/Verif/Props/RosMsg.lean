import Verif.Lemmas.Example
import Verif.Model.RosMsg
import Verif.Spec.Rigid

/-!
C49: ROS messages.
-/

namespace RBM.Props

open RBM RBM.Ros

theorem fromSec_floor {time : ℝ} (h : 0 ≤ time) : fromSec time = .ok ⌊time * 1000000000⌋.toNat := by
  have e1 : pyInt time = ⌊time⌋ := by rw [pyInt, if_pos h]
  have hf : 0 ≤ (time - (⌊time⌋ : ℤ)) * 1000000000 := mul_nonneg (by have := Int.floor_le time; linarith) (by norm_num)
  have e2 : pyInt ((time - (⌊time⌋ : ℤ)) * 1000000000) = ⌊time * 1000000000⌋ - ⌊time⌋ * 1000000000 := by
    rw [pyInt, if_pos hf, show (time - (⌊time⌋ : ℤ)) * 1000000000 = time * 1000000000 - ((⌊time⌋ * 1000000000 : ℤ) : ℝ) by push_cast; ring,
      Int.floor_sub_intCast]
  have h0 : 0 ≤ ⌊time * 1000000000⌋ := Int.floor_nonneg.mpr (by positivity)
  simp only [fromSec, e1, e2]
  rw [if_neg (by omega)]
  congr 2
  omega

/-- The stamp of a message is the given time, cut to nanoseconds. -/
theorem C49_stamp {time : ℝ} (h : 0 ≤ time) (f : Option String) :
    ∃ s, mkHeader f time = .ok ⟨s, f⟩ ∧ toSec s ≤ time ∧ time < toSec s + 1 / 1000000000 ∧
      ∀ k : ℕ, time = k / 1000000000 → s = k ∧ toSec s = time := by
  have h0 : 0 ≤ ⌊time * 1000000000⌋ := Int.floor_nonneg.mpr (by positivity)
  have hc : ((⌊time * 1000000000⌋.toNat : ℕ) : ℝ) = (⌊time * 1000000000⌋ : ℤ) := by
    have : ((⌊time * 1000000000⌋.toNat : ℕ) : ℤ) = ⌊time * 1000000000⌋ := Int.toNat_of_nonneg h0
    exact_mod_cast congrArg (fun z : ℤ => (z : ℝ)) this
  refine ⟨_, by rw [mkHeader, fromSec_floor h]; rfl, ?_, ?_, ?_⟩
  · rw [toSec, hc, div_le_iff₀ (by norm_num)]; exact Int.floor_le _
  · rw [toSec, hc, ← add_div, lt_div_iff₀ (by norm_num)]; exact Int.lt_floor_add_one _
  · intro k hk
    have : time * 1000000000 = ((k : ℤ) : ℝ) := by rw [hk]; push_cast; field_simp
    rw [this, Int.floor_intCast]
    refine ⟨rfl, ?_⟩
    rw [toSec, hk]; rfl

/-- Times before the epoch are refused by all message constructors. -/
theorem C49_negative_time {time : ℝ} (h : time ≤ -(1 / 1000000000)) (a b : List ℝ) (f c : Option String) :
    makeTransformMsg a b f c time = .error .typeError ∧ makePoseMsg a b f time = .error .typeError ∧ makeTwistMsg a b f time = .error .typeError ∧
    makeVectorMsg a f time = .error .typeError ∧ makePointMsg a f time = .error .typeError ∧ makeQuaternionMsg a f time = .error .typeError := by
  have hn : ¬ 0 ≤ time := by linarith
  have e : mkHeader f time = .error .typeError := by
    have e1 : pyInt time = ⌈time⌉ := by rw [pyInt, if_neg hn]
    have hle : time - (⌈time⌉ : ℤ) ≤ 0 := by have := Int.le_ceil time; linarith
    have hs : (⌈time⌉ : ℤ) * 1000000000 + pyInt ((time - (⌈time⌉ : ℤ)) * 1000000000) < 0 := by
      have h2 : pyInt ((time - (⌈time⌉ : ℤ)) * 1000000000) ≤ ⌈(time - (⌈time⌉ : ℤ)) * 1000000000⌉ := by
        rw [pyInt]; split_ifs
        · exact Int.floor_le_ceil _
        · exact le_rfl
      have h3 : ⌈(time - (⌈time⌉ : ℤ)) * 1000000000⌉ = ⌈time * 1000000000⌉ - ⌈time⌉ * 1000000000 := by
        rw [show (time - (⌈time⌉ : ℤ)) * 1000000000 = time * 1000000000 - ((⌈time⌉ * 1000000000 : ℤ) : ℝ) by push_cast; ring, Int.ceil_sub_intCast]
      have h4 : ⌈time * 1000000000⌉ ≤ -1 := Int.ceil_le.mpr (by push_cast; linarith)
      omega
    simp only [mkHeader, fromSec, e1, if_pos hs, bind, Except.bind]
  simp [makeTransformMsg, makePoseMsg, makeTwistMsg, makeVectorMsg, makePointMsg, makeQuaternionMsg, e, bind, Except.bind]

section

variable (x y z a b c qw qx qy qz : ℝ) (f g : Option String) {time : ℝ}

/-- Transform messages: the fields are those of the ROS definition, and unpacking (with and without header) gives back what went in. -/
theorem C49_transform (h : 0 ≤ time) : ∃ msg, makeTransformMsg [x, y, z] [qw, qx, qy, qz] f g time = .ok msg ∧
    unpackTransformStamped msg = ([x, y, z], [qw, qx, qy, qz]) ∧ unpackTransform msg.transform = ([x, y, z], [qw, qx, qy, qz]) ∧
    mkHeader f time = .ok msg.header ∧ msg.header.frameId = f ∧ msg.childFrameId = g ∧
    msg.transform.translation = { x := x, y := y, z := z } ∧ msg.transform.rotation = { x := qx, y := qy, z := qz, w := qw } := by
  obtain ⟨s, hs, -⟩ := C49_stamp h f
  exact ⟨⟨⟨s, f⟩, g, ⟨⟨x, y, z⟩, ⟨qx, qy, qz, qw⟩⟩⟩, by simp [makeTransformMsg, hs, bind, Except.bind, mkXYZ, mkXYZW, at', Pure.pure, Except.pure],
    rfl, rfl, hs, rfl, rfl, rfl, rfl⟩

/-- Pose messages. -/
theorem C49_pose (h : 0 ≤ time) : ∃ msg, makePoseMsg [x, y, z] [qw, qx, qy, qz] f time = .ok msg ∧
    unpackPoseStamped msg = ([x, y, z], [qw, qx, qy, qz]) ∧ unpackPose msg.pose = ([x, y, z], [qw, qx, qy, qz]) ∧
    mkHeader f time = .ok msg.header ∧ msg.header.frameId = f ∧
    msg.pose.position = { x := x, y := y, z := z } ∧ msg.pose.orientation = { x := qx, y := qy, z := qz, w := qw } := by
  obtain ⟨s, hs, -⟩ := C49_stamp h f
  exact ⟨⟨⟨s, f⟩, ⟨⟨x, y, z⟩, ⟨qx, qy, qz, qw⟩⟩⟩, by simp [makePoseMsg, hs, bind, Except.bind, mkXYZ, mkXYZW, at', Pure.pure, Except.pure],
    rfl, rfl, hs, rfl, rfl, rfl⟩

/-- Twist messages. -/
theorem C49_twist (h : 0 ≤ time) : ∃ msg, makeTwistMsg [x, y, z] [a, b, c] f time = .ok msg ∧
    unpackTwistStamped msg = ([x, y, z], [a, b, c]) ∧ unpackTwist msg.twist = ([x, y, z], [a, b, c]) ∧
    mkHeader f time = .ok msg.header ∧ msg.header.frameId = f ∧
    msg.twist.linear = { x := x, y := y, z := z } ∧ msg.twist.angular = { x := a, y := b, z := c } := by
  obtain ⟨s, hs, -⟩ := C49_stamp h f
  exact ⟨⟨⟨s, f⟩, ⟨⟨x, y, z⟩, ⟨a, b, c⟩⟩⟩, by simp [makeTwistMsg, hs, bind, Except.bind, mkXYZ, Pure.pure, Except.pure],
    rfl, rfl, hs, rfl, rfl, rfl⟩

/-- Vector and point messages. -/
theorem C49_vector_point (h : 0 ≤ time) :
    (∃ msg, makeVectorMsg [x, y, z] f time = .ok msg ∧ unpackVectorStamped msg = [x, y, z] ∧ unpackVector msg.data = [x, y, z] ∧
      mkHeader f time = .ok msg.header ∧ msg.header.frameId = f ∧ msg.data = { x := x, y := y, z := z }) ∧
    ∃ msg, makePointMsg [x, y, z] f time = .ok msg ∧ unpackPointStamped msg = [x, y, z] ∧ unpackPoint msg.data = [x, y, z] ∧
      mkHeader f time = .ok msg.header ∧ msg.header.frameId = f ∧ msg.data = { x := x, y := y, z := z } := by
  obtain ⟨s, hs, -⟩ := C49_stamp h f
  exact ⟨⟨⟨⟨s, f⟩, ⟨x, y, z⟩⟩, by simp [makeVectorMsg, hs, bind, Except.bind, mkXYZ, Pure.pure, Except.pure], rfl, rfl, hs, rfl, rfl⟩,
    ⟨⟨⟨s, f⟩, ⟨x, y, z⟩⟩, by simp [makePointMsg, hs, bind, Except.bind, mkXYZ, Pure.pure, Except.pure], rfl, rfl, hs, rfl, rfl⟩⟩

/-- Quaternion messages. -/
theorem C49_quaternion (h : 0 ≤ time) : ∃ msg, makeQuaternionMsg [qw, qx, qy, qz] f time = .ok msg ∧
    unpackQuaternionStamped msg = [qw, qx, qy, qz] ∧ unpackQuaternion msg.data = [qw, qx, qy, qz] ∧
    mkHeader f time = .ok msg.header ∧ msg.header.frameId = f ∧ msg.data = { x := qx, y := qy, z := qz, w := qw } := by
  obtain ⟨s, hs, -⟩ := C49_stamp h f
  exact ⟨⟨⟨s, f⟩, ⟨qx, qy, qz, qw⟩⟩, by simp [makeQuaternionMsg, hs, bind, Except.bind, mkXYZW, at', Pure.pure, Except.pure], rfl, rfl, hs, rfl, rfl⟩

end

/-- Sequences of the wrong length are refused: vectors must have three entries (or none), quaternions at least four. -/
theorem C49_wrong_length {time : ℝ} (h : 0 ≤ time) (t r : List ℝ) (f g : Option String) :
    (t.length ≠ 3 → t ≠ [] → makeTransformMsg t r f g time = .error .typeError ∧ makePoseMsg t r f time = .error .typeError ∧
      makeTwistMsg t r f time = .error .typeError ∧ makeVectorMsg t f time = .error .typeError ∧ makePointMsg t f time = .error .typeError) ∧
    (r.length < 4 → makeQuaternionMsg r f time = .error .indexError ∧
      (t.length = 3 → makeTransformMsg t r f g time = .error .indexError ∧ makePoseMsg t r f time = .error .indexError)) := by
  obtain ⟨s, hs, -⟩ := C49_stamp h f
  constructor
  · intro h3 h0
    have e : mkXYZ t = .error .typeError := by
      rcases t with _ | ⟨a, _ | ⟨b, _ | ⟨c, _ | ⟨d, t⟩⟩⟩⟩ <;> simp_all [mkXYZ]
    simp [makeTransformMsg, makePoseMsg, makeTwistMsg, makeVectorMsg, makePointMsg, hs, e, bind, Except.bind]
  · intro h4
    have e : mkXYZW r = .error .indexError := by
      rcases r with _ | ⟨a, _ | ⟨b, _ | ⟨c, _ | ⟨d, r⟩⟩⟩⟩ <;> simp_all [mkXYZW, at', bind, Except.bind]
      omega
    refine ⟨by simp [makeQuaternionMsg, hs, e, bind, Except.bind], fun h3 => ?_⟩
    rcases t with _ | ⟨a, _ | ⟨b, _ | ⟨c, _ | ⟨d, t⟩⟩⟩⟩ <;> simp at h3
    simp [makeTransformMsg, makePoseMsg, hs, e, bind, Except.bind, mkXYZ]

/-- The message of a static frame carries its pose, its own name and the name of its parent. -/
theorem C49_static_frame (s : State) {rf p : ℕ} (hp : s.parent rf = some p) {t : Vec} {r : Quat} {ts : Option (List ℝ)} {d : Bool}
    (hd : s.data rf = some ⟨some (.one t, .one r), ts, d⟩) {time : ℝ} (h : 0 ≤ time) :
    ∃ msg, staticRfToTransformMsg s rf time = .ok msg ∧ unpackTransformStamped msg = ([t 0, t 1, t 2], [r.re, r.imI, r.imJ, r.imK]) ∧
      msg.header.frameId = s.name p ∧ msg.childFrameId = s.name rf ∧ mkHeader (s.name p) time = .ok msg.header := by
  obtain ⟨msg, m1, m2, _, m3, m4, m5, _⟩ := C49_transform (t 0) (t 1) (t 2) r.re r.imI r.imJ r.imK (s.name p) (s.name rf) h
  exact ⟨msg, by simp only [staticRfToTransformMsg, hp, hd]; exact m1, m2, m4, m5, m3⟩

/-- Frames without parent and moving frames are refused. -/
theorem C49_static_frame_only (s : State) (rf : ℕ) (time : ℝ) :
    (s.parent rf = none → staticRfToTransformMsg s rf time = .error .attributeError) ∧
    (∀ p l r ts d, s.parent rf = some p → s.data rf = some ⟨some (.many l, r), ts, d⟩ → ∃ e, staticRfToTransformMsg s rf time = .error e) := by
  refine ⟨fun h => by simp [staticRfToTransformMsg, h], fun p l r ts d h hd => ?_⟩
  simp only [staticRfToTransformMsg, h, hd, bind, Except.bind]
  cases fromSec time with
  | error e => exact ⟨_, rfl⟩
  | ok s => 
    simp only
    split_ifs <;> exact ⟨_, rfl⟩

/-- A message at one and a half seconds (all theorems with `0 ≤ time`), and what goes wrong with a time before 1970 or a missing component. -/
example : (∃ msg, makeTransformMsg [1, 2, 3] [0, 0, 0, 1] (some "world") (some "a") (3 / 2) = .ok msg ∧
      unpackTransformStamped msg = ([1, 2, 3], [0, 0, 0, 1])) ∧
    (∃ s, mkHeader (some "world") (3 / 2) = .ok ⟨s, some "world"⟩ ∧ s = 1500000000) ∧
    makeVectorMsg [1, 2, 3] (some "world") (-1) = .error .typeError ∧
    makeVectorMsg [1, 2] (some "world") 1 = .error .typeError ∧
    makeQuaternionMsg [1, 0, 0] (some "world") 1 = .error .indexError := by
  refine ⟨?_, ?_, (C49_negative_time (by norm_num) [1, 2, 3] [] _ none).2.2.2.1, ?_, ?_⟩
  · obtain ⟨msg, h1, h2, -⟩ := C49_transform 1 2 3 0 0 0 1 (some "world") (some "a") (time := 3 / 2) (by norm_num)
    exact ⟨msg, h1, h2⟩
  · obtain ⟨s, h1, -, -, h2⟩ := C49_stamp (time := 3 / 2) (by norm_num) (some "world")
    exact ⟨s, h1, (h2 1500000000 (by norm_num)).1⟩
  · exact (((C49_wrong_length (time := 1) (by norm_num) [1, 2] [] (some "world") none).1 (by simp) (by simp)).2.2.2.1)
  · exact ((C49_wrong_length (time := 1) (by norm_num) [] [1, 0, 0] (some "world") none).2 (by simp)).1

/-- Frame "a" of the example tree as a message. -/
example : ∃ msg, staticRfToTransformMsg Ex.s4 1 1 = .ok msg ∧ msg.header.frameId = some "world" ∧ msg.childFrameId = some "a" ∧
    (unpackTransformStamped msg).1 = [1, 2, 3] := by
  have hp : Ex.s4.parent 1 = some 0 := by rw [Ex.s4_eq]; simp
  have hd : Ex.s4.data 1 = some ⟨some (.one ![1, 2, 3], .one ⟨0, 0, 0, 1⟩), none, false⟩ := by rw [Ex.s4_eq]; simp
  obtain ⟨msg, h1, h2, h3, h4, -⟩ := C49_static_frame Ex.s4 hp hd (time := 1) (by norm_num)
  refine ⟨msg, h1, ?_, ?_, ?_⟩
  · rw [h3, Ex.s4_eq]; rfl
  · rw [h4, Ex.s4_eq]; rfl
  · rw [h2]; rfl

end RBM.Props
