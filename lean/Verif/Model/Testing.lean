import Verif.Model.Transform
import Verif.Model.Utils

/-!
`testing.make_test_motion` (testing.py:9-47).
-/

namespace RBM

noncomputable section

/-- Arguments of `make_test_motion` (testing.py:9-17). -/
structure MotionArgs where
  n : ℕ
  freq : ℝ := 1
  maxAngle : ℝ := Real.pi / 2
  fs : ℝ := 1000
  stack : Bool := true
  inverse : Bool := false
  offset : Option (List ℝ) := none

/-- testing.py:21-27 `trajectory`, as a list. -/
def MotionArgs.trajectory (o : MotionArgs) : List ℝ :=
  let a := if o.inverse then - o.maxAngle else o.maxAngle
  (List.range o.n).map fun k : ℕ => a * Real.sin (2 * Real.pi * o.freq * (k : ℝ) / o.fs)

/-- `np.array_split(l, 3)` (external): three parts, the first `len(l) % 3` of them one longer. -/
def arraySplit3 {α : Type _} (l : List α) : List α × List α × List α :=
  let m := l.length / 3
  let r := l.length % 3
  let a := m + if 0 < r then 1 else 0
  let b := m + if 1 < r then 1 else 0
  (l.take a, (l.drop a).take b, l.drop (a + b))

/-- testing.py:29-36 `translation`, as a list of rows. -/
def MotionArgs.rows (o : MotionArgs) : List Vec :=
  if o.stack then
    let (tx, ty, tz) := arraySplit3 o.trajectory
    tx.map (fun c : ℝ => ![c * 1, c * 0, c * 0]) ++ ty.map (fun c : ℝ => ![c * 0, c * 1, c * 0]) ++ tz.map (fun c : ℝ => ![c * 0, c * 0, c * 1])
  else o.trajectory.map fun c => ![c, c, c]

/-- A list of rows as an array. -/
def rowArray (l : List Vec) : ND ℝ := ⟨[l.length, 3], fun idx => l.getD (idx.getD 0 0) 0 (Fin.ofNat 3 (idx.getD 1 0))⟩

/-- testing.py:40-43: the translation with the rotated offset. -/
def addOffset (q : ND Quat) (translation : ND ℝ) : Option (List ℝ) → Res (ND ℝ)
  | none => .ok translation
  | some off => do
    let r ← rotateVectorsQ q ⟨[1, off.length], fun idx => off.getD (idx.getD 1 0) 0⟩
    ND.bop (fun x y => x + y) translation r

/-- testing.py:9-47 `make_test_motion`. `dateRange` is `pd.date_range(start=0, periods=n, freq=f"{step}S")` (external), timestamps in
nanoseconds. A sampling rate of zero is refused only when `1/fs` is computed at the end; the NaNs that numpy computes before are dropped. -/
def makeTestMotion (dateRange : ℝ → ℕ → Res (List ℤ)) (o : MotionArgs) : Res (ND ℝ × ND ℝ × List ℤ) := do
  let quats : List Quat := o.rows.map fromRotationVector
  let q : ND Quat := ⟨[quats.length], fun idx => quats.getD (idx.getD 0 0) 0⟩
  let translation ← addOffset q (rowArray o.rows) o.offset
  if o.fs = 0 then throw .zeroDivisionError
  let timestamps ← dateRange (1 / o.fs) o.n
  return (translation, asFloatArray q, timestamps)

end

end RBM
