import Verif.Model.RosMsg

/-!
`ros/utils.py:59-132`: `play_publisher`.
-/

noncomputable section

namespace RBM.Ros

open RBM

/-- The widget: the slider and the calls of `publisher.publish` so far, latest first. -/
structure Player where
  max : ℤ
  value : ℤ
  calls : List ℤ
  interval : ℤ
  step : ℤ
  skip : Option ℤ

/-- ipywidgets (external): the value of a slider is kept between its bounds. -/
def clamp (hi v : ℤ) : ℤ := min (Max.max v 0) hi

/-- Setting the value of the slider: observers are called if the value changes (ipywidgets, external). -/
def Player.set (p : Player) (v : ℤ) : Player :=
  let v := clamp p.max v
  if v = p.value then p else { p with value := v, calls := v :: p.calls }

/-- `skip or step`. -/
def Player.jump (p : Player) : ℤ := if p.skip.getD 0 = 0 then p.step else p.skip.getD 0

/-- What can happen: the two buttons, or the slider or the play button set the value in the browser. -/
inductive PlayEv
  | forward | backward
  | set (v : ℤ)

/-- utils.py:99-115, 129: `button_plus`, `button_minus` and the link to the play button. -/
def Player.ev (p : Player) : PlayEv → Player
  | .forward => p.set (p.value + if p.value < p.max then p.jump else 0)
  | .backward => p.set (p.value - if p.value < p.max then p.jump else 0)
  | .set v => p.set v

/-- A history, in order of time. -/
def Player.exec (p : Player) (evs : List PlayEv) : Player := evs.foldl Player.ev p

/-- `np.diff`. -/
def diffs : List ℝ → List ℝ
  | a :: b :: l => (b - a) :: diffs (b :: l)
  | _ => []

/-- utils.py:59-132: the widget for timestamps in nanoseconds. No timestamps: the bounds of the slider are inconsistent; a single one: the mean of no
differences is NaN; `speed = 0`: NaN or infinite interval. -/
def playPublisher (ts : List ℝ) (step : ℤ := 1) (speed : ℝ := 1) (skip : Option ℤ := none) : Res Player :=
  let d := diffs (ts.map fun τ => τ / 1000000)
  if ts = [] then .error .traitError
  else if d = [] then .error .valueError
  else
    let mean := d.sum / d.length
    if speed = 0 then (if mean = 0 ∨ step = 0 then .error .valueError else .error .overflowError)
    else .ok ⟨ts.length - 1, 0, [0], pyInt (mean / speed * step), step, skip⟩

end RBM.Ros
