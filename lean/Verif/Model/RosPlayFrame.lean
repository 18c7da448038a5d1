import Verif.Model.RosPlay
import Verif.Model.RosBroadcaster

/-!
`ros/utils.py:59-132`: `play_publisher` for a `ReferenceFrameTransformBroadcaster`.
-/

noncomputable section

namespace RBM.Ros

open RBM

/-- utils.py:89-90: without `timestamps` those of the publisher are used. A static broadcaster has none: `np.diff` of the scalar
`np.asarray(None).astype(float)` is a `ValueError`. -/
def playBroadcaster (b : Broadcaster) (step : ℤ := 1) (speed : ℝ := 1) (skip : Option ℤ := none) (timestamps : Option (List ℝ) := none) : Res Player :=
  match timestamps with
  | some ts => playPublisher ts step speed skip
  | none =>
    match b.timestamps with
    | some ts => playPublisher ts step speed skip
    | none => .error .valueError

/-- utils.py:131: `interactive_output` calls `publisher.publish(idx=...)` with the value of the slider, first at once and then on every change. What
the calls sent, in order of time. An exception is shown in the output widget (ipywidgets, external) and does not end the playback. -/
def Player.sent (b : Broadcaster) (p : Player) : List Sent := p.calls.reverse.map fun k => b.publish (some k)

end RBM.Ros
