import Verif.Model.LinReplay
import Verif.Spec.Lin
/-! # What may be expected of the replay of LIN recordings -/
namespace SilKit.Lin.Spec
open SilKit.Lin

/-- What happens to a controller that replays. -/
inductive Step
  | call (a : Call)
  | recv (src : Nat) (m : Msg)
  | replay (received : Bool) (f : Frame)

def stepOf (p : Replaying) (c : Ctl) : Step → R
  | .call a => c.apiReplaying p a
  | .recv src m => c.receive src m
  | .replay received f => c.replay p received f

/-- A history from the controller `c` on: the controller and what it did. -/
def replaying (p : Replaying) (c : Ctl) (h : List Step) : R := h.foldl (fun r x => ((stepOf p r.1 x).1, r.2 ++ (stepOf p r.1 x).2)) (c, [])

/-- The same history without a replay: the frames are sent by the user. -/
def byHand : Step → Input
  | .call a => .call a
  | .recv src m => .recv src m
  | .replay _ f => .call (.sendFrame f .masterResponse)

/-- The controller is an initialized master without dynamic responses, and its network is not simulated. -/
def Master (c : Ctl) : Prop := c.mode = .master ∧ c.status ≠ .unknown ∧ c.isDynamic = false ∧ c.sim = none

instance (c : Ctl) : Decidable (Master c) := inferInstanceAs (Decidable (_ ∧ _))

/-- Sent frames are replayed, none of which is a go-to-sleep frame; the user does not call functions that are ignored. -/
def Sending : Step → Prop
  | .call (.sendFrame _ _) => False
  | .call (.setFrameResponse _) => False
  | .call .goToSleep => False
  | .call (.sim _) => False
  | .replay received f => received = false ∧ ¬ (f.id = 0x3c ∧ f.data = [0, 255, 255, 255, 255, 255, 255, 255])
  | _ => True

/-- The messages a controller has sent. -/
def sentBy (os : List Out) : List Msg := os.filterMap (fun | .did (.send m) => some m | .did (.toSim _ m) => some m | _ => none)

end SilKit.Lin.Spec
