import Verif.Model.Lin
/-!
# Model of the replay of LIN recordings

Source: `SilKit/source/services/lin/LinController.cpp:1005-1052` and the calls that are ignored during a replay (456-474, 502-537, 550-569), on top of
`Model/Lin.lean`. When messages are replayed is in `Model/Replay.lean`.
-/
namespace SilKit.Lin

/-- `Config::Replay::Direction`, ParticipantConfiguration.hpp. -/
inductive ReplayDirection
  | undefined | send | receive | both
deriving Repr, DecidableEq

/-- The `Replay` configuration of the controller; `source`: `UseTraceSource` is not empty. -/
structure Replaying where
  direction : ReplayDirection
  source : Bool
deriving Repr, DecidableEq

/-- `IsValidReplayConfig`, Tracing.cpp:141-144, the controller's `_replayActive`, LinController.cpp:52. -/
def Replaying.active (p : Replaying) : Bool := p.direction != .undefined && p.source

/-- `IsReplayEnabledFor` sending, IReplayDataController.hpp:19-26. -/
def Replaying.sends (p : Replaying) : Bool := if p.direction = .undefined then false else p.direction == .send || p.direction == .both

/-- `ReplayMessage`, LinController.cpp:1007-1052; `received`: the direction of the recorded frame. The behaviour's `GoToSleep` is called without the checks of the
API, which pass for a master. -/
def Ctl.replay (p : Replaying) (c : Ctl) (received : Bool) (f : Frame) : R :=
  if c.dead then (c, [])
  else if !p.active then (c, [])
  else if c.mode ≠ .master then (c, [])
  else (c.updateFrameResponse ⟨f, if received then .rx else .tx⟩).andThen fun c =>
    if isGoToSleep f then c.goToSleep.andThen fun c => ({ c with status := .sleep }, [])
    else c.sendFrameInternal f (if received then .slaveResponse else .masterResponse)

/-- The API of a controller with a replay configuration: `SendFrame`, `SetFrameResponse` and `GoToSleep` are ignored after their checks. -/
def Ctl.apiReplaying (p : Replaying) (c : Ctl) (a : Call) : R :=
  if c.dead then (c, [])
  else match a with
    | .sendFrame f ty => if p.sends ∧ c.status ≠ .unknown ∧ c.mode = .master ∧ c.isDynamic = false then (c, []) else c.sendFrame f ty
    | .setFrameResponse r => if p.sends ∧ c.status ≠ .unknown ∧ c.isDynamic = false then (c, []) else c.setFrameResponse r
    | .goToSleep => if p.sends ∧ c.status ≠ .unknown ∧ c.mode = .master then (c, []) else c.goToSleep
    | a => c.apiAlive a

end SilKit.Lin
