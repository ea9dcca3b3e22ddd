import Verif.Spec.Lin
/-!
# Specification of dynamic LIN responses (C78)

A controller that is initialized with `InitDynamic` is told about the headers of frames, and may give a response to each of them.
-/
namespace SilKit.Lin.Spec

/-- There is no network simulation, nobody leaves, and only LIN identifiers are used. Controllers may respond dynamically or not. -/
def Unsimulated (h : List Act) : Prop := (∀ i a, Act.api i a ∈ h → a.Valid ∧ a.noSim) ∧ ∀ i j, Act.close i j ∉ h

/-- The call configures a response to the header `id`, or gives one. -/
def _root_.SilKit.Lin.Call.offers (id : Nat) : Call → Prop
  | .init _ rs => ∃ r ∈ rs, r.frame.id = id ∧ r.mode = .tx
  | .setFrameResponse r => r.frame.id = id ∧ r.mode = .tx
  | .sendFrame f .masterResponse => f.id = id
  | .sendDynamicResponse f => f.id = id
  | _ => False

/-- What happens on the bus, as controller `i` reports it: everything but that the configuration of some slave is known. -/
def busReports (i : Nat) (t : List Ev) : List Notice := (reported i t).filter (· ≠ .slaveConfig)

/-- What a controller with this configuration reports if somebody else sends the frame `f`. -/
def Conf.hears (c : Conf) (f : Frame) (s : FrameStatus) : List Notice :=
  if c.isDynamic = false then c.sees f s
  else if c.asleep = true ∨ (8 < f.dataLength ∧ f.dataLength ≠ lengthUnknown) then []
  else .frame f s :: (if c.mode = .slave ∧ f.id = goToSleepFrame.id ∧ f.data = goToSleepFrame.data then [.goToSleep] else [])

/-- The controller is a master that may expect dynamic responses: it is dynamic itself, or it knows of a dynamic slave. -/
def Conf.asks (c : Conf) : Prop := c.mode = .master ∧ (c.isDynamic = true ∨ c.dynamics ≠ [])

end SilKit.Lin.Spec
