import Verif.Model.Bus
import Verif.Model.Handling
/-!
# Model of the Ethernet controller

Source: `SilKit/source/services/ethernet/{EthController,SimBehavior,SimBehaviorTrivial,SimBehaviorDetailed}.cpp`.

Not modelled: replaying of traces, tracing and time stamps; handlers that call back into the controller (see `Model/Handlers.lean`).
-/
namespace SilKit.Ethernet
open SilKit.Handling (Table)

/-- `TransmitDirection`, datatypes.hpp:18-28. -/
inductive Direction
  | undefined | tx | rx | txrx
deriving Repr, DecidableEq

/-- `static_cast<DirectionMask>`. -/
def Direction.bits : Direction → Nat
  | .undefined => 0
  | .tx => 1
  | .rx => 2
  | .txrx => 3

/-- `EthernetTransmitStatus`, EthernetDatatypes.hpp:45-61. -/
inductive TransmitStatus
  | transmitted | controllerInactive | linkDown | dropped | invalidFrameFormat
deriving Repr, DecidableEq

/-- Ethernet.h:19-33. -/
def TransmitStatus.bits : TransmitStatus → Nat
  | .transmitted => 1
  | .controllerInactive => 2
  | .linkDown => 4
  | .dropped => 8
  | .invalidFrameFormat => 32

/-- `EthernetState`, EthernetDatatypes.hpp:72-80. -/
inductive State
  | inactive | linkDown | linkUp
deriving Repr, DecidableEq

/-- `WireEthernetFrameEvent`, without the time stamp. A user context is a pointer; 0 is null. -/
structure FrameEvent where
  raw : List Nat
  direction : Direction
  ctx : Nat
deriving Repr, DecidableEq

/-- `EthernetFrameTransmitEvent`, without the time stamp. -/
structure Ack where
  status : TransmitStatus
  ctx : Nat
deriving Repr, DecidableEq

/-- What a controller receives: `WireEthernetFrameEvent`, `EthernetFrameTransmitEvent`, `EthernetStatus`. -/
inductive Msg
  | frame (e : FrameEvent)
  | ack (a : Ack)
  | status (s : State) (bitrate : Nat)
deriving Repr, DecidableEq

/-- What handlers are called with. -/
inductive Notice
  | frame (e : FrameEvent)
  | ack (a : Ack)
  | state (s : State)
  | bitrate (b : Nat)
deriving Repr, DecidableEq

/-- The four containers of handlers, EthController.hpp:147-149. -/
inductive Kind
  | frame | ack | state | bitrate
deriving Repr, DecidableEq

def Notice.kind : Notice → Kind
  | .frame _ => .frame
  | .ack _ => .ack
  | .state _ => .state
  | .bitrate _ => .bitrate

/-- The filters of the handlers, EthController.cpp:293-302, 314-325; handlers of the other kinds have none. -/
def passes (mask : Nat) : Notice → Bool
  | .frame e => e.direction.bits &&& mask != 0
  | .ack a => a.status.bits &&& mask != 0
  | .state _ => true
  | .bitrate _ => true

def events : Handling.Events Kind Notice := ⟨Notice.kind, passes⟩

/-- `EthController`, EthController.hpp:136-149, with `SimBehavior::_currentBehavior`: the participant that simulates the network, if there is one. -/
structure Ctl where
  id : Nat
  net : String
  state : State := .inactive
  bitrate : Nat := 0
  sim : Option Nat := none
  handlers : Kind → Table := fun _ => {}

/-- What goes to the network simulation: `EthernetSetMode`, `WireEthernetFrameEvent`. -/
inductive ToSim
  | mode (active : Bool)
  | frame (e : FrameEvent)
deriving Repr, DecidableEq

inductive Did
  /-- The controller takes a message from the given service, or from itself. -/
  | takes (src : Option (Nat × Nat)) (m : Msg)
  /-- The controller sends to participant `q` only. -/
  | toSim (q : Nat) (m : ToSim)
deriving Repr, DecidableEq

abbrev Out := Handling.Out Kind Notice Did

/-- What the controller is told about the network simulation. -/
inductive SimInput
  /-- A service of type Link of participant `q` on the network `net` appears. -/
  | linkCreated (q : Nat) (net : String)
  | linkRemoved (q : Nat) (net : String)
  /-- A message that is meant for the controller's participant only. -/
  | msg (src : Nat × Nat) (m : Msg)
deriving Repr, DecidableEq

inductive Call
  | activate | deactivate
  | sendFrame (raw : List Nat) (ctx : Nat)
  | addHandler (k : Kind) (mask : Nat)
  | removeHandler (k : Kind) (id : Nat)
  | sim (x : SimInput)
deriving Repr, DecidableEq

def Ctl.tell (c : Ctl) (n : Notice) : List Out := Handling.tell events c.handlers n

/-- `ReceiveMsgInternal`, EthController.cpp:181-196: short frames are padded. -/
def pad (raw : List Nat) : List Nat := if raw.length < 60 then raw ++ List.replicate (60 - raw.length) 0 else raw

/-- `ReceiveMsgInternal`, EthController.cpp:198-203: the user context is removed. -/
def visibleCtx (e : FrameEvent) : Nat := if e.direction.bits &&& Direction.tx.bits != Direction.tx.bits then 0 else e.ctx

/-- `ReceiveMsg` for a status, EthController.cpp:235-239. -/
def Ctl.setBitrate (c : Ctl) (b : Nat) : Ctl × List Out :=
  if b ≠ c.bitrate then ({ c with bitrate := b }, Ctl.tell { c with bitrate := b } (.bitrate b)) else (c, [])

/-- `ReceiveMsg` for a status, EthController.cpp:241-245. -/
def Ctl.setState (c : Ctl) (s : State) : Ctl × List Out :=
  if s ≠ c.state then ({ c with state := s }, Ctl.tell { c with state := s } (.state s)) else (c, [])

/-- `ReceiveMsg`, EthController.cpp:154-246, once the message is accepted. -/
def Ctl.take (c : Ctl) (src : Option (Nat × Nat)) (m : Msg) : Ctl × List Out :=
  match m with
  | .frame e => (c, .did (.takes src m) :: c.tell (.frame ⟨pad e.raw, e.direction, visibleCtx e⟩))
  | .ack a => (c, .did (.takes src m) :: c.tell (.ack a))
  | .status s b => (((c.setBitrate b).1.setState s).1, .did (.takes src m) :: ((c.setBitrate b).2 ++ ((c.setBitrate b).1.setState s).2))

/-- `AllowReception`, SimBehaviorTrivial.cpp:51-54, SimBehaviorDetailed.cpp:38-46. -/
def Ctl.allows (c : Ctl) (src : Nat × Nat) : Bool :=
  match c.sim with
  | none => true
  | some q => src.1 == q && src.2 == c.id

def Ctl.receive (c : Ctl) (src : Nat × Nat) (m : Msg) : Ctl × List Out := if c.allows src then c.take (some src) m else (c, [])

/-- `SendMsg(EthernetSetMode)`, SimBehaviorTrivial.cpp:81-96, SimBehaviorDetailed.cpp:31-34. -/
def Ctl.setMode (c : Ctl) (active : Bool) : Ctl × List Out :=
  match c.sim with
  | none => c.take none (.status (if active then .linkUp else .inactive) 0)
  | some q => (c, [.did (.toSim q (.mode active))])

/-- `Activate`, EthController.cpp:105-113. -/
def Ctl.activate (c : Ctl) : Ctl × List Out := if c.state ≠ .inactive then (c, []) else c.setMode true

/-- `Deactivate`, EthController.cpp:115-123. -/
def Ctl.deactivate (c : Ctl) : Ctl × List Out := if c.state = .inactive then (c, []) else c.setMode false

/-- `ControllerStateToTransmitStatus`, SimBehaviorTrivial.cpp:13-26. -/
def transmitStatus : State → TransmitStatus
  | .linkUp => .transmitted
  | .linkDown => .linkDown
  | .inactive => .controllerInactive

/-- `SendMsg(WireEthernetFrameEvent)`, SimBehaviorTrivial.cpp:56-79: the frame goes to the others and to the controller itself. -/
def Ctl.transmit (c : Ctl) (raw : List Nat) (ctx : Nat) : List (Bus.Act FrameEvent Out) :=
  if c.state = .linkUp then .send ⟨raw, .rx, ctx⟩ :: (c.take none (.frame ⟨raw, .tx, ctx⟩)).2.map .out else []

/-- `SendFrame`, EthController.cpp:125-148; SimBehaviorTrivial.cpp:56-79, SimBehaviorDetailed.cpp:26-29. Taking a frame or an acknowledge does not
change the controller. -/
def Ctl.sendFrame (c : Ctl) (raw : List Nat) (ctx : Nat) : List (Bus.Act FrameEvent Out) :=
  match c.sim with
  | none => c.transmit raw ctx ++ (c.take none (.ack ⟨transmitStatus c.state, ctx⟩)).2.map .out
  | some q => [.out (.did (.toSim q (.frame ⟨raw, .undefined, ctx⟩)))]

/-- `AddFrameHandler` etc., EthController.cpp:293-379. -/
def Ctl.addHandler (c : Ctl) (k : Kind) (mask : Nat) : Ctl × List Out :=
  ({ c with handlers := (Handling.add (ν := Notice) (ρ := Did) c.handlers k mask).1 }, (Handling.add c.handlers k mask).2)

def Ctl.removeHandler (c : Ctl) (k : Kind) (id : Nat) : Ctl × List Out :=
  ({ c with handlers := (Handling.remove (ν := Notice) (ρ := Did) c.handlers k id).1 }, (Handling.remove c.handlers k id).2)

/-- The handler of discovered services, EthController.cpp:32-65, 83-88, and messages to this participant only. -/
def Ctl.onSim (c : Ctl) : SimInput → Ctl × List Out
  | .linkCreated q net => if c.sim = none ∧ net = c.net then ({ c with sim := some q }, []) else (c, [])
  | .linkRemoved _ net => if c.sim ≠ none ∧ net = c.net then ({ c with sim := none }, []) else (c, [])
  | .msg src m => c.receive src m

def asActs (r : Ctl × List Out) : Ctl × List (Bus.Act FrameEvent Out) := (r.1, r.2.map .out)

def Ctl.api (c : Ctl) : Call → Ctl × List (Bus.Act FrameEvent Out)
  | .activate => asActs c.activate
  | .deactivate => asActs c.deactivate
  | .sendFrame raw ctx => (c, c.sendFrame raw ctx)
  | .addHandler k mask => asActs (c.addHandler k mask)
  | .removeHandler k id => asActs (c.removeHandler k id)
  | .sim x => asActs (c.onSim x)

/-- The Ethernet controllers as services on links. -/
def service : Bus.Service Ctl Call FrameEvent Out where
  ty := .ethFrame
  start := fun i net => { id := i, net := net }
  api := Ctl.api
  recv := fun c src e => c.receive src (.frame e)

end SilKit.Ethernet
