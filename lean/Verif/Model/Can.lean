import Verif.Model.Bus
/-!
# Model of the CAN controller

Source: `SilKit/source/services/can/{CanController,SimBehavior,SimBehaviorTrivial,SimBehaviorDetailed}.cpp`, `CanController.hpp`.

Not modelled: replaying of traces, tracing, time stamps (of a received frame, the link replaces it when time is synchronized, SilKitLink.hpp:147-150),
bit rates, the flags of a mode change, and handlers that call back into the controller. Identifiers of handlers do not wrap around
(see `Model/Handlers.lean` for that).
-/
namespace SilKit.Can

/-- `CanFrame`, CanDatatypes.hpp:37-50. -/
structure Frame where
  canId : Nat
  flags : Nat
  dlc : Nat
  sdt : Nat
  vcid : Nat
  af : Nat
  data : List Nat
deriving Repr, DecidableEq

/-- `TransmitDirection`, datatypes.hpp:18-28. -/
inductive Direction
  | undefined | tx | rx | txrx
deriving Repr, DecidableEq

/-- `static_cast<DirectionMask>`. -/
def Direction.bits : Direction → Nat
  | .undefined => 0
  | .tx => 1
  | .rx => 2
  | .txrx => 3

/-- `CanTransmitStatus`, Can.h:58-68. -/
inductive TransmitStatus
  | transmitted | canceled | transmitQueueFull
deriving Repr, DecidableEq

def TransmitStatus.bits : TransmitStatus → Nat
  | .transmitted => 1
  | .canceled => 2
  | .transmitQueueFull => 4

/-- `CanControllerState`. -/
inductive CtlState
  | uninit | stopped | started | sleep
deriving Repr, DecidableEq

/-- `CanErrorState`. -/
inductive ErrorState
  | notAvailable | errorActive | errorPassive | busOff
deriving Repr, DecidableEq

/-- `WireCanFrameEvent`, without the time stamp. A user context is a pointer; 0 is null. -/
structure FrameEvent where
  frame : Frame
  direction : Direction
  ctx : Nat
deriving Repr, DecidableEq

/-- `CanFrameTransmitEvent`, without the time stamp. -/
structure Ack where
  canId : Nat
  status : TransmitStatus
  ctx : Nat
deriving Repr, DecidableEq

/-- What a controller receives: `WireCanFrameEvent`, `CanFrameTransmitEvent`, `CanControllerStatus`. -/
inductive Msg
  | frame (e : FrameEvent)
  | ack (a : Ack)
  | status (s : CtlState) (e : ErrorState)
deriving Repr, DecidableEq

/-- What handlers are called with. -/
inductive Notice
  | frame (e : FrameEvent)
  | ack (a : Ack)
  | state (s : CtlState)
  | error (e : ErrorState)
deriving Repr, DecidableEq

/-- The four containers of handlers, CanController.hpp:180-182. -/
inductive Kind
  | frame | ack | state | error
deriving Repr, DecidableEq

def Notice.kind : Notice → Kind
  | .frame _ => .frame
  | .ack _ => .ack
  | .state _ => .state
  | .error _ => .error

/-- The filters of the handlers, CanController.cpp:297-299, 345-347; handlers of the other kinds have none. -/
def passes (mask : Nat) : Notice → Bool
  | .frame e => e.direction.bits &&& mask != 0
  | .ack a => a.status.bits &&& mask != 0
  | .state _ => true
  | .error _ => true

/-- `SynchronizedHandlers`, in the order of the identifiers. -/
structure Table where
  /-- Identifier and mask. -/
  entries : List (Nat × Nat) := []
  next : Nat := 0
deriving Repr, DecidableEq

/-- `CanController`, with `SimBehavior::_currentBehavior`: the participant that simulates the network, if there is one. -/
structure Ctl where
  id : Nat
  net : String
  state : CtlState := .uninit
  error : ErrorState := .notAvailable
  sim : Option Nat := none
  handlers : Kind → Table := fun _ => {}

/-- What goes to the network simulation: `CanSetControllerMode`, `WireCanFrameEvent`. -/
inductive ToSim
  | mode (s : CtlState)
  | frame (e : FrameEvent)
deriving Repr, DecidableEq

inductive Out
  /-- The controller takes a message from the given service, or from itself. -/
  | takes (src : Option (Nat × Nat)) (m : Msg)
  /-- The handler with the identifier `id` is called. -/
  | called (id : Nat) (n : Notice)
  | added (k : Kind) (id mask : Nat)
  | removed (k : Kind) (id : Nat)
  /-- The controller sends to participant `q` only. -/
  | toSim (q : Nat) (m : ToSim)
  /-- A warning is logged. -/
  | warned
deriving Repr, DecidableEq

/-- What the controller is told about the network simulation. -/
inductive SimInput
  /-- A service of type Link of participant `q` on the network `net` appears. -/
  | linkCreated (q : Nat) (net : String)
  | linkRemoved (q : Nat) (net : String)
  /-- A message that is meant for the controller's participant only. -/
  | msg (src : Nat × Nat) (m : Msg)
deriving Repr, DecidableEq

inductive Call
  | start | stop | sleep | reset
  | sendFrame (f : Frame) (ctx : Nat)
  | addHandler (k : Kind) (mask : Nat)
  | removeHandler (k : Kind) (id : Nat)
  | sim (x : SimInput)
deriving Repr, DecidableEq

/-- `CallHandlers`, CanController.cpp:374-379, with `FilteredCallback`, CanController.hpp:123-135. -/
def Ctl.notify (c : Ctl) (n : Notice) : List Out :=
  ((c.handlers n.kind).entries.filter (fun x => passes x.2 n)).map (fun x => .called x.1 n)

/-- `ReceiveMsg` for a frame, CanController.cpp:190-202. -/
def visible (e : FrameEvent) : FrameEvent := if e.direction.bits &&& Direction.tx.bits != Direction.tx.bits then { e with ctx := 0 } else e

/-- `ReceiveMsg` for a status, CanController.cpp:222-226. -/
def Ctl.setState (c : Ctl) (s : CtlState) : Ctl × List Out :=
  if c.state ≠ s then ({ c with state := s }, Ctl.notify { c with state := s } (.state s)) else (c, [])

/-- `ReceiveMsg` for a status, CanController.cpp:227-231. -/
def Ctl.setError (c : Ctl) (e : ErrorState) : Ctl × List Out :=
  if c.error ≠ e then ({ c with error := e }, Ctl.notify { c with error := e } (.error e)) else (c, [])

/-- `ReceiveMsg`, CanController.cpp:173-232, once the message is accepted. -/
def Ctl.take (c : Ctl) (src : Option (Nat × Nat)) (m : Msg) : Ctl × List Out :=
  match m with
  | .frame e => (c, .takes src m :: c.notify (.frame (visible e)))
  | .ack a => (c, .takes src m :: c.notify (.ack a))
  | .status s e =>
      ((((c.setState s).1).setError e).1, .takes src m :: ((c.setState s).2 ++ (((c.setState s).1).setError e).2))

/-- `AllowReception`, SimBehaviorTrivial.cpp:34-37, SimBehaviorDetailed.cpp:40-48. -/
def Ctl.allows (c : Ctl) (src : Nat × Nat) : Bool :=
  match c.sim with
  | none => true
  | some q => src.1 == q && src.2 == c.id

def Ctl.receive (c : Ctl) (src : Nat × Nat) (m : Msg) : Ctl × List Out := if c.allows src then c.take (some src) m else (c, [])

/-- `ChangeControllerMode` and `Reset`, CanController.cpp:108-146; SimBehaviorTrivial.cpp:41-48, SimBehaviorDetailed.cpp:30-33. The new status
of the trivial behaviour has the error state zero. -/
def Ctl.setMode (c : Ctl) (s : CtlState) : Ctl × List Out :=
  match c.sim with
  | none => c.take none (.status s .notAvailable)
  | some q => (c, [.toSim q (.mode s)])

/-- `SendFrame`, CanController.cpp:148-167; SimBehaviorTrivial.cpp:50-81, SimBehaviorDetailed.cpp:34-38. Taking a frame or an acknowledge does not
change the controller. -/
def Ctl.sendFrame (c : Ctl) (f : Frame) (ctx : Nat) : List (Bus.Act FrameEvent Out) :=
  match c.sim with
  | none =>
      if c.state = .started then
        .send ⟨f, .rx, ctx⟩ :: ((c.take none (.frame ⟨f, .tx, ctx⟩)).2 ++ (c.take none (.ack ⟨f.canId, .transmitted, ctx⟩)).2).map .out
      else [.out .warned]
  | some q => [.out (.toSim q (.frame ⟨f, .undefined, ctx⟩))]

def Ctl.setHandlers (c : Ctl) (k : Kind) (t : Table) : Ctl := { c with handlers := fun k' => if k' = k then t else c.handlers k' }

/-- `AddHandler`, CanController.cpp:359-364. -/
def Ctl.addHandler (c : Ctl) (k : Kind) (mask : Nat) : Ctl × List Out :=
  (c.setHandlers k ⟨(c.handlers k).entries ++ [((c.handlers k).next, mask)], (c.handlers k).next + 1⟩, [.added k (c.handlers k).next mask])

/-- `RemoveHandler`, CanController.cpp:366-371. -/
def Ctl.removeHandler (c : Ctl) (k : Kind) (id : Nat) : Ctl × List Out :=
  (c.setHandlers k ⟨(c.handlers k).entries.filter (·.1 != id), (c.handlers k).next⟩, [.removed k id])

/-- The handler of discovered services, CanController.cpp:31-65, 85-90, and messages to this participant only. -/
def Ctl.onSim (c : Ctl) : SimInput → Ctl × List Out
  | .linkCreated q net => if c.sim = none ∧ net = c.net then ({ c with sim := some q }, []) else (c, [])
  | .linkRemoved _ net => if c.sim ≠ none ∧ net = c.net then ({ c with sim := none }, []) else (c, [])
  | .msg src m => c.receive src m

def asActs (r : Ctl × List Out) : Ctl × List (Bus.Act FrameEvent Out) := (r.1, r.2.map .out)

def Ctl.api (c : Ctl) : Call → Ctl × List (Bus.Act FrameEvent Out)
  | .start => asActs (c.setMode .started)
  | .stop => asActs (c.setMode .stopped)
  | .sleep => asActs (c.setMode .sleep)
  | .reset => asActs (c.setMode .uninit)
  | .sendFrame f ctx => (c, c.sendFrame f ctx)
  | .addHandler k mask => asActs (c.addHandler k mask)
  | .removeHandler k id => asActs (c.removeHandler k id)
  | .sim x => asActs (c.onSim x)

/-- The CAN controllers as services on links. -/
def service : Bus.Service Ctl Call FrameEvent Out where
  ty := .canFrame
  start := fun i net => { id := i, net := net }
  api := Ctl.api
  recv := fun c src e => c.receive src (.frame e)

end SilKit.Can
