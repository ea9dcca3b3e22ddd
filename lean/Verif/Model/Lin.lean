import Verif.Model.Handling
/-!
# Model of the LIN controller

Source: `SilKit/source/services/lin/{LinController,SimBehavior,SimBehaviorTrivial,SimBehaviorDetailed}.cpp`, `LinController.hpp`,
`include/silkit/services/lin/LinDatatypes.hpp`, `wire/lin/WireLinMessages.hpp`.

Not modelled: replaying of traces, tracing, logging, time stamps, baud rates; handlers that call back into the controller. Controllers are known by a
number that stands for their `EndpointAddress`. The API runs on the user's thread and `ReceiveMsg` on the I/O thread without a lock; each is one
step here. What is sent goes to the I/O thread first (VAsioConnection.hpp:153-156), so nothing is received within a call.

Out-of-bounds accesses to the array of 64 responses are undefined behaviour: the controller outputs `ub` and is dead.
-/
namespace SilKit.Lin
open SilKit.Handling (Table)

/-- `LinChecksumModel`. -/
inductive Checksum
  | unknown | enhanced | classic
deriving Repr, DecidableEq

/-- `LinFrame`, LinDatatypes.hpp:63-69. -/
structure Frame where
  id : Nat := 0
  checksum : Checksum := .unknown
  dataLength : Nat := 0
  data : List Nat := List.replicate 8 0
deriving Repr, DecidableEq

/-- `LinDataLengthUnknown`, Lin.h:149. -/
def lengthUnknown : Nat := 255

/-- `GoToSleepFrame`, LinDatatypes.hpp:308-316. -/
def goToSleepFrame : Frame := ⟨0x3c, .classic, 8, [0, 255, 255, 255, 255, 255, 255, 255]⟩

/-- `LinFrameResponseMode`. -/
inductive RespMode
  | unused | rx | tx
deriving Repr, DecidableEq

/-- `LinFrameResponse`. -/
structure Response where
  frame : Frame := {}
  mode : RespMode := .unused
deriving Repr, DecidableEq

/-- `LinFrameResponseType`. -/
inductive RespType
  | masterResponse | slaveResponse | slaveToSlave
deriving Repr, DecidableEq

/-- `LinFrameStatus`. -/
inductive FrameStatus
  | notOk | txOk | txBusy | txHeaderError | txError | rxOk | rxBusy | rxError | rxNoResponse
deriving Repr, DecidableEq

/-- `LinControllerMode`. -/
inductive Mode
  | inactive | master | slave
deriving Repr, DecidableEq

/-- `LinControllerStatus`. -/
inductive Status
  | unknown | operational | sleep | sleepPending
deriving Repr, DecidableEq

/-- `TransmitDirection`, as far as wake-up pulses use it. -/
inductive Direction
  | undefined | tx | rx
deriving Repr, DecidableEq

/-- What LIN controllers send to each other and to the network simulation: `LinSendFrameRequest`, `LinSendFrameHeaderRequest`, `LinTransmission`,
`LinWakeupPulse`, `WireLinControllerConfig`, `LinFrameResponseUpdate`, `LinControllerStatusUpdate`. -/
inductive Msg
  | frameRequest (f : Frame) (ty : RespType)
  | header (id : Nat)
  | transmission (f : Frame) (s : FrameStatus)
  | wakeup (d : Direction)
  | config (mode : Mode) (isDynamic : Bool) (rs : List Response)
  | responses (rs : List Response)
  | status (s : Status)
deriving Repr, DecidableEq

/-- What handlers are called with. -/
inductive Notice
  | frame (f : Frame) (s : FrameStatus)
  | goToSleep
  | wakeup (d : Direction)
  | slaveConfig
  | header (id : Nat)
deriving Repr, DecidableEq

/-- The containers of handlers, LinController.hpp:224-227. -/
inductive Kind
  | frame | goToSleep | wakeup | slaveConfig | header
deriving Repr, DecidableEq

def Notice.kind : Notice → Kind
  | .frame _ _ => .frame
  | .goToSleep => .goToSleep
  | .wakeup _ => .wakeup
  | .slaveConfig => .slaveConfig
  | .header _ => .header

/-- Handlers of LIN controllers have no filters, LinController.cpp:896-971. -/
def events : Handling.Events Kind Notice := ⟨Notice.kind, fun _ _ => true⟩

/-- `LinNode`, LinController.hpp:124-135. -/
structure Node where
  mode : Mode := .inactive
  status : Status := .unknown
  isDynamic : Bool := false
  resp : Nat → Response := fun _ => {}

/-- What a controller does, besides calling handlers. -/
inductive Did
  /-- The controller sends to its network. -/
  | send (m : Msg)
  /-- The controller sends to participant `q` only. -/
  | toSim (q : Nat) (m : Msg)
  /-- The call throws an exception. -/
  | threw
  /-- Undefined behaviour. -/
  | ub
deriving Repr, DecidableEq

abbrev Out := Handling.Out Kind Notice Did

/-- `LinController`, LinController.hpp:211-242, with the current behaviour: the participant that simulates the network, if there is one. -/
structure Ctl where
  self : Nat
  net : String
  mode : Mode := .inactive
  status : Status := .unknown
  isDynamic : Bool := false
  /-- `_linNodes`, in the order of the addresses. -/
  nodes : List (Nat × Node) := []
  /-- `_linIdsRespondedBySlaves`. -/
  slaveIds : List Nat := []
  /-- `_triggerLinSlaveConfigurationHandlers`. -/
  pending : Bool := false
  sim : Option Nat := none
  handlers : Kind → Table := fun _ => {}
  dead : Bool := false

/-- What the controller is told by the network simulation or about it. -/
inductive SimInput
  | linkCreated (q : Nat) (net : String)
  | linkRemoved (q : Nat) (net : String)
  /-- A message of the simulating participant, for this controller. -/
  | msg (q : Nat) (m : Msg)
deriving Repr, DecidableEq

/-- The API, `ILinController`. -/
inductive Call
  | init (mode : Mode) (rs : List Response)
  | initDynamic (mode : Mode)
  | sendDynamicResponse (f : Frame)
  | sendFrame (f : Frame) (ty : RespType)
  | sendFrameHeader (id : Nat)
  | updateTxBuffer (f : Frame)
  | setFrameResponse (r : Response)
  | goToSleep
  | goToSleepInternal
  | wakeup
  | wakeupInternal
  | getSlaveConfiguration
  | addHandler (k : Kind)
  | removeHandler (k : Kind) (id : Nat)
  | sim (x : SimInput)
deriving Repr, DecidableEq

abbrev R := Ctl × List Out

def R.andThen (r : R) (f : Ctl → R) : R := ((f r.1).1, r.2 ++ (f r.1).2)

def Ctl.tell (c : Ctl) (n : Notice) : R := (c, Handling.tell events c.handlers n)

def Ctl.send (c : Ctl) (m : Msg) : R := (c, [.did (.send m)])

def Ctl.throw (c : Ctl) : R := (c, [.did .threw])

def Ctl.ub (c : Ctl) : R := ({ c with dead := true }, [.did .ub])

/-! ## Node bookkeeping -/

/-- `GetLinNode`, LinController.cpp:714-726, to change a node. -/
def updNode (a : Nat) (f : Node → Node) : List (Nat × Node) → List (Nat × Node)
  | [] => [(a, f {})]
  | (b, n) :: t => if b < a then (b, n) :: updNode a f t else if b = a then (b, f n) :: t else (a, f {}) :: (b, n) :: t

/-- `GetLinNode`, to read a node. The code inserts a default node where there is none; that is inactive, and ignored wherever all nodes are looked at. -/
def getNode (a : Nat) : List (Nat × Node) → Node
  | [] => {}
  | (b, n) :: t => if b = a then n else getNode a t

/-- `GetThisLinNode`, LinController.cpp:709-712. -/
def Ctl.own (c : Ctl) : Node := getNode c.self c.nodes

/-- `UpdateResponses` for one response, LinController.cpp:682-693. -/
def Node.updateResponse (n : Node) (r : Response) : Node :=
  if r.frame.id ≥ 64 then n else { n with resp := fun i => if i = r.frame.id then r else n.resp i }

/-- `UpdateResponses`, LinController.cpp:679-694. -/
def Node.updateResponses (n : Node) (rs : List Response) : Node := rs.foldl Node.updateResponse n

/-- `LinNode::UpdateTxBuffer`, LinController.cpp:696-707. -/
def Node.updateTxBuffer (n : Node) (id : Nat) (data : List Nat) : Node :=
  if id ≥ 64 then n
  else { n with resp := fun i => if i = id then { n.resp i with frame := { (n.resp i).frame with data := data } } else n.resp i }

/-- The nodes that `GetResponse` looks at, LinController.cpp:742-745. -/
def Node.active (n : Node) : Bool := n.mode != .inactive && n.status == .operational

/-- The loop of `GetResponse`, LinController.cpp:740-753. -/
def responseStep (id : Nat) (r : Nat × Frame) (x : Nat × Node) : Nat × Frame :=
  if x.2.active && (x.2.resp id).mode == .tx then (r.1 + 1, (x.2.resp id).frame) else r

/-- `GetResponse`, LinController.cpp:734-756. -/
def Ctl.getResponse (c : Ctl) (id : Nat) : Nat × Frame := c.nodes.foldl (responseStep id) (0, { id := id })

/-- `GetResponse` accesses the responses of some node. -/
def Ctl.looksAtResponses (c : Ctl) : Bool := c.nodes.any (·.2.active)

/-- `HasRespondingSlave`, LinController.cpp:605-610. -/
def Ctl.hasRespondingSlave (c : Ctl) (id : Nat) : Bool := c.slaveIds.contains id

/-- `HasDynamicNode`, LinController.cpp:612-619. -/
def Ctl.hasDynamicNode (c : Ctl) : Bool := c.nodes.any (·.2.isDynamic)

/-- `UpdateLinIdsRespondedBySlaves`, LinController.cpp:621-633. -/
def slaveIdsStep (ids : List Nat) (r : Response) : List Nat :=
  if r.mode = .tx then (if ids.contains r.frame.id then ids else ids ++ [r.frame.id]) else ids

/-! ## Sending -/

/-- Sending a controller configuration or a response update, SimBehaviorTrivial.cpp:117-133: only slaves do; SimBehaviorDetailed.cpp:46-53. -/
def Ctl.distribute (c : Ctl) (m : Msg) : R := if c.sim ≠ none ∨ c.mode = .slave then c.send m else (c, [])

def Ctl.setOwn (c : Ctl) (f : Node → Node) : Ctl := { c with nodes := updNode c.self f c.nodes }

/-- `UpdateFrameResponse`, LinController.cpp:539-548. -/
def Ctl.updateFrameResponse (c : Ctl) (r : Response) : R := (c.setOwn (·.updateResponses [r])).distribute (.responses [r])

/-- `SetControllerStatusInternal`, LinController.cpp:635-649. -/
def Ctl.setStatus (c : Ctl) (s : Status) : R := Ctl.send { c with status := s } (.status s)

/-- The status of an error transmission, SimBehaviorTrivial.cpp:157-165. -/
def errorStatus (n : Nat) : FrameStatus := if n = 0 then .rxNoResponse else .rxError

/-- The status of an error transmission for the master itself, SimBehaviorTrivial.cpp:171-177. -/
def Ctl.masterStatus (c : Ctl) (id : Nat) (s : FrameStatus) : FrameStatus := if (c.own.resp id).mode = .tx then .txError else s

/-- `SendErrorTransmissionOnHeaderRequest`, SimBehaviorTrivial.cpp:153-184. -/
def Ctl.sendError (c : Ctl) (n : Nat) (f : Frame) : R :=
  (c.send (.transmission f (errorStatus n))).andThen fun c =>
    if f.id ≥ 64 then c.ub else c.tell (.frame f (c.masterStatus f.id (errorStatus n)))

/-- `SendMsg(LinSendFrameHeaderRequest)`, SimBehaviorTrivial.cpp:135-151; SimBehaviorDetailed.cpp:41-44. -/
def Ctl.requestHeader (c : Ctl) (id : Nat) : R :=
  match c.sim with
  | some q => (c, [.did (.toSim q (.header id))])
  | none =>
      if id ≥ 64 ∧ c.looksAtResponses then c.ub
      else if (c.getResponse id).1 = 1 ∨ ((c.getResponse id).1 = 0 ∧ c.hasDynamicNode) then c.send (.header id)
      else c.sendError (c.getResponse id).1 (c.getResponse id).2

/-- `SendMsg(LinSendFrameRequest)`, SimBehaviorTrivial.cpp:90-101; SimBehaviorDetailed.cpp:33-36. `SendFrameHeader` does not throw here, as the
controller is an initialized master. -/
def Ctl.requestFrame (c : Ctl) (f : Frame) (ty : RespType) : R :=
  match c.sim with
  | some q => (c, [.did (.toSim q (.frameRequest f ty))])
  | none => if c.status = .sleep ∨ c.status = .unknown then (c, []) else c.requestHeader f.id

/-- `SendFrameInternal` for a slave's response, LinController.cpp:429-446. -/
def Ctl.sendFrameSlave (c : Ctl) (f : Frame) : R :=
  if f.id ≥ 64 then c.ub
  else match (c.own.resp f.id).mode with
    | .unused => (c.updateFrameResponse ⟨f, .rx⟩).andThen fun c => c.requestFrame f .slaveResponse
    | .tx => (c, [])
    | .rx => c.requestFrame f .slaveResponse

/-- `SendFrameInternal`, LinController.cpp:405-454. -/
def Ctl.sendFrameInternal (c : Ctl) (f : Frame) (ty : RespType) : R :=
  match ty with
  | .masterResponse => (c.updateFrameResponse ⟨f, .tx⟩).andThen fun c => c.requestFrame f ty
  | .slaveResponse => if !c.hasRespondingSlave f.id && !c.hasDynamicNode then c.tell (.frame f .rxNoResponse) else c.sendFrameSlave f
  | .slaveToSlave =>
      if !c.hasRespondingSlave f.id && !c.hasDynamicNode then c.tell (.frame f .rxNoResponse)
      else (c.tell (.frame f .txOk)).andThen fun c => c.requestFrame f ty

/-- `ProcessFrameHeaderRequest`, SimBehaviorTrivial.cpp:191-218; SimBehaviorDetailed.cpp:59-62. -/
def Ctl.processHeader (c : Ctl) (id : Nat) : R :=
  match c.sim with
  | some _ => (c, [])
  | none =>
      if id ≥ 64 then c.ub
      else if (c.own.resp id).mode ≠ .tx then (c, [])
      else if (c.own.resp id).frame.dataLength = lengthUnknown then c.throw
      else (c.send (.transmission (c.own.resp id).frame .rxOk)).andThen fun c => c.tell (.frame (c.own.resp id).frame .txOk)

/-! ## Receiving -/

/-- `ToTxFrameStatus`, SimBehaviorTrivial.cpp:15-30. -/
def toTx : FrameStatus → FrameStatus
  | .rxBusy => .txBusy
  | .rxError => .txError
  | .rxNoResponse => .rxNoResponse
  | .rxOk => .txOk
  | s => s

/-- The checks of `CalcFrameStatus` for a configured reception, SimBehaviorTrivial.cpp:246-264. -/
def mismatch (configured received : Frame) : Bool :=
  (configured.dataLength != lengthUnknown && configured.dataLength != received.dataLength) ||
  (received.checksum != .unknown && configured.checksum != .unknown && configured.checksum != received.checksum)

def isGoToSleep (f : Frame) : Bool := f.id == goToSleepFrame.id && f.data == goToSleepFrame.data

/-- `CalcFrameStatus`, SimBehaviorTrivial.cpp:225-272; SimBehaviorDetailed.cpp:98-119. -/
def Ctl.calcStatus (c : Ctl) (f : Frame) (s : FrameStatus) : FrameStatus :=
  if c.own.isDynamic then s
  else match c.sim with
    | some _ => if isGoToSleep f ∧ s = .rxOk ∧ (c.own.resp f.id).mode ≠ .rx then .rxNoResponse else s
    | none => match (c.own.resp f.id).mode with
      | .unused => .notOk
      | .rx => if mismatch (c.own.resp f.id).frame f then .rxError else s
      | .tx => toTx s

/-- Go-to-sleep frames, LinController.cpp:835-850. -/
def Ctl.sleepFrame (c : Ctl) (f : Frame) : R :=
  if isGoToSleep f then
    match c.mode with
    | .slave => c.tell .goToSleep
    | .master => (if c.status = .sleepPending then { c with status := .sleep } else c, [])
    | .inactive => (c, [])
  else (c, [])

/-- `ReceiveMsg` for a transmission, LinController.cpp:785-851. -/
def Ctl.onTransmission (c : Ctl) (f : Frame) (s : FrameStatus) : R :=
  if c.mode = .inactive then (c, [])
  else if c.status = .sleep ∨ c.status = .unknown then (c, [])
  else if f.dataLength ≠ lengthUnknown ∧ f.dataLength > 8 then (c, [])
  else if f.id ≥ 64 then (c, [])
  else R.andThen (if c.calcStatus f s ≠ .notOk then c.tell (.frame f (c.calcStatus f s)) else (c, [])) fun c => c.sleepFrame f

/-- `HandleResponsesUpdate`, LinController.cpp:651-673, up to the handlers. -/
def Ctl.learn (c : Ctl) (src : Nat) (rs : List Response) : Ctl :=
  { c with
    nodes := updNode src (·.updateResponses rs) c.nodes
    slaveIds := if (getNode src c.nodes).mode = .slave then rs.foldl slaveIdsStep c.slaveIds else c.slaveIds }

/-- The handlers of slave configurations, LinController.cpp:661-672. -/
def Ctl.slaveConfigured (c : Ctl) : R :=
  if (c.handlers .slaveConfig).entries.length = 0 then ({ c with pending := true }, []) else c.tell .slaveConfig

/-- `ReceiveMsg` for a header, LinController.cpp:763-783. -/
def Ctl.onHeader (c : Ctl) (id : Nat) : R := if c.isDynamic then c.tell (.header id) else c.processHeader id

/-- `ReceiveMsg` of an accepted message, LinController.cpp:763-890. Nobody but a network simulation listens to `LinSendFrameRequest`. -/
def Ctl.take (c : Ctl) (src : Nat) : Msg → R
  | .frameRequest _ _ => (c, [])
  | .header id => c.onHeader id
  | .transmission f s => c.onTransmission f s
  | .wakeup d => c.tell (.wakeup d)
  | .config mode dyn rs =>
      (Ctl.learn { c with nodes := updNode src (fun n => { n with mode := mode, status := .operational, isDynamic := dyn }) c.nodes } src rs).slaveConfigured
  | .responses rs => (c.learn src rs).slaveConfigured
  | .status s => ({ c with nodes := updNode src (fun n => { n with status := s }) c.nodes }, [])

/-- Messages for which `AllowReception` is asked, LinController.cpp:765, 787, 855. -/
def Msg.guarded : Msg → Bool
  | .header _ | .transmission _ _ | .wakeup _ => true
  | _ => false

/-- Messages that are rejected if they come from the controller itself, LinController.cpp:865, 875. -/
def Msg.notFromSelf : Msg → Bool
  | .config _ _ _ | .responses _ => true
  | _ => false

/-- `ReceiveMsg`, of a message from another controller of the network, or of the controller itself. `AllowReception` as in
SimBehaviorTrivial.cpp:79-82 and SimBehaviorDetailed.cpp:121-129. -/
def Ctl.receive (c : Ctl) (src : Nat) (m : Msg) : R :=
  if c.dead then (c, [])
  else if m.guarded ∧ c.sim ≠ none then (c, [])
  else if m.notFromSelf ∧ src = c.self then (c, [])
  else c.take src m

/-! ## The API -/

/-- `Init`, LinController.cpp:326-347. -/
def Ctl.init (c : Ctl) (mode : Mode) (rs : List Response) : R :=
  if mode = .inactive then c.throw
  else if c.status ≠ .unknown then c.throw
  else Ctl.distribute { (c.setOwn fun n => Node.updateResponses { n with mode := mode, status := .operational } rs) with mode := mode, status := .operational }
    (.config mode false rs)

/-- `InitDynamic`, LinController.cpp:349-371. -/
def Ctl.initDynamic (c : Ctl) (mode : Mode) : R :=
  if mode = .inactive then c.throw
  else if c.status ≠ .unknown then c.throw
  else Ctl.distribute { (c.setOwn fun n => { n with mode := mode, status := .operational, isDynamic := true }) with mode := mode, status := .operational, isDynamic := true }
    (.config mode true [])

/-- `SendDynamicResponse`, LinController.cpp:373-393. `ThrowIfNotDynamic`, 162-172, is called if the controller is not dynamic and throws if it is. -/
def Ctl.sendDynamicResponse (c : Ctl) (f : Frame) : R :=
  if !c.isDynamic && c.isDynamic then c.throw
  else (c.updateFrameResponse ⟨f, .tx⟩).andThen fun c => c.processHeader f.id

/-- `SendFrame`, LinController.cpp:456-474. -/
def Ctl.sendFrame (c : Ctl) (f : Frame) (ty : RespType) : R :=
  if c.status = .unknown then c.throw
  else if c.mode ≠ .master then c.throw
  else if c.isDynamic then c.throw
  else c.sendFrameInternal f ty

/-- `SendFrameHeader`, LinController.cpp:476-486. -/
def Ctl.sendFrameHeader (c : Ctl) (id : Nat) : R :=
  if c.status = .unknown then c.throw
  else if c.mode ≠ .master then c.throw
  else c.requestHeader id

/-- `UpdateTxBuffer`, LinController.cpp:488-500; SimBehaviorTrivial.cpp:220-223, SimBehaviorDetailed.cpp:64-72. -/
def Ctl.updateTxBuffer (c : Ctl) (f : Frame) : R :=
  if c.status = .unknown then c.throw
  else if c.isDynamic then c.throw
  else if f.id ≥ 64 then c.ub
  else if (c.own.resp f.id).mode ≠ .tx then c.throw
  else R.andThen (c.setOwn (·.updateTxBuffer f.id f.data), []) fun c => if c.sim = none then (c, []) else c.send (.responses [⟨f, .tx⟩])

/-- `SetFrameResponse`, LinController.cpp:502-537. -/
def Ctl.setFrameResponse (c : Ctl) (r : Response) : R :=
  if c.status = .unknown then c.throw
  else if c.isDynamic then c.throw
  else if r.frame.id ≥ 64 then (c, [])
  else if r.mode = .unused then (c, [])
  else if (c.own.resp r.frame.id).mode ≠ .unused then (c, [])
  else c.updateFrameResponse r

/-- `GoToSleepInternal`, LinController.cpp:571-576. -/
def Ctl.goToSleepInternal (c : Ctl) : R := if c.status = .unknown then c.throw else c.setStatus .sleep

/-- `GoToSleep`, LinController.cpp:550-569; SimBehaviorTrivial.cpp:275-291, SimBehaviorDetailed.cpp:74-88. -/
def Ctl.goToSleep (c : Ctl) : R :=
  if c.status = .unknown then c.throw
  else if c.mode ≠ .master then c.throw
  else match c.sim with
    | none => ((c.send (.transmission goToSleepFrame .rxOk)).andThen fun c => c.tell (.frame goToSleepFrame .txOk)).andThen fun c => c.goToSleepInternal
    | some q => R.andThen (c, [.did (.toSim q (.frameRequest goToSleepFrame .masterResponse))]) fun c => c.setStatus .sleepPending

/-- `WakeupInternal`, LinController.cpp:587-592. -/
def Ctl.wakeupInternal (c : Ctl) : R := if c.status = .unknown then c.throw else c.setStatus .operational

/-- `Wakeup`, LinController.cpp:578-585; SimBehaviorTrivial.cpp:293-302, SimBehaviorDetailed.cpp:90-96. -/
def Ctl.wakeup (c : Ctl) : R :=
  if c.status = .unknown then c.throw
  else match c.sim with
    | none => ((c.send (.wakeup .rx)).andThen fun c => c.tell (.wakeup .tx)).andThen fun c => c.wakeupInternal
    | some q => R.andThen (c, [.did (.toSim q (.wakeup .undefined))]) fun c => c.wakeupInternal

/-- `GetSlaveConfiguration`, LinController.cpp:594-599; the result is `slaveIds`. -/
def Ctl.getSlaveConfiguration (c : Ctl) : R := if c.mode ≠ .master then c.throw else (c, [])

/-- `AddFrameStatusHandler` etc., LinController.cpp:896-935, 984-989; `AddLinSlaveConfigurationHandler`, 957-971. -/
def Ctl.addHandler (c : Ctl) (k : Kind) : R :=
  R.andThen ({ c with handlers := (Handling.add (ν := Notice) (ρ := Did) c.handlers k 0).1 }, (Handling.add c.handlers k 0).2) fun c =>
    if k = .slaveConfig ∧ c.pending then Ctl.tell { c with pending := false } .slaveConfig else (c, [])

def Ctl.removeHandler (c : Ctl) (k : Kind) (id : Nat) : R :=
  ({ c with handlers := (Handling.remove (ν := Notice) (ρ := Did) c.handlers k id).1 }, (Handling.remove c.handlers k id).2)

/-- The handler of discovered services, LinController.cpp:60-91, and messages of the network simulation. -/
def Ctl.onSim (c : Ctl) : SimInput → R
  | .linkCreated q net => if c.sim = none ∧ net = c.net then ({ c with sim := some q }, []) else (c, [])
  | .linkRemoved _ net => if c.sim ≠ none ∧ net = c.net then ({ c with sim := none }, []) else (c, [])
  | .msg q m => if m.guarded ∧ (c.sim = some q ∨ c.sim = none) then c.take c.self m else (c, [])

def Ctl.apiAlive (c : Ctl) : Call → R
  | .init mode rs => c.init mode rs
  | .initDynamic mode => c.initDynamic mode
  | .sendDynamicResponse f => c.sendDynamicResponse f
  | .sendFrame f ty => c.sendFrame f ty
  | .sendFrameHeader id => c.sendFrameHeader id
  | .updateTxBuffer f => c.updateTxBuffer f
  | .setFrameResponse r => c.setFrameResponse r
  | .goToSleep => c.goToSleep
  | .goToSleepInternal => c.goToSleepInternal
  | .wakeup => c.wakeup
  | .wakeupInternal => c.wakeupInternal
  | .getSlaveConfiguration => c.getSlaveConfiguration
  | .addHandler k => c.addHandler k
  | .removeHandler k id => c.removeHandler k id
  | .sim x => c.onSim x

def Ctl.api (c : Ctl) (a : Call) : R := if c.dead then (c, []) else c.apiAlive a

end SilKit.Lin
