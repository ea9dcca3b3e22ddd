import Verif.Model.Basic
/-!
# Model of the network simulator

Source: `SilKit/source/experimental/netsim/{NetworkSimulatorInternal,SimulatedNetworkInternal,SimulatedNetworkRouter}.cpp`,
`SimulatedNetworkRouter.hpp`, `eventproducers/{CanEventProducer,EthernetEventProducer}.cpp`, and the parts of
`services/{can,lin,ethernet,flexray}/*Controller.cpp` and `SimBehaviorDetailed.cpp` that switch a controller between the trivial and the detailed
simulation.

Simplifications: messages are opaque numbers (their conversion copies all fields), network and controller names are not empty,
controllers announce their type, and the participant of a simulated controller can be reached while its controller is known (otherwise `SendMsg` throws).
-/
namespace SilKit.NetSim

/-- `SimulatedNetworkType`, NetworkSimulatorDatatypes.hpp:23-30. -/
inductive NetType
  | can | lin | ethernet | flexray
deriving Repr, DecidableEq

/-- A network is given by its name and its type. -/
structure Key where
  name : String
  type : NetType
deriving Repr, DecidableEq

/-- `ServiceType`, as far as the network simulator looks at it. -/
inductive Kind
  | controller | link | other
deriving Repr, DecidableEq

/-- A discovered service: the fields of the `ServiceDescriptor` that are used. -/
structure Service where
  participant : String
  id : Nat
  net : Key
  kind : Kind
deriving Repr, DecidableEq

def Service.addr (s : Service) : String × Nat := (s.participant, s.id)

/-! ## Maps -/

/-- `find` of a map. -/
def get {α β : Type} [DecidableEq α] (m : List (α × β)) (k : α) : Option β := (m.find? (fun e => e.1 = k)).map (·.2)

/-- `erase` of a map. -/
def del {α β : Type} [DecidableEq α] (m : List (α × β)) (k : α) : List (α × β) := m.filter (fun e => e.1 ≠ k)

/-- Assignment `m[k] = v`. -/
def put {α β : Type} [DecidableEq α] (m : List (α × β)) (k : α) (v : β) : List (α × β) := (k, v) :: del m k

/-- `insert` of a map: an entry that exists is kept. -/
def insertNew {α β : Type} [DecidableEq α] (m : List (α × β)) (k : α) (v : β) : List (α × β) :=
  match get m k with
  | some _ => m
  | none => (k, v) :: m

/-! ## The simulator -/

/-- `SimulatedNetworkInternal` with its `SimulatedNetworkRouter`; the nested maps are maps from pairs. -/
structure Net where
  key : Key
  /-- `HasEventProducer()` -/
  producer : Bool := false
  /-- `_controllerDescriptors` -/
  descriptors : List ((String × Nat) × Nat) := []
  /-- `_simulatedControllers` of the router: the pointers given by the user are numbers -/
  controllers : List ((String × Nat) × Nat) := []
  /-- `_targetControllers` of the router: participant and service id -/
  targets : List (Nat × (String × Nat)) := []
deriving Repr

/-- What the user of the network simulator and the other participants see. -/
inductive Out
  /-- `SetEventProducer` -/
  | producer (k : Key)
  /-- `ProvideSimulatedController` with the service the descriptor stands for (`GetServiceDescriptorString`) and the answer of the user -/
  | provide (k : Key) (d : Nat) (svc : Service) (answer : Option Nat)
  /-- `SimulatedControllerRemoved` -/
  | removed (k : Key) (d : Nat)
  /-- a function of the simulated controller is called with a message -/
  | request (k : Key) (handle : Nat) (m : Nat)
  /-- a message to a participant in the name of its controller -/
  | send (k : Key) (participant : String) (id : Nat) (m : Nat)
  /-- an exception -/
  | error
deriving Repr, DecidableEq

/-- `SimulatedNetworkInternal::AddSimulatedController`, SimulatedNetworkInternal.cpp:74-98, and `SimulatedNetworkRouter::AddSimulatedController`,
SimulatedNetworkRouter.cpp:58-79. -/
def Net.add (n : Net) (svc : Service) (d : Nat) (answer : Option Nat) : Net :=
  let n := { n with descriptors := put n.descriptors svc.addr d }
  match answer with
  | some h => { n with controllers := insertNew n.controllers svc.addr h, targets := insertNew n.targets d svc.addr }
  | none => n

/-- `SimulatedNetworkInternal::RemoveSimulatedController`, SimulatedNetworkInternal.cpp:136-147, with `LookupControllerDescriptor` and
`RemoveControllerDescriptor` 100-134, and `SimulatedNetworkRouter::RemoveSimulatedController`, SimulatedNetworkRouter.cpp:81-106. -/
def Net.remove (n : Net) (svc : Service) : Net × List Out :=
  match get n.descriptors svc.addr with
  | none => (n, [])
  | some d => ({ n with descriptors := del n.descriptors svc.addr, targets := del n.targets d, controllers := del n.controllers svc.addr }, [.removed n.key d])

/-- `SimulatedNetworkRouter::ReceiveMsg`, SimulatedNetworkRouter.cpp:49-53, 108-130, 142-160 and the others: `simulated` tells messages of network simulators. -/
def Net.receive (n : Net) (participant : String) (id : Nat) (simulated : Bool) (m : Nat) : List Out :=
  if simulated then []
  else match get n.controllers (participant, id) with
    | some h => [.request n.key h m]
    | none => []

/-- One receiver in `SimulatedNetworkRouter::SendMsg`, SimulatedNetworkRouter.hpp:79-91. -/
def Net.sendTo (n : Net) (m : Nat) (d : Nat) : List Out :=
  match get n.targets d with
  | some (p, i) => [.send n.key p i m]
  | none => []

/-- `SimulatedNetworkRouter::SendMsg`, SimulatedNetworkRouter.hpp:75-92. -/
def Net.send (n : Net) (m : Nat) (receivers : List Nat) : List Out := receivers.flatMap (n.sendTo m)

/-- `NetworkSimulatorInternal` and the services known to its participant. -/
structure Sim where
  name : String
  /-- `_networkSimulatorStarted` -/
  started : Bool := false
  /-- the discovery handler is registered -/
  listening : Bool := false
  /-- `_simulatedNetworks` -/
  nets : List Net := []
  /-- routers that are registered with the connection but were destroyed -/
  dangling : List Key := []
  /-- `_nextControllerDescriptor` -/
  next : Nat := 0
  /-- `_controllerCountPerNetwork` -/
  counts : List (String × Int) := []
  /-- `_discoveredNetworks` -/
  discovered : List String := []
  /-- the services in the service discovery -/
  known : List Service := []
deriving Repr

/-- `LookupSimulatedNetwork`, NetworkSimulatorInternal.cpp:125-138. -/
def Sim.net? (s : Sim) (k : Key) : Option Net := s.nets.find? (fun n => n.key = k)

def Sim.setNet (s : Sim) (m : Net) : Sim := { s with nets := s.nets.map (fun n => if n.key = m.key then m else n) }

/-- `SimulateNetwork` and `CreateSimulatedNetwork`, NetworkSimulatorInternal.cpp:28-44, 107-122: the router is created, and registers itself with the
connection (SimulatedNetworkRouter.cpp:22-33), before the name is checked. -/
def Sim.simulate (s : Sim) (k : Key) : Sim × List Out :=
  if s.started then (s, [])
  else match s.net? k with
    | some _ => ({ s with dangling := k :: s.dangling }, [.error])
    | none => ({ s with nets := s.nets ++ [{ key := k }] }, [])

/-- `OnNetworkDiscovered`, NetworkSimulatorInternal.cpp:194-220. -/
def Sim.networkDiscovered (s : Sim) (k : Key) : Sim × List Out :=
  let s := { s with counts := put s.counts k.name ((get s.counts k.name).getD 0 + 1) }
  if k.name ∈ s.discovered then (s, [])
  else
    let s := { s with discovered := k.name :: s.discovered }
    match s.net? k with
    | some n => if n.producer then (s, []) else (s.setNet { n with producer := true }, [.producer k])
    | none => (s, [])

/-- `OnControllerDiscovered`, NetworkSimulatorInternal.cpp:243-264; `user` is the implementation of `ProvideSimulatedController`. -/
def Sim.controllerDiscovered (user : Key → Nat → Option Nat) (s : Sim) (svc : Service) : Sim × List Out :=
  let s := { s with next := s.next + 1 }
  match s.net? svc.net with
  | some n => (s.setNet (n.add svc s.next (user svc.net s.next)), [.provide svc.net s.next svc (user svc.net s.next)])
  | none => (s, [])

/-- `OnNetworkRemoved`, NetworkSimulatorInternal.cpp:222-241. -/
def Sim.networkRemoved (s : Sim) (k : Key) : Sim :=
  let s := { s with counts := put s.counts k.name ((get s.counts k.name).getD 0 - 1) }
  if get s.counts k.name = some 0 then { s with discovered := s.discovered.filter (· ≠ k.name) } else s

/-- `OnControllerRemoved`, NetworkSimulatorInternal.cpp:266-276. -/
def Sim.controllerRemoved (s : Sim) (svc : Service) : Sim × List Out :=
  match s.net? svc.net with
  | some n => (s.setNet (n.remove svc).1, (n.remove svc).2)
  | none => (s, [])

/-- `DiscoveryHandler` for a created service, NetworkSimulatorInternal.cpp:140-185. -/
def Sim.handleCreated (user : Key → Nat → Option Nat) (s : Sim) (svc : Service) : Sim × List Out :=
  match svc.kind with
  | .link => if svc.participant ≠ s.name ∧ (s.net? svc.net).isSome then (s, [.error]) else (s, [])
  | .other => (s, [])
  | .controller =>
    let r := s.networkDiscovered svc.net
    let r' := r.1.controllerDiscovered user svc
    (r'.1, r.2 ++ r'.2)

/-- `DiscoveryHandler` for a removed service, NetworkSimulatorInternal.cpp:140-191. The check of links comes first for removed services, too. -/
def Sim.handleRemoved (s : Sim) (svc : Service) : Sim × List Out :=
  match svc.kind with
  | .link => if svc.participant ≠ s.name ∧ (s.net? svc.net).isSome then (s, [.error]) else (s, [])
  | .other => (s, [])
  | .controller => (s.networkRemoved svc.net).controllerRemoved svc

/-- `RegisterServiceDiscoveryHandler`, ServiceDiscovery.cpp:225-243: the handler is called for the known services and then registered, unless it throws. The order of
the map is the order of creation here. -/
def Sim.register (user : Key → Nat → Option Nat) : List Service → Sim → Sim × List Out
  | [], s => ({ s with listening := true }, [])
  | svc :: rest, s =>
    let r := s.handleCreated user svc
    if Out.error ∈ r.2 then r
    else
      let r' := Sim.register user rest r.1
      (r'.1, r.2 ++ r'.2)

/-- `Start`, NetworkSimulatorInternal.cpp:46-78; the barrier only waits. -/
def Sim.start (user : Key → Nat → Option Nat) (s : Sim) : Sim × List Out :=
  if s.started then (s, []) else Sim.register user s.known { s with started := true }

/-- What happens to the network simulator. -/
inductive Op
  | simulate (k : Key)
  | start
  /-- a service is created or removed somewhere -/
  | created (svc : Service)
  | removed (svc : Service)
  /-- a message on a network from a service of a participant -/
  | receive (k : Key) (participant : String) (id : Nat) (simulated : Bool) (m : Nat)
  /-- the user calls `Produce` of the event producer -/
  | produce (k : Key) (m : Nat) (receivers : List Nat)
deriving Repr, DecidableEq

/-- `ServiceDiscovery` stores the service and calls the handler if it is registered. -/
def Sim.created (user : Key → Nat → Option Nat) (s : Sim) (svc : Service) : Sim × List Out :=
  let s := { s with known := s.known ++ [svc] }
  if s.listening then s.handleCreated user svc else (s, [])

def Sim.removed (s : Sim) (svc : Service) : Sim × List Out :=
  let s := { s with known := s.known.erase svc }
  if s.listening then s.handleRemoved svc else (s, [])

/-- A message on a network is passed to the router that is registered for it, if there is one; a destroyed one is undefined behaviour. -/
def Sim.receive (s : Sim) (k : Key) (participant : String) (id : Nat) (simulated : Bool) (m : Nat) : Res (Sim × List Out) :=
  if k ∈ s.dangling then .ub "use after free"
  else match s.net? k with
    | some n => .ok (s, n.receive participant id simulated m)
    | none => .ok (s, [])

/-- The user can produce events once they have the event producer. -/
def Sim.produce (s : Sim) (k : Key) (m : Nat) (receivers : List Nat) : Sim × List Out :=
  match s.net? k with
  | some n => if n.producer then (s, n.send m receivers) else (s, [])
  | none => (s, [])

def Sim.step (user : Key → Nat → Option Nat) (s : Sim) : Op → Res (Sim × List Out)
  | .simulate k => .ok (s.simulate k)
  | .start => .ok (s.start user)
  | .created svc => .ok (s.created user svc)
  | .removed svc => .ok (s.removed svc)
  | .receive k p i b m => s.receive k p i b m
  | .produce k m rs => .ok (s.produce k m rs)

/-- A history, with everything that is seen. -/
def Sim.run (user : Key → Nat → Option Nat) : List Op → Sim → Res (Sim × List Out)
  | [], s => .ok (s, [])
  | o :: os, s => (s.step user o).bind fun r => (Sim.run user os r.1).bind fun r' => .ok (r'.1, r.2 ++ r'.2)

/-! ## Controllers -/

/-- A controller of a participant: `link` is the participant of the simulated link, if the detailed behaviour is chosen. -/
structure Ctl where
  participant : String
  id : Nat
  net : Key
  link : Option String := none
deriving Repr, DecidableEq

/-- `IsRelevantNetwork`, CanController.cpp:82-87, EthController.cpp:83-88, FlexrayController.cpp:71-76, LinController.cpp:108-112. -/
def Ctl.relevant (c : Ctl) (svc : Service) : Bool := svc.kind = .link && svc.net.name = c.net.name

/-- The discovery handler of a controller, CanController.cpp:31-65 (the others are the same), for a created service. -/
def Ctl.onCreated (c : Ctl) (svc : Service) : Ctl :=
  match c.link with
  | none => if c.relevant svc then { c with link := some svc.participant } else c
  | some _ => c

/-- The same for a removed service. -/
def Ctl.onRemoved (c : Ctl) (svc : Service) : Ctl :=
  match c.link with
  | none => c
  | some _ => if c.relevant svc then { c with link := none } else c

/-- `SimBehaviorDetailed::AllowReception`, SimBehaviorDetailed.cpp:40-48. -/
def Ctl.allows (c : Ctl) (participant : String) (id : Nat) : Bool := c.link = some participant && c.id = id

/-- What becomes of a message the user sends. -/
inductive Sent
  | broadcast
  | routed (simulator : String)
  /-- `SendMsg` throws: the participant is not a receiver -/
  | failed
deriving Repr, DecidableEq

/-- `SimBehavior::SendMsg` with `SimBehaviorDetailed::SendMsgImpl`, SimBehaviorDetailed.cpp:21-38, and `VAsioTransmitter::SendMessageToTarget`, VAsioTransmitter.hpp:139-155;
`receives` tells which participants receive the messages on a network. -/
def Ctl.send (c : Ctl) (receives : String → Key → Bool) : Sent :=
  match c.link with
  | none => .broadcast
  | some s => if receives s c.net then .routed s else .failed

/-! ## Event producers -/

/-- The two values of `CanControllerStatus` (controller state, error state) or `EthernetStatus` (state, bit rate), as numbers; 0 is the initial value. -/
structure Status where
  state : Nat := 0
  error : Nat := 0
deriving Repr, DecidableEq

/-- What the user produces: `CanStateChangeEvent` or `EthernetStateChangeEvent`, and `CanErrorStateChangeEvent` or `EthernetBitrateChangeEvent`. -/
inductive Change
  | state (v : Nat)
  | error (v : Nat)
deriving Repr, DecidableEq

/-- `CanEventProducer::Produce`, CanEventProducer.cpp:29-55, `EthernetEventProducer::Produce`, EthernetEventProducer.cpp:29-55: the member variables
afterwards are the message. -/
def Status.produce (p : Status) : Change → Status
  | .state v => { p with state := v }
  | .error v => { p with error := v }

/-- `ReceiveMsg`, CanController.cpp:215-233, EthController.cpp:226-246 (there the other value comes first): the values of the controller and the notices. -/
def Status.receive (c : Status) (m : Status) : Status × List Change :=
  (m, (if c.state ≠ m.state then [.state m.state] else []) ++ (if c.error ≠ m.error then [.error m.error] else []))

/-- The producer of a network and the controllers by their descriptors. -/
structure Bus where
  producer : Status := {}
  ctls : List (Nat × Status) := []
deriving Repr

def Bus.ctl (b : Bus) (d : Nat) : Status := (get b.ctls d).getD {}

/-- One receiver. -/
def Bus.tell (m : Status) (r : Bus × List (Nat × Change)) (d : Nat) : Bus × List (Nat × Change) :=
  ({ r.1 with ctls := put r.1.ctls d ((r.1.ctl d).receive m).1 }, r.2 ++ ((r.1.ctl d).receive m).2.map (d, ·))

/-- `Produce` for a list of receivers: the notices at the controllers. -/
def Bus.produce (b : Bus) (c : Change) (receivers : List Nat) : Bus × List (Nat × Change) :=
  receivers.foldl (Bus.tell (b.producer.produce c)) ({ b with producer := b.producer.produce c }, [])

/-- A sequence of events. -/
def Bus.run : List (Change × List Nat) → Bus → Bus × List (Nat × Change)
  | [], b => (b, [])
  | (c, rs) :: es, b =>
    let r := b.produce c rs
    let r' := Bus.run es r.1
    (r'.1, r.2 ++ r'.2)

end SilKit.NetSim
