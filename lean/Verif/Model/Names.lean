import Verif.Model.Basic
/-!
# Model of what tells participants and services apart

Sources: `SilKit/source/util/Hash.hpp:25-34`, `core/internal/ServiceDescriptor.hpp:170, 264-306, 347-350`, `core/vasio/VAsioTransmitter.hpp:96-122`,
`core/vasio/SilKitLink.hpp:170-191`, `core/vasio/VAsioConnection.cpp:845-880, 1387-1447`, `services/lin/LinController.cpp:714-726, 872-884`,
`util/StringHelpers.cpp:99-118`, `services/logging/Logger.cpp:333-347`.

Names are given by users; inside, participants are told apart by a number that is computed from the name, services by this number and further fields, or
by a text made of names. A name is a list of bytes.
-/
namespace SilKit.Names

abbrev Name := List Nat

/-- The size of `uint64_t`. -/
def word : Nat := 18446744073709551616

/-- `static_cast<uint64_t>(c)` of a `char`, which is signed. Hash.hpp:31. -/
def ext (c : Nat) : Nat := if c < 128 then c else word - 256 + c

/-- `Hash`, Hash.hpp:25-34. -/
def nameId (n : Name) : Nat := n.foldl (fun h c => (h * 33 + ext c) % word) 5381

/-- `ServiceType`, ServiceDescriptor.hpp:23-30. -/
inductive ServiceType
  | undefined
  | link
  | controller
  | simulatedController
  | internalController
deriving Repr, DecidableEq

/-- `ServiceDescriptor`, ServiceDescriptor.hpp:108-117; of the supplemental data, only the type of the controller. The identifier of the participant is
always the one computed from the name (170). -/
structure Desc where
  participant : Name
  type : ServiceType
  netType : Name
  network : Name
  service : Name
  id : Nat
  controllerType : Option Name
deriving Repr, DecidableEq

/-- `operator==`, ServiceDescriptor.hpp:264-268. -/
def Desc.same (a b : Desc) : Bool := nameId a.participant == nameId b.participant && a.network == b.network && a.type == b.type && a.id == b.id

/-- `to_endpointAddress`, ServiceDescriptor.hpp:347-350. -/
def Desc.address (d : Desc) : Nat × Nat := (nameId d.participant, d.id)

def slash : Nat := 47

def bytes (s : String) : Name := s.toList.map Char.toNat

/-- `to_string(ServiceType)`, ServiceDescriptor.hpp:31-48. -/
def ServiceType.text : ServiceType → Name
  | .undefined => bytes "Undefined"
  | .link => bytes "Link"
  | .controller => bytes "Controller"
  | .simulatedController => bytes "SimulatedController"
  | .internalController => bytes "InternalController"

/-- `to_string`, ServiceDescriptor.hpp:275-306: the key under which the service discovery stores a service (ServiceDiscovery.cpp:54, 144, 189). `none`: throws
`LogicError`. -/
def Desc.key (d : Desc) : Option Name :=
  let common := d.participant ++ slash :: d.type.text
  match d.type with
  | .link => some (common ++ slash :: d.netType ++ slash :: d.network)
  | .controller =>
    match d.controllerType with
    | none => none
    | some t => some (common ++ slash :: t ++ slash :: d.network ++ slash :: d.service)
  | .simulatedController =>
    match d.controllerType with
    | none => none
    | some t => some (common ++ slash :: t ++ slash :: d.network ++ slash :: d.service)
  | .internalController => some (common ++ slash :: d.service)
  | .undefined => some (common ++ slash :: d.network ++ slash :: d.service)

/-! ## The receivers of a link -/

/-- A connection to another participant, and the name the participant has given. -/
structure Peer where
  handle : Nat
  name : Name
deriving Repr, DecidableEq

structure Link where
  /-- `_remoteReceivers`, VAsioTransmitter.hpp:188. -/
  receivers : List Peer := []
  /-- The connections that exist. -/
  alive : List Peer := []
deriving Repr, DecidableEq

inductive Op
  /-- A participant connects. -/
  | connect (p : Peer)
  /-- It subscribes to the messages of this link. -/
  | subscribe (p : Peer)
  /-- It leaves. -/
  | leave (p : Peer)
deriving Repr, DecidableEq

/-- `AddRemoteReceiver`, VAsioTransmitter.hpp:96-109. A participant has one receiver per link, so the index of the receiver is left out. -/
def Link.add (l : Link) (p : Peer) : Link := if l.receivers.contains p then l else { l with receivers := l.receivers ++ [p] }

/-- `RemoveRemoteReceiver`, VAsioTransmitter.hpp:111-122: the first receiver whose participant has the same identifier. -/
def Link.remove (l : Link) (p : Peer) : Link := { l with receivers := l.receivers.eraseP (fun q => nameId q.name == nameId p.name) }

/-- One operation. `RemovePeerFromLinks`, `RemovePeerFromConnection`, VAsioConnection.cpp:1387-1388, 1426-1447. -/
def Link.step (l : Link) : Op → Link
  | .connect p => { l with alive := l.alive ++ [p] }
  | .subscribe p => l.add p
  | .leave p => { l.remove p with alive := l.alive.erase p }

def Link.run (ops : List Op) : Link := ops.foldl Link.step {}

/-- `ReceiveMsg`, VAsioTransmitter.hpp:165-180: the message is sent to all receivers; a connection that does not exist any more is a dangling pointer. -/
def Link.send (l : Link) : Res (List Peer) := if l.receivers.all (fun p => l.alive.contains p) then .ok l.receivers else .ub "dangling peer"

/-! ## The nodes of a LIN network -/

/-- `_linNodes`, kept by address; the vector is sorted, which has no effect here. LinController.cpp:714-726. -/
abbrev Nodes (C : Type) := List ((Nat × Nat) × C)

def Nodes.set {C : Type} (t : Nodes C) (a : Nat × Nat) (c : C) : Nodes C :=
  match t with
  | [] => [(a, c)]
  | x :: t => if x.1 = a then (a, c) :: t else x :: Nodes.set t a c

def Nodes.get {C : Type} (t : Nodes C) (a : Nat × Nat) : Option C := (t.find? (fun x => x.1 = a)).map (·.2)

/-- `ReceiveMsg(WireLinControllerConfig)`, LinController.cpp:872-884: a configuration that seems to be the own one is ignored. -/
def receiveConfig {C : Type} (own : Desc) (t : Nodes C) (m : Desc × C) : Nodes C := if m.1.same own then t else t.set m.1.address m.2

/-! ## The registry -/

inductive Reply
  | handshakeComplete
  | peerReplied
  /-- `std::future_error`: the promise has a value already. It ends the I/O thread. -/
  | throws
deriving Repr, DecidableEq

/-- The end of `ReceiveParticipantAnnouncementReply`, VAsioConnection.cpp:872-880; `REGISTRY_PARTICIPANT_ID` is 0. -/
def onReply (registryDone : Bool) (id : Nat) : Reply :=
  if id = 0 then (if registryDone then .throws else .handshakeComplete) else .peerReplied

/-! ## Names of log files -/

/-- StringHelpers.cpp:105-106. -/
def isSafe (c : Nat) : Bool :=
  (97 ≤ c && c ≤ 122) || (65 ≤ c && c ≤ 90) || (48 ≤ c && c ≤ 57) || c == 95 || c == 45 || c == 46 || c == 126

def hexDigit (d : Nat) : Nat := if d < 10 then 48 + d else 55 + d

/-- `PrintableString`, StringHelpers.cpp:99-118. -/
def printable (n : Name) : Name := n.flatMap (fun c => if isSafe c then [c] else [hexDigit (c / 16), hexDigit (c % 16)])

/-- The name of a log file, Logger.cpp:333-334, 346-347. -/
def logFile (logName participant time extension : Name) : Name := logName ++ 95 :: printable participant ++ 95 :: time ++ extension

end SilKit.Names
