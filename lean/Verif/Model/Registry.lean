/-!
# The registry

The registry admits participants, tells them about each other, and relays messages between them:
`SilKit/source/core/vasio/VAsioRegistry.cpp`, and the parts of `SilKit/source/core/vasio/VAsioConnection.cpp` that keep the table of
participant names. Connections (peer objects) are numbers. Protocol versions, acceptor URIs and metrics are left out: an entry of the
message with the known participants consists of the name and the connection of the participant (in the code, of its addresses).
Aggregation and the registry's own proxy peers are left out.
-/
namespace SilKit.Registry

/-- Simulation name and participant name. -/
abbrev Key := String × String

structure State where
  /-- `_peers` with `GetSimulationName()` and `GetInfo().participantName`, both empty at first. -/
  peers : List (Nat × Key) := []
  /-- `VAsioRegistry::_connectedParticipants`. -/
  connected : List (Key × Nat) := []
  /-- `VAsioConnection::_participantNameToPeer`. -/
  names : List (Key × Nat) := []
  /-- `_proxySourceToDestinations`: source, name of the destination. -/
  proxied : List (Key × String) := []
  /-- Undefined behaviour has happened. -/
  dead : Bool := false
deriving Repr, DecidableEq

inductive Event where
  | connect (p : Nat)
  /-- Connection `p` announces a participant. -/
  | announce (p : Nat) (k : Key)
  | disconnect (p : Nat)
  /-- Connection `p` sends a proxy message. -/
  | proxy (p : Nat) (source destination : String)
  /-- Connection `p` asks for the participant `target` to connect to it. -/
  | request (p : Nat) (target : String)
  /-- Connection `p` answers such a request of the participant `origin`. -/
  | answer (p : Nat) (origin : String)
deriving Repr, DecidableEq

inductive Out where
  /-- The message with the known participants is sent to `p`. -/
  | told (p : Nat) (known : List (String × Nat))
  | admitted (p : Nat) (k : Key)
  | rejected (p : Nat) (k : Key)
  /-- The event listener of the registry is told that a participant has disconnected. -/
  | disconnected (k : Key)
  /-- The registry finds that all participants are gone. -/
  | allGone
  | left (p : Nat)
  /-- A proxy message is passed on to connection `q`. -/
  | relayed (q : Nat) (source : Key)
  /-- Connection `q` is told that the participant `source`, to which it is connected by proxy, is gone. -/
  | sourceGone (q : Nat) (source : Key)
  /-- Connection `q` is asked to connect to the participant of connection `origin`. -/
  | requested (q origin : Nat)
  | answered (q : Nat) (target : Key)
  | undeliverable (destination : Key)
  /-- Access to a connection that does not exist any more. -/
  | ub
deriving Repr, DecidableEq

def lookup (l : List (Key × Nat)) (k : Key) : Option Nat := (l.find? (·.1 == k)).map (·.2)

/-- `GetSimulationName()` and `GetInfo()` of a connection. -/
def State.info (s : State) (p : Nat) : Option Key := (s.peers.find? (·.1 == p)).map (·.2)

def State.alive (s : State) (p : Nat) : Bool := s.peers.any (·.1 == p)

/-- `SetInfo` and `SetSimulationName`. -/
def State.setInfo (s : State) (p : Nat) (k : Key) : State :=
  { s with peers := s.peers.map (fun x => if x.1 = p then (p, k) else x) }

/-- The entries of the message with the known participants, `SendKnownParticipants`, VAsioRegistry.cpp:257-286. -/
def knownTo (s : State) (p : Nat) (sim : String) : List (Key × Nat) :=
  s.connected.filter (fun x => x.1.1 == sim && x.2 != p)

/-- `ReceiveParticipantAnnouncement`, VAsioConnection.cpp:693-773, with `VAsioRegistry::OnParticipantAnnouncement`,
VAsioRegistry.cpp:215-255, and `AssociateParticipantNameAndPeer`, VAsioConnection.cpp:1161-1168. The registry accepts every simulation
name (`_allowAnySimulationName`). The addresses of the known participants are taken from their connections. -/
def announce (s : State) (p : Nat) (k : Key) : State × List Out :=
  let s := s.setInfo p k
  if (lookup s.connected k).isSome then (s, [.rejected p k])
  else if (knownTo s p k.1).all (fun x => s.alive x.2) then
    ({ s with connected := s.connected ++ [(k, p)],
              names := if (lookup s.names k).isSome then s.names else s.names ++ [(k, p)] },
     [.told p ((knownTo s p k.1).map (fun x => (x.1.2, x.2))), .admitted p k])
  else ({ s with dead := true }, [.ub])

/-- Sending a message to the connection registered for a name, `FindPeerByName`, VAsioConnection.cpp:1184-1203, and `SendSilKitMsg`. -/
def sendTo (s : State) (k : Key) (msg : Nat → Out) : State × List Out :=
  match lookup s.names k with
  | none => (s, [.undeliverable k])
  | some q => if s.alive q then (s, [msg q]) else ({ s with dead := true }, [.ub])

/-- The connections notified by `SendProxyPeerShutdownNotification`, VAsioConnection.cpp:1394-1424, when a connection with info `k` is lost. -/
def notified (s : State) (k : Key) : List Nat :=
  (s.proxied.filter (·.1 == k)).filterMap (fun x => lookup s.names (k.1, x.2))

/-- `VAsioRegistry::OnPeerShutdown`, VAsioRegistry.cpp:288-336. -/
def registryShutdown (s : State) (p : Nat) (k : Key) : State × List Out :=
  match lookup s.connected k with
  | none => (s, [])
  | some q =>
      if q = p then
        let c := s.connected.filter (fun x => x.1 != k)
        ({ s with connected := c }, if c.isEmpty then [.disconnected k, .allGone] else [.disconnected k])
      else (s, [])

/-- `RemovePeerFromConnection`, VAsioConnection.cpp:1439-1458. -/
def removeFromConnection (s : State) (p : Nat) (k : Key) : State :=
  { s with names := s.names.filter (fun x => x.1 != k), peers := s.peers.filter (fun x => x.1 != p) }

/-- `OnPeerShutdown`, VAsioConnection.cpp:1355-1392. -/
def disconnect (s : State) (p : Nat) (k : Key) : State × List Out :=
  if (notified s k).all s.alive then
    let r := registryShutdown s p k
    (removeFromConnection r.1 p k, (notified s k).map (fun q => .sourceGone q k) ++ r.2 ++ [.left p])
  else ({ s with dead := true }, [.ub])

/-- `ReceiveProxyMessage`, VAsioConnection.cpp:1502-1611; messages for the registry itself are left out. -/
def proxy (s : State) (k : Key) (source destination : String) : State × List Out :=
  if k.2 = source then
    match lookup s.names (k.1, destination) with
    | none => (s, [.undeliverable (k.1, destination)])
    | some q =>
        if s.alive q then
          ({ s with proxied := if (k, destination) ∈ s.proxied then s.proxied else s.proxied ++ [(k, destination)] },
           [.relayed q k])
        else ({ s with dead := true }, [.ub])
  else (s, [])

/-- The registry handles an event. For `request` and `answer` see `ReceiveRemoteParticipantConnectRequest_Registry`,
VAsioConnection.cpp:985-1037. Only existing connections send messages. -/
def on (s : State) (e : Event) : State × List Out :=
  if s.dead then (s, [])
  else match e with
    | .connect p => if s.alive p then (s, []) else ({ s with peers := s.peers ++ [(p, ("", ""))] }, [])
    | .announce p k => if s.alive p then announce s p k else (s, [])
    | .disconnect p => match s.info p with | some k => disconnect s p k | none => (s, [])
    | .proxy p source destination => match s.info p with | some k => proxy s k source destination | none => (s, [])
    | .request p target => match s.info p with | some k => sendTo s (k.1, target) (.requested · p) | none => (s, [])
    | .answer p origin => match s.info p with | some k => sendTo s (k.1, origin) (.answered · k) | none => (s, [])

end SilKit.Registry
