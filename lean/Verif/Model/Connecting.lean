import Verif.Model.Basic
/-!
# Model of the ways in which two participants get connected

Sources: `SilKit/source/core/vasio/ConnectKnownParticipants.cpp:251-478`, `RemoteConnectionManager.cpp:37-94`,
`VAsioConnection.cpp:141-165, 659-691, 742-802, 872-880, 925-1158, 1518-1532, 2145-2279`, `VAsioCapabilities.cpp`.

The participant A has joined and was told about the participant B by the registry R. A tries to connect to B; if that fails it asks B, through the
registry, to connect to A; and if that fails, too, the registry relays all messages. The model has A, B and R, with the queues of messages between them.
Messages about other pairs of participants travel in the same queues; they are left out, since they change nothing here.

Not modelled: the versions of the protocol, names of simulations, the acceptor URIs (see Model/Acceptors.lean, Model/ConnectPeer.lean for the attempts), the
stage of all peers together (see Model/Joining.lean), and how capabilities are written in a string: what is known of B is the set it declared, or that its
string cannot be parsed.
-/
namespace SilKit.Connecting

/-- What a participant declares (`MakeCapabilitiesFromConfiguration`, VAsioConnection.cpp:141-159, from the fields `RegistryAsFallbackProxy` and
`ExperimentalRemoteParticipantConnection` of the configuration). -/
structure Caps where
  proxy : Bool
  request : Bool
deriving Repr, DecidableEq

structure Setup where
  a : Caps
  b : Caps
  r : Caps
  /-- Whether the string of capabilities of B can be parsed by A. -/
  parses : Bool
deriving Repr, DecidableEq

/-- `PeerStage`, ConnectKnownParticipants.hpp:56-71. -/
inductive Stage
  | direct
  | requested
  | remoteConnecting
  | waiting
  | replied
  | failure
deriving Repr, DecidableEq

/-- The ways of a connection: A has connected to B, B has connected to A, or the registry relays. -/
inductive Way
  | direct
  | remote
  | proxy
deriving Repr, DecidableEq

inductive Msg
  /-- `RemoteParticipantConnectRequest` with the status `REQUEST`, `CONNECTING`, `FAILED_TO_CONNECT`, `ANNOUNCEMENT`. -/
  | request
  | connecting
  | failed
  | remoteAnnouncement
  /-- `ParticipantAnnouncement` and the successful `ParticipantAnnouncementReply`; through the registry, inside of a `ProxyMessage`. -/
  | announce
  | reply
deriving Repr, DecidableEq

structure State where
  stage : Stage := .direct
  /-- `_remoteConnectRequestTimer` is running. -/
  armed : Bool := false
  /-- From A to R, from R to B, from B to R, from R to A. -/
  up : List Msg := []
  toB : List Msg := []
  back : List Msg := []
  down : List Msg := []
  /-- On the connection from A to B, if there is one: to B, to A. -/
  directB : List Msg := []
  directA : List Msg := []
  /-- On the connection from B to A, if there is one. -/
  remoteB : List Msg := []
  remoteA : List Msg := []
  /-- The attempts of B to connect to A that have not ended, `RemoteConnectionManager::_connectPeers`. -/
  trying : Nat := 0
  /-- The ways in which B knows A: A has announced itself, `_participantNameToPeer` and `_peers` of B. -/
  peers : List Way := []
  /-- B has crashed. -/
  gone : Bool := false
  /-- The I/O thread of A has ended with an exception. -/
  broken : Bool := false
deriving Repr, DecidableEq

inductive Event
  /-- The attempt of A to connect to B ends. -/
  | directOk
  | directFailed
  /-- The timer of the request expires. -/
  | timer
  /-- The next message in a queue is received. -/
  | up
  | toB
  | back
  | down
  | directB
  | directA
  | remoteB
  | remoteA
  /-- An attempt of B to connect to A ends. -/
  | remoteOk
  | remoteFailed
  | crash
deriving Repr, DecidableEq

inductive Out
  /-- A asks B to connect. -/
  | asked
  /-- A announces itself to B in this way. -/
  | announced (w : Way)
  /-- B has received the announcement, and from now on sends to A in this way. -/
  | joined (w : Way)
  /-- A is connected to B. -/
  | connected
  /-- A gives up. -/
  | gaveUp
  /-- An exception ends the I/O thread of A. -/
  | crashed
deriving Repr, DecidableEq

/-- `TryProxyConnect`, VAsioConnection.cpp:2237-2279, with what follows it, ConnectKnownParticipants.cpp:296-305, 429-437, 454-461. A string that cannot be
parsed throws (2262). -/
def tryProxy (c : Setup) (s : State) : State × List Out :=
  if c.a.proxy = false then ({ s with stage := .failure }, [.gaveUp])
  else if c.parses = false then ({ s with stage := .waiting, broken := true }, [.crashed])
  else if c.b.proxy = false then ({ s with stage := .failure }, [.gaveUp])
  else ({ s with stage := .waiting, up := s.up ++ [.announce] }, [.announced .proxy])

/-- `OnConnectPeerFailure`, ConnectKnownParticipants.cpp:410-438, with `TryRemoteConnectRequest`, VAsioConnection.cpp:2176-2234. -/
def onFailure (c : Setup) (s : State) : State × List Out :=
  if c.a.request && c.parses && c.b.request then ({ s with stage := .requested, armed := true, up := s.up ++ [.request] }, [.asked])
  else tryProxy c s

/-- R receives a message from A: `ReceiveRemoteParticipantConnectRequest_Registry`, VAsioConnection.cpp:966-1043, and the relaying of proxy messages
(1520-1532; see Model/Proxy.lean). -/
def relay (c : Setup) : Msg → Bool
  | .request => c.r.request
  | .connecting => c.r.request
  | .failed => c.r.request
  | .announce => c.r.proxy
  | .reply => c.r.proxy
  | .remoteAnnouncement => false

/-- B receives a message from R: `ReceiveRemoteParticipantConnectRequest_Participant`, VAsioConnection.cpp:966-975, 1054-1077, `StartConnectingTo`,
RemoteConnectionManager.cpp:37-46; `ReceiveParticipantAnnouncement`, VAsioConnection.cpp:742-773, in a proxy message (1520). -/
def atB (c : Setup) (s : State) : Msg → State × List Out
  | .request => if c.b.request then ({ s with trying := s.trying + 1, back := s.back ++ [.connecting] }, []) else (s, [])
  | .announce => if c.b.proxy then ({ s with peers := s.peers ++ [.proxy], back := s.back ++ [.reply] }, [.joined .proxy]) else (s, [])
  | _ => (s, [])

/-- A receives a reply in some way: `HandleEvent`, ConnectKnownParticipants.cpp:323-338. -/
def onReply (s : State) : State × List Out :=
  if s.stage = .waiting then ({ s with stage := .replied }, [.connected]) else (s, [])

/-- A receives a message from R: VAsioConnection.cpp:1079-1131, `HandleEvent`, ConnectKnownParticipants.cpp:268-306, 323-338. -/
def atA (c : Setup) (s : State) : Msg → State × List Out
  | .connecting => if s.stage = .requested then ({ s with stage := .remoteConnecting }, []) else (s, [])
  | .failed => if s.stage = .requested ∨ s.stage = .remoteConnecting then tryProxy c s else (s, [])
  | .reply => if c.a.proxy then onReply s else (s, [])
  | _ => (s, [])

/-- A receives a message on the connection that B has made: VAsioConnection.cpp:1081-1099 (`HandleConnectedPeer` is called whatever the stage is),
`HandleEvent`, ConnectKnownParticipants.cpp:307-338. -/
def atRemoteA (s : State) : Msg → State × List Out
  | .remoteAnnouncement =>
    ({ s with stage := if s.stage = .requested ∨ s.stage = .remoteConnecting then .waiting else s.stage, remoteB := s.remoteB ++ [.announce] },
      [.announced .remote])
  | .reply => onReply s
  | _ => (s, [])

/-- One event; `none` if it is not possible. -/
def step (c : Setup) (s : State) (e : Event) : Option (State × List Out) :=
  match e with
  | .directOk =>
    if s.stage = .direct && !s.broken then some ({ s with stage := .waiting, directB := s.directB ++ [.announce] }, [.announced .direct]) else none
  | .directFailed => if s.stage = .direct && !s.broken then some (onFailure c s) else none
  | .timer =>
    if s.armed && !s.broken then
      if s.stage = .requested then some (tryProxy c { s with armed := false }) else some ({ s with armed := false }, [])
    else none
  | .up =>
    match s.up with
    | [] => none
    | m :: l => some ({ s with up := l, toB := if relay c m then s.toB ++ [m] else s.toB }, [])
  | .toB =>
    match s.toB with
    | [] => none
    | m :: l => if s.gone then none else some (atB c { s with toB := l } m)
  | .back =>
    match s.back with
    | [] => none
    | m :: l => some ({ s with back := l, down := if relay c m then s.down ++ [m] else s.down }, [])
  | .down =>
    match s.down with
    | [] => none
    | m :: l => if s.broken then none else some (atA c { s with down := l } m)
  | .directB =>
    match s.directB with
    | .announce :: l =>
      if s.gone then none
      else some ({ s with directB := l, directA := s.directA ++ [.reply], peers := s.peers ++ [.direct] }, [.joined .direct])
    | _ => none
  | .directA =>
    match s.directA with
    | .reply :: l => if s.broken then none else some (onReply { s with directA := l })
    | _ => none
  | .remoteB =>
    match s.remoteB with
    | .announce :: l =>
      if s.gone then none
      else some ({ s with remoteB := l, remoteA := s.remoteA ++ [.reply], peers := s.peers ++ [.remote] }, [.joined .remote])
    | _ => none
  | .remoteA =>
    match s.remoteA with
    | [] => none
    | m :: l => if s.broken then none else some (atRemoteA { s with remoteA := l } m)
  | .remoteOk =>
    if 0 < s.trying ∧ s.gone = false then
      some ({ s with trying := s.trying - 1, remoteA := s.remoteA ++ [.remoteAnnouncement] }, [])
    else none
  | .remoteFailed => if 0 < s.trying ∧ s.gone = false then some ({ s with trying := s.trying - 1, back := s.back ++ [.failed] }, []) else none
  | .crash => if s.gone then none else some ({ s with gone := true }, [])

/-- A schedule, with what it shows; `none` if some event of it is not possible. -/
def run (c : Setup) : State → List Event → Option (State × List Out)
  | s, [] => some (s, [])
  | s, e :: es =>
    match step c s e with
    | none => none
    | some (s', o) =>
      match run c s' es with
      | none => none
      | some (s'', os) => some (s'', o ++ os)

end SilKit.Connecting
