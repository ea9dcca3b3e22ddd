import Verif.Model.Basic
/-!
# Model of participants that communicate through the registry

Participants that cannot connect to each other use the registry as a proxy. Source: `SilKit/source/core/vasio/VAsioProxyPeer.cpp` and
`VAsioConnection.cpp`. The connections between the registry and the participants are first-in first-out channels (see C02, C04). Participants are known by
their names, which are numbers; all of them are known to the registry from the beginning and have enabled the proxy. Connections that do not use the proxy,
and registry messages that are not about it, are not modelled. A participant is one incarnation: it does not join again under its name.
-/
namespace SilKit.Proxy

/-- What a proxy message carries: nothing (the source has disconnected), a `ParticipantAnnouncement`, its reply, or any other message. The bytes of a message
are never empty, since messages have headers. -/
inductive Payload
  | shutdown | announce | reply | data (n : Nat)
deriving Repr, DecidableEq

/-- `ProxyMessage`, VAsioDatatypes.hpp:125-131. -/
structure Msg where
  src : Nat
  dst : Nat
  payload : Payload
deriving Repr, DecidableEq

/-- What the registry reads from a participant: messages and, at the end, the end of the connection. -/
inductive Up
  | msg (m : Msg) | eof
deriving Repr, DecidableEq

/-- What a participant observes: a message of the peer with this name, or that a peer has disconnected. A peer that has not announced itself has no name. -/
inductive Event
  | received (from_ : Option Nat) (n : Nat)
  | left (name : Option Nat)
deriving Repr, DecidableEq

/-- `VAsioProxyPeer`, the name in its `VAsioPeerInfo`. -/
structure Peer where
  name : Option Nat
deriving Repr, DecidableEq

/-- The parts of `VAsioConnection` of a participant that are used: `_participantNameToPeer`, `_peers` and `_peerToProxyPeers[_registry]`,
VAsioConnection.hpp:500-570. A peer that is destroyed is not in `peers` any more. `sent` are the calls of the user. -/
structure Part where
  table : Nat → Option Nat := fun _ => none
  peers : Nat → Option Peer := fun _ => none
  proxied : List Nat := []
  next : Nat := 0
  connected : Bool := true
  trace : List Event := []
  sent : List (Nat × Nat) := []

/-- The parts of `VAsioConnection` of the registry that are used: `_participantNameToPeer` and `_proxySourceToDestinations`. -/
structure Registry where
  table : Nat → Bool := fun _ => true
  assoc : List (Nat × Nat) := []

/-- All participants, the registry, and the channels from and to the participants. `pairs` says which participants connected to which, `spoke` who has sent
anything to whom; they are only for the statements. -/
structure Net where
  part : Nat → Part := fun _ => {}
  reg : Registry := {}
  up : Nat → List Up := fun _ => []
  down : Nat → List Msg := fun _ => []
  pairs : List (Nat × Nat) := []
  spoke : List (Nat × Nat) := []

def upd {α : Type} (f : Nat → α) (i : Nat) (v : α) : Nat → α := fun j => if j = i then v else f j

/-! ## Participants -/

/-- `AddPeer` for a proxy peer, VAsioConnection.cpp:1329-1347. -/
def addPeer (p : Part) (name : Option Nat) : Part :=
  { p with peers := upd p.peers p.next (some ⟨name⟩), proxied := p.proxied ++ [p.next], next := p.next + 1 }

/-- `AssociateParticipantNameAndPeer`, VAsioConnection.cpp:1161-1167: an entry that exists is kept. -/
def associate (p : Part) (name id : Nat) : Part :=
  { p with table := if p.table name = none then upd p.table name (some id) else p.table }

/-- `OnPeerShutdown` of a proxy peer, VAsioConnection.cpp:1355-1392 with `RemovePeerFromConnection`, 1438-1458: the callbacks are called, the name is removed
and the peer is destroyed. It stays in `_peerToProxyPeers`. A participant has no `_proxySourceToDestinations`. -/
def shutdownPeer (p : Part) (id : Nat) : Res Part :=
  match p.peers id with
  | none => .ub "use of a destroyed peer"
  | some peer =>
    .ok { p with
      trace := p.trace ++ [.left peer.name]
      table := match peer.name with
        | none => p.table
        | some a => upd p.table a none
      peers := upd p.peers id none }

/-- `OnPeerShutdown` of the registry, VAsioConnection.cpp:1355-1392: its proxy peers are shut down first. The order of the `unordered_set` is that of the
insertions in the model. -/
def shutdownPeers (p : Part) : List Nat → Res Part
  | [] => .ok p
  | id :: ids => (shutdownPeer p id).bind fun p' => shutdownPeers p' ids

/-- The peer for a message, VAsioConnection.cpp:1584-1597. -/
def peerFor (p : Part) (src : Nat) : Part × Nat :=
  match p.table src with
  | some id => (p, id)
  | none => (addPeer p none, p.next)

/-- `OnSocketData` for a message from a proxy peer; for an announcement `ReceiveParticipantAnnouncement`, VAsioConnection.cpp:693-771, where the protocol version
and the name of the simulation are those of the participant. -/
def onData (q : Nat) (p : Part) (id : Nat) (m : Msg) : Res (Part × List Msg) :=
  match p.peers id with
  | none => .ub "use of a destroyed peer"
  | some peer =>
    match m.payload with
    | .announce => .ok (associate { p with peers := upd p.peers id (some ⟨some m.src⟩) } m.src id, [⟨q, m.src, .reply⟩])
    | .data n => .ok ({ p with trace := p.trace ++ [.received peer.name n] }, [])
    | _ => .ok (p, [])

/-- `ReceiveProxyMessage` of a participant, VAsioConnection.cpp:1581-1610; `from` is the registry and not the source. The messages that are sent are returned. -/
def receive (q : Nat) (p : Part) (m : Msg) : Res (Part × List Msg) :=
  if m.dst ≠ q then .ok (p, [])
  else if m.payload = .shutdown then (shutdownPeer (peerFor p m.src).1 (peerFor p m.src).2).bind fun p' => .ok (p', [])
  else onData q (peerFor p m.src).1 (peerFor p m.src).2 m

/-! ## The network -/

/-- `VAsioProxyPeer::SendSilKitMsg`, VAsioProxyPeer.cpp:37-54: the message is sent to the registry. -/
def post (n : Net) (a : Nat) (m : Msg) : Net := { n with up := upd n.up a (n.up a ++ [.msg m]), spoke := (a, m.dst) :: n.spoke }

/-- `TryProxyConnect` with `HandleConnectedPeer`, VAsioConnection.cpp:2237-2279, 1142-1158. The registry tells each newcomer the participants that are already
there (C24), so that two participants connect once. -/
def connect (n : Net) (a b : Nat) : Net :=
  if (n.part a).connected = true ∧ a ≠ b ∧ (a, b) ∉ n.pairs ∧ (b, a) ∉ n.pairs then
    let p := n.part a
    { post n a ⟨a, b, .announce⟩ with part := upd n.part a (addPeer (associate p b p.next) (some b)), pairs := (a, b) :: n.pairs }
  else n

/-- A message to a peer. -/
def send (n : Net) (a b k : Nat) : Net :=
  if (n.part a).connected = true ∧ (n.part a).table b ≠ none then
    { post n a ⟨a, b, .data k⟩ with part := upd n.part a { n.part a with sent := (n.part a).sent ++ [(b, k)] } }
  else n

/-- A participant disconnects from the registry. -/
def leave (n : Net) (a : Nat) : Net :=
  if (n.part a).connected = true then
    { n with part := upd n.part a { n.part a with connected := false }, up := upd n.up a (n.up a ++ [.eof]) }
  else n

/-- A participant loses its connection to the registry. -/
def loseRegistry (n : Net) (b : Nat) : Res Net :=
  if (n.part b).connected = true then
    (shutdownPeers (n.part b) (n.part b).proxied).bind fun p =>
      .ok { n with part := upd n.part b { p with proxied := [], connected := false }, up := upd n.up b (n.up b ++ [.eof]) }
  else .ok n

/-- `ReceiveProxyMessage` of the registry, VAsioConnection.cpp:1543-1579. The registry is never a destination. -/
def relay (n : Net) (from_ : Nat) (m : Msg) : Net :=
  if m.src = from_ then
    if n.reg.table m.dst = true then
      { n with down := upd n.down m.dst (n.down m.dst ++ [m]), reg := { n.reg with assoc := if (m.src, m.dst) ∈ n.reg.assoc then n.reg.assoc else n.reg.assoc ++ [(m.src, m.dst)] } }
    else n
  else n

/-- `OnPeerShutdown` of the registry's connection, with `SendProxyPeerShutdownNotification`, VAsioConnection.cpp:1355-1424. -/
def relayEof (n : Net) (a : Nat) : Net :=
  { n with
    down := fun d => if (a, d) ∈ n.reg.assoc ∧ n.reg.table d = true then n.down d ++ [⟨a, d, .shutdown⟩] else n.down d
    reg := { n.reg with table := upd n.reg.table a false } }

/-- The registry reads from a participant. -/
def regStep (n : Net) (a : Nat) : Net :=
  match n.up a with
  | [] => n
  | .msg m :: r => relay { n with up := upd n.up a r } a m
  | .eof :: r => relayEof { n with up := upd n.up a r } a

/-- A participant reads from the registry. -/
def partStep (n : Net) (b : Nat) : Res Net :=
  if (n.part b).connected = true then
    match n.down b with
    | [] => .ok n
    | m :: r => (receive b (n.part b) m).bind fun s =>
        .ok (s.2.foldl (fun n' m' => post n' b m') { n with part := upd n.part b s.1, down := upd n.down b r })
  else .ok n

inductive Op
  | connect (a b : Nat)
  | send (a b k : Nat)
  | leave (a : Nat)
  | loseRegistry (b : Nat)
  | regStep (a : Nat)
  | partStep (b : Nat)
deriving Repr, DecidableEq

def step (n : Net) : Op → Res Net
  | .connect a b => .ok (connect n a b)
  | .send a b k => .ok (send n a b k)
  | .leave a => .ok (leave n a)
  | .loseRegistry b => loseRegistry n b
  | .regStep a => .ok (regStep n a)
  | .partStep b => partStep n b

def run (n : Net) : List Op → Res Net
  | [] => .ok n
  | o :: os => (step n o).bind fun n' => run n' os

end SilKit.Proxy
