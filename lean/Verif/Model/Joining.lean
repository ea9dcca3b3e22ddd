/-!
# Connecting to the known participants

`SilKit/source/core/vasio/ConnectKnownParticipants.cpp`, with the listener in `SilKit/source/core/vasio/VAsioConnection.cpp:2090-2142`.

The user's thread starts the connection attempts and then runs `UpdateStage`; at the same time the I/O thread handles the events of the
peers and runs `UpdateStage`, too. The model interleaves the two threads at every access to the shared stages. The model begins when the
stage of the manager is `CONNECTING` and the peers have been created (ConnectKnownParticipants.cpp:66-82); before, events are ignored
because no peer is found.
-/
namespace SilKit.Joining

/-- `PeerStage`, ConnectKnownParticipants.hpp:54-69, in this order. -/
inductive PeerStage where
  | invalid | failure | direct | remoteConnectRequested | remoteIsConnecting | waitingForReply | replyReceived
deriving Repr, DecidableEq

def PeerStage.rank : PeerStage → Nat
  | .invalid => 0 | .failure => 1 | .direct => 2 | .remoteConnectRequested => 3 | .remoteIsConnecting => 4
  | .waitingForReply => 5 | .replyReceived => 6

/-- `ConnectStage`, ConnectKnownParticipants.hpp:72-79, without `INVALID`. -/
inductive Stage where
  | connecting | waitingForAllReplies | allRepliesReceived | failure
deriving Repr, DecidableEq

/-- The next step of a thread. -/
inductive Pc where
  | idle
  /-- `StartConnecting`, lines 84-89: the peers still to be started. -/
  | starting (rest : List String)
  /-- `TryProxyConnect` has been called for a peer whose stage is `WAITING_FOR_REPLY` for the moment. -/
  | tryProxy (n : String) (ok : Bool)
  /-- `UpdateStage`, lines 160-227: the tests of the stage, lines 164-172. -/
  | checkStage
  /-- Whether a peer has failed, lines 174-182. -/
  | checkFailed
  /-- Line 184. -/
  | setFailure
  /-- Line 185. -/
  | notifyFailure
  /-- Line 190. -/
  | checkConnecting
  /-- Lines 192-203. -/
  | checkWaiting
  /-- Line 205. -/
  | setWaiting
  /-- Line 206. -/
  | notifyWaiting
  /-- Line 209. -/
  | checkWaitingStage
  /-- Lines 211-222. -/
  | checkReplied
  /-- Line 224. -/
  | setReplied
  /-- Line 225. -/
  | notifySuccess
deriving Repr, DecidableEq

structure State where
  /-- `_peers`, by name. -/
  peers : List (String × PeerStage)
  /-- `_connectStage`. -/
  stage : Stage := .connecting
  user : Pc
  io : Pc := .idle
  /-- Whether `_startWaitingForParticipantHandshakes` and `_allKnownParticipantHandshakesComplete` have been completed. -/
  started : Bool := false
  completed : Bool := false
deriving Repr, DecidableEq

inductive Out where
  /-- A connection attempt to the participant begins. -/
  | attempt (n : String)
  /-- The reply of the participant, in the handshake, has been received. -/
  | replied (n : String)
  /-- All ways to connect to the participant have failed. -/
  | failed (n : String)
  /-- The listener is notified. -/
  | notified (success : Bool)
  /-- The user's thread may go on to wait for replies (`true`), or is told about the failure. -/
  | startWaiting (ok : Bool)
  /-- Connecting to the known participants is reported as successful or as failed. -/
  | result (success : Bool)
deriving Repr, DecidableEq

inductive Event where
  /-- The next step of the user's thread. -/
  | user
  /-- The next step of the I/O thread, when it is busy. -/
  | io
  /-- Otherwise the I/O thread handles one of these: the direct connection is made. -/
  | connected (n : String)
  /-- The direct connection has failed; whether a remote connection can be requested, and whether a proxy can be used. -/
  | connectFailed (n : String) (remote proxy : Bool)
  | timer (n : String) (proxy : Bool)
  | remoteIsConnecting (n : String)
  | remoteFailed (n : String) (proxy : Bool)
  | remoteAnnouncement (n : String)
  | reply (n : String)
deriving Repr, DecidableEq

def State.get (s : State) (n : String) : Option PeerStage := (s.peers.find? (·.1 == n)).map (·.2)

def State.set (s : State) (n : String) (st : PeerStage) : State :=
  { s with peers := s.peers.map (fun x => if x.1 = n then (n, st) else x) }

/-- `OnConnectKnownParticipantsFailure`, VAsioConnection.cpp:2090-2113. A promise that is already completed throws; this is ignored. -/
def onFailure (s : State) : State × List Out :=
  ({ s with started := true, completed := true },
   .notified false :: ((if s.started then [] else [.startWaiting false]) ++ (if s.completed then [] else [.result false])))

/-- `OnConnectKnownParticipantsWaitingForAllReplies`, VAsioConnection.cpp:2115-2127. -/
def onWaiting (s : State) : State × List Out := ({ s with started := true }, if s.started then [] else [.startWaiting true])

/-- `OnConnectKnownParticipantsAllRepliesReceived`, VAsioConnection.cpp:2129-2142. -/
def onSuccess (s : State) : State × List Out :=
  ({ s with completed := true }, .notified true :: (if s.completed then [] else [.result true]))

def anyFailed (s : State) : Bool := s.peers.any (·.2 == .failure)
def allWaiting (s : State) : Bool := s.peers.all (fun x => decide (PeerStage.waitingForReply.rank ≤ x.2.rank))
def allReplied (s : State) : Bool := s.peers.all (fun x => decide (PeerStage.replyReceived.rank ≤ x.2.rank))

/-- One step of a thread: the new state, the next step, the outputs. `HasFailed`, ConnectKnownParticipants.cpp:465-478, is the second
half of `tryProxy`. -/
def step (s : State) : Pc → State × Pc × List Out
  | .idle => (s, .idle, [])
  | .starting [] => (s, .checkStage, [])
  | .starting (n :: rest) => (s.set n .direct, .starting rest, [.attempt n])
  | .tryProxy n ok => if ok then (s, .checkStage, []) else (s.set n .failure, .checkStage, [.failed n])
  | .checkStage => (s, if s.stage = .allRepliesReceived ∨ s.stage = .failure then .idle else .checkFailed, [])
  | .checkFailed => (s, if anyFailed s then .setFailure else .checkConnecting, [])
  | .setFailure => ({ s with stage := .failure }, .notifyFailure, [])
  | .notifyFailure => ((onFailure s).1, .idle, (onFailure s).2)
  | .checkConnecting => (s, if s.stage = .connecting then .checkWaiting else .checkWaitingStage, [])
  | .checkWaiting => (s, if allWaiting s then .setWaiting else .idle, [])
  | .setWaiting => ({ s with stage := .waitingForAllReplies }, .notifyWaiting, [])
  | .notifyWaiting => ((onWaiting s).1, .checkWaitingStage, (onWaiting s).2)
  | .checkWaitingStage => (s, if s.stage = .waitingForAllReplies then .checkReplied else .idle, [])
  | .checkReplied => (s, if allReplied s then .setReplied else .idle, [])
  | .setReplied => ({ s with stage := .allRepliesReceived }, .notifySuccess, [])
  | .notifySuccess => ((onSuccess s).1, .idle, (onSuccess s).2)

/-- The I/O thread, when idle, handles an event: `Peer::HandleEvent`, ConnectKnownParticipants.cpp:262-340, `OnConnectPeerSuccess`, 393-408,
`OnConnectPeerFailure`, 410-438, and `OnTimerExpired`, 441-462. The connection attempt of a peer ends once, while its stage is `DIRECT`. -/
def handle (s : State) : Event → State × Pc × List Out
  | .connected n => if s.get n = some .direct then (s.set n .waitingForReply, .checkStage, []) else (s, .idle, [])
  | .connectFailed n remote proxy =>
      if s.get n = some .direct then
        if remote then (s.set n .remoteConnectRequested, .checkStage, [])
        else (s.set n .waitingForReply, .tryProxy n proxy, [])
      else (s, .idle, [])
  | .timer n proxy =>
      if s.get n = some .remoteConnectRequested then (s.set n .waitingForReply, .tryProxy n proxy, []) else (s, .idle, [])
  | .remoteIsConnecting n =>
      if s.get n = some .remoteConnectRequested then (s.set n .remoteIsConnecting, .checkStage, []) else (s, .idle, [])
  | .remoteFailed n proxy =>
      if s.get n = some .remoteConnectRequested ∨ s.get n = some .remoteIsConnecting then
        (s.set n .waitingForReply, .tryProxy n proxy, [])
      else (s, .idle, [])
  | .remoteAnnouncement n =>
      if s.get n = some .remoteConnectRequested ∨ s.get n = some .remoteIsConnecting then
        (s.set n .waitingForReply, .checkStage, [])
      else (s, .idle, [])
  | .reply n => if s.get n = some .waitingForReply then (s.set n .replyReceived, .checkStage, [.replied n]) else (s, .idle, [])
  | .user | .io => (s, .idle, [])

def on (s : State) (e : Event) : State × List Out :=
  match e with
  | .user => let r := step s s.user; ({ r.1 with user := r.2.1 }, r.2.2)
  | .io => let r := step s s.io; ({ r.1 with io := r.2.1 }, r.2.2)
  | e => if s.io = .idle then let r := handle s e; ({ r.1 with io := r.2.1 }, r.2.2) else (s, [])

/-- `StartConnecting`, ConnectKnownParticipants.cpp:61-92, at line 84: one peer per name. -/
def init (known : List String) : State :=
  { peers := known.eraseDups.map (fun n => (n, .invalid)), user := .starting known.eraseDups }

end SilKit.Joining
