/-!
# The replies barrier

`CallAfterAllParticipantsReplied`: a participant makes sure that all others have processed what it sent before.
`SilKit/source/core/requests/RequestReplyService.cpp` and `SilKit/source/core/requests/procs/ParticipantReplies.cpp`.
-/
namespace SilKit.Barrier

/-- `ParticipantReplies` and `RequestReplyService` of one participant. Completion functions are represented by numbers, UUIDs (random in
the code, assumed unique) too. Of the initiators (`_requestReplyInitiatorByCallUuid`) nothing is stored: the reply to a call is sent
while the call is being received. -/
structure Node where
  /-- `_barrierActive`. -/
  active : Bool := false
  /-- `_expectedParticipantsToSendCallReturns`. -/
  expected : List String := []
  /-- `_completionFunction`. -/
  completion : Nat := 0
  /-- `_activeUuid`. -/
  uuid : Nat := 0
  /-- `_participantDisconnectCallReturns`: the UUIDs prepared for each participant, `[]` if there is no entry. -/
  prepared : String → List Nat := fun _ => []

/-- `ParticipantReplies::ReceiveCallReturn`, ParticipantReplies.cpp:77-98. The second component is the completion function
called, if any. -/
def Node.callReturn (n : Node) (sender : String) (uuid : Nat) : Node × Option Nat :=
  if n.active && uuid == n.uuid then
    let n := { n with expected := n.expected.filter (· ≠ sender) }
    if n.expected.isEmpty then ({ n with active := false }, some n.completion) else (n, none)
  else (n, none)

/-- `RequestReplyService::RemovePartcipantFromDisconnectLookup`, RequestReplyService.cpp:118-136. Line 125 copies the inner map, so
the UUID is erased from a copy, and the whole entry only if that copy is empty afterwards. -/
def Node.unprepare (n : Node) (sender : String) (uuid : Nat) : Node :=
  if (n.prepared sender).filter (· ≠ uuid) = [] then
    { n with prepared := fun q => if q = sender then [] else n.prepared q }
  else n

/-- `RequestReplyService::ReceiveMsg(RequestReplyCallReturn)`, RequestReplyService.cpp:109-114. -/
def Node.receiveReturn (n : Node) (sender : String) (uuid : Nat) : Node × Option Nat :=
  (n.unprepare sender uuid).callReturn sender uuid

/-- The loop of `RequestReplyService::OnParticpantRemoval`, RequestReplyService.cpp:147-150. -/
def Node.returnAll (n : Node) (gone : String) : List Nat → Node × List Nat
  | [] => (n, [])
  | u :: rest =>
    let r := n.callReturn gone u
    let r' := r.1.returnAll gone rest
    (r'.1, r.2.toList ++ r'.2)

/-- `RequestReplyService::OnParticpantRemoval`, RequestReplyService.cpp:140-154. -/
def Node.onRemoval (n : Node) (gone : String) : Node × List Nat :=
  let r := n.returnAll gone (n.prepared gone)
  ({ r.1 with prepared := fun q => if q = gone then [] else r.1.prepared q }, r.2)

/-- `RequestReplyService::Call` without the sending of the message, RequestReplyService.cpp:34-60, and
ParticipantReplies.cpp:57-59. -/
def Node.call (n : Node) (receivers : List String) (k uuid : Nat) : Node :=
  { n with active := true, expected := receivers, completion := k, uuid := uuid
           prepared := fun q => if q ∈ receivers then n.prepared q ++ [uuid] else n.prepared q }

/-- What travels over the connection between two participants. -/
inductive Msg where
  /-- Any other message, identified by a number. -/
  | data (n : Nat)
  | call (uuid : Nat)
  | reply (uuid : Nat)
deriving Repr, DecidableEq

/-- What can be observed. -/
inductive Out where
  | connected (p q : String)
  /-- `p` notices that the connection to `q` is gone. -/
  | lost (p q : String)
  | sent (p q : String) (n : Nat)
  | processed (q p : String) (n : Nat)
  | started (p : String) (k : Nat)
  /-- The request is dropped because a barrier is active. -/
  | refused (p : String) (k : Nat)
  | completed (p : String) (k : Nat)
deriving Repr, DecidableEq

/-- All participants and the connections between them. -/
structure Net where
  node : String → Node := fun _ => {}
  /-- The participants a participant is connected to (the remote receivers of its calls). -/
  peers : String → List String := fun _ => []
  /-- Bytes sent and not yet processed, in order (the TCP stream of a connection, C02, C04). -/
  chan : String → String → List Msg := fun _ _ => []
  nextUuid : Nat := 0
  nextData : Nat := 0

inductive Event where
  /-- The two participants connect. -/
  | connect (p q : String)
  /-- `p` loses or closes its connection to `q`; `q` notices on its own. -/
  | lose (p q : String)
  /-- `p` sends a message to everybody it is connected to. -/
  | send (p : String)
  /-- `p`'s I/O thread executes a `CallAfterAllParticipantsReplied`. -/
  | request (p : String) (k : Nat)
  /-- `q` processes the next message from `p`. -/
  | deliver (p q : String)
deriving Repr, DecidableEq

def setNode (n : Net) (p : String) (x : Node) : Net := { n with node := fun r => if r = p then x else n.node r }

def setChan (n : Net) (p q : String) (c : List Msg) : Net :=
  { n with chan := fun a b => if a = p ∧ b = q then c else n.chan a b }

/-- Send a message to all peers. -/
def broadcast (n : Net) (p : String) (m : Msg) : Net :=
  { n with chan := fun a b => if a = p ∧ b ∈ n.peers p then n.chan a b ++ [m] else n.chan a b }

/-- Both sides register the peer, and the streams start empty. -/
def connect (n : Net) (p q : String) : Net × List Out :=
  if p = q ∨ q ∈ n.peers p ∨ p ∈ n.peers q then (n, [])
  else
    ({ n with peers := fun r => if r = p then q :: n.peers p else if r = q then p :: n.peers q else n.peers r
              chan := fun a b => if (a = p ∧ b = q) ∨ (a = q ∧ b = p) then [] else n.chan a b },
     [.connected p q, .connected q p])

/-- Participant_impl.hpp:967-968: the peer shutdown callback. What has not been read is lost. -/
def lose (n : Net) (p q : String) : Net × List Out :=
  if q ∈ n.peers p then
    let r := (n.node p).onRemoval q
    ({ setChan (setNode n p r.1) q p [] with peers := fun x => if x = p then (n.peers p).filter (· ≠ q) else n.peers x },
     .lost p q :: r.2.map (Out.completed p))
  else (n, [])

/-- `ParticipantReplies::CallAfterAllParticipantsReplied`, the deferred function, ParticipantReplies.cpp:26-61. -/
def request (n : Net) (p : String) (k : Nat) : Net × List Out :=
  if (n.node p).active then (n, [.refused p k])
  else if n.peers p = [] then
    (setNode n p { n.node p with expected := [] }, [.started p k, .completed p k])
  else
    ({ broadcast (setNode n p ((n.node p).call (n.peers p) k n.nextUuid)) p (.call n.nextUuid) with nextUuid := n.nextUuid + 1 },
     [.started p k])

def send (n : Net) (p : String) : Net × List Out :=
  ({ broadcast n p (.data n.nextData) with nextData := n.nextData + 1 }, (n.peers p).map (fun q => .sent p q n.nextData))

/-- `q` processes a message from `p`. A call is answered at once: `RequestReplyService::ReceiveMsg(RequestReplyCall)`,
RequestReplyService.cpp:97-107, `ParticipantReplies::ReceiveCall`, ParticipantReplies.cpp:70-75, and `SubmitCallReturn`,
RequestReplyService.cpp:71-92. -/
def process (n : Net) (p q : String) : Msg → Net × List Out
  | .data d => (n, [.processed q p d])
  | .call u => (setChan n q p (n.chan q p ++ [.reply u]), [])
  | .reply u =>
    let r := (n.node q).receiveReturn p u
    (setNode n q r.1, r.2.toList.map (Out.completed q))

def deliver (n : Net) (p q : String) : Net × List Out :=
  if p ∈ n.peers q then
    match n.chan p q with
    | [] => (n, [])
    | m :: rest => process (setChan n p q rest) p q m
  else (n, [])

def on (n : Net) : Event → Net × List Out
  | .connect p q => connect n p q
  | .lose p q => lose n p q
  | .send p => send n p
  | .request p k => request n p k
  | .deliver p q => deliver n p q

end SilKit.Barrier
