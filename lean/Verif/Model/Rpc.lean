import Verif.Model.Basic
/-!
# Remote procedure calls

`RpcClient`, `RpcServer` and `RpcServerInternal` (services/rpc), and any number of clients and servers that exchange calls and responses.

Simplifications:
* The identifier of a call, `Uuid::GenerateRandom`, is part of the input of `call`, as is the time `_timeProvider->Now()`. The theorems assume that
  identifiers do not repeat.
* Log messages are left out.
* A handler set by the user does not throw. What it does to the client or the server is given as further inputs: between `hear` and `done` for the
  client, and in `take` for the server.
-/
namespace SilKit.Rpc

abbrev Uuid := Nat
/-- The user context, an opaque pointer. -/
abbrev Ctx := Nat
abbrev Data := List UInt8

/-- `FunctionCall`, wire/rpc/WireRpcMessages.hpp:25-30. -/
structure Call where
  now : Int
  uuid : Uuid
  data : Data
deriving Repr, DecidableEq

/-- `FunctionCallResponse::Status`, wire/rpc/WireRpcMessages.hpp:38-42; `other` is any other value of the number received. -/
inductive Status
  | success
  | internalError
  | other
deriving Repr, DecidableEq

/-- `FunctionCallResponse`, wire/rpc/WireRpcMessages.hpp:36-48. -/
structure Response where
  now : Int
  uuid : Uuid
  data : Data
  status : Status
deriving Repr, DecidableEq

/-- `RpcCallStatus`, include/silkit/services/rpc/RpcDatatypes.hpp:23-36. -/
inductive CallStatus
  | success
  | serverNotReachable
  | undefinedError
  | internalServerError
  | timeout
deriving Repr, DecidableEq

/-- `RpcCallResultEvent`, include/silkit/services/rpc/RpcDatatypes.hpp:53-63. -/
structure Result where
  now : Int
  ctx : Ctx
  status : CallStatus
  data : Data
deriving Repr, DecidableEq

/-- `ToRpcCallStatus`, services/rpc/RpcClient.cpp:20-31. -/
def toCallStatus : Status → CallStatus
  | .success => .success
  | .internalError => .internalServerError
  | .other => .undefinedError

/-! ## The client -/

/-- `RpcClient::RpcCallInfo`, services/rpc/RpcClient.hpp:64-86. -/
structure Info where
  left : Int
  ctx : Ctx
deriving Repr, DecidableEq

/-- The members of `RpcClient`, services/rpc/RpcClient.hpp:88-114. -/
structure Client where
  /-- `_numCounterparts`, a `uint32_t`. -/
  known : Nat := 0
  /-- Whether `_handler` is set. -/
  handler : Bool := true
  /-- `_activeCalls`; the order does not matter. -/
  active : List (Uuid × Info) := []
  /-- `_timeoutEntries`. -/
  timeouts : List (Int × Uuid) := []
  /-- The iterator `it` of `ReceiveMessage`, if it is being executed and has called the handler. -/
  cur : Option Uuid := none
  /-- Undefined behaviour: the client does nothing that could be relied on. -/
  ub : Bool := false
deriving Repr, DecidableEq

inductive In
  /-- An internal server for this client appears, or disappears. -/
  | found
  | lost
  | setHandler (b : Bool)
  /-- `Call` or `CallWithTimeout`. -/
  | call (now : Int) (u : Uuid) (ctx : Ctx) (data : Data) (timeout : Option Int)
  /-- A response is received: `ReceiveMessage` up to the end of the handler. -/
  | hear (m : Response)
  /-- The rest of `ReceiveMessage`. -/
  | done
  /-- `TimeHandler`. -/
  | tick (now : Int) (d : Nat)
deriving Repr, DecidableEq

inductive Out
  /-- The handler is called. -/
  | result (r : Result)
  | sent (m : Call)
  | ub
deriving Repr, DecidableEq

/-- The conversion of `uint32_t` to `int32_t`, services/rpc/RpcClient.cpp:153. -/
def toInt32 (n : Nat) : Int := if n < 2 ^ 31 then n else (n : Int) - 2 ^ 32

/-- `_activeCalls.find`. -/
def lookup (l : List (Uuid × Info)) (u : Uuid) : Option Info := (l.find? fun e => e.1 == u).map (·.2)

/-- `_activeCalls.erase`. -/
def erase (l : List (Uuid × Info)) (u : Uuid) : List (Uuid × Info) := l.filter fun e => e.1 != u

/-- `_activeCalls.emplace`: nothing happens if there is an entry. -/
def emplace (l : List (Uuid × Info)) (u : Uuid) (i : Info) : List (Uuid × Info) := if (lookup l u).isSome then l else (u, i) :: l

def decEntry (u : Uuid) (e : Uuid × Info) : Uuid × Info := if e.1 = u then (e.1, { e.2 with left := e.2.left - 1 }) else e

/-- `it->second.DecrementRemainingReturnCount()`. -/
def decr (l : List (Uuid × Info)) (u : Uuid) : List (Uuid × Info) := l.map (decEntry u)

/-- `RpcClient::TriggerCall`, services/rpc/RpcClient.cpp:134-177. That the time handler is registered with the first call that has a timeout makes no
difference: without entries it does nothing. -/
def Client.call (c : Client) (now : Int) (u : Uuid) (ctx : Ctx) (data : Data) (timeout : Option Int) : Client × List Out :=
  if c.known = 0 then (c, if c.handler then [.result ⟨now, ctx, .serverNotReachable, []⟩] else [])
  else
    ({ c with active := emplace c.active u ⟨toInt32 c.known, ctx⟩
              timeouts := match timeout with | some t => c.timeouts ++ [(t, u)] | none => c.timeouts },
     [.sent ⟨now, u, data⟩])

/-- `RpcClient::ReceiveMessage`, services/rpc/RpcClient.cpp:189-212. -/
def Client.hear (c : Client) (m : Response) : Client × List Out :=
  match lookup c.active m.uuid with
  | none => (c, [])
  | some i => ({ c with cur := some m.uuid }, if c.handler then [.result ⟨m.now, i.ctx, toCallStatus m.status, m.data⟩] else [])

/-- `RpcClient::ReceiveMessage`, services/rpc/RpcClient.cpp:214-220: if the entry is gone, the iterator dangles. -/
def Client.done (c : Client) : Client × List Out :=
  match c.cur with
  | none => (c, [])
  | some u =>
      match lookup c.active u with
      | none => ({ c with ub := true }, [.ub])
      | some i =>
          if i.left - 1 ≤ 0 then ({ c with cur := none, active := erase c.active u }, [])
          else ({ c with cur := none, active := decr c.active u }, [])

/-- The body of the second loop of `TimeHandler`, services/rpc/RpcClient.cpp:114-129. The user context is read before the iterator is compared with
`end()`. The handler is called without being checked. -/
def expire (now : Int) (r : Client × List Out) (u : Uuid) : Client × List Out :=
  if r.1.ub then r
  else
    match lookup r.1.active u with
    | none => ({ r.1 with ub := true }, r.2 ++ [.ub])
    | some i =>
        if r.1.handler then ({ r.1 with active := erase r.1.active u }, r.2 ++ [.result ⟨now, i.ctx, .timeout, []⟩])
        else ({ r.1 with active := erase r.1.active u, ub := true }, r.2 ++ [.ub])

def shorten (d : Nat) (e : Int × Uuid) : Int × Uuid := (e.1 - d, e.2)

/-- `RpcClient::TimeHandler`, services/rpc/RpcClient.cpp:91-131. (Calling an empty `std::function` throws; as this happens in the handler of a message
or on the thread of the timer, it is counted as undefined.) -/
def Client.tick (c : Client) (now : Int) (d : Nat) : Client × List Out :=
  (((c.timeouts.map (shorten d)).filter fun e => decide (e.1 ≤ 0)).map (·.2)).foldl (expire now)
    ({ c with timeouts := (c.timeouts.map (shorten d)).filter fun e => !decide (e.1 ≤ 0) }, [])

/-- What can happen to a client. `found` and `lost`: services/rpc/RpcClient.cpp:57-73; `setHandler`: 179-182. -/
def Client.step (c : Client) (x : In) : Client × List Out :=
  if c.ub then (c, [])
  else
    match x with
    | .found => ({ c with known := (c.known + 1) % 2 ^ 32 }, [])
    | .lost => ({ c with known := (c.known + (2 ^ 32 - 1)) % 2 ^ 32 }, [])
    | .setHandler b => ({ c with handler := b }, [])
    | .call now u ctx data timeout => c.call now u ctx data timeout
    | .hear m => c.hear m
    | .done => c.done
    | .tick now d => c.tick now d

/-! ## The server -/

/-- The members of `RpcServerInternal`, services/rpc/RpcServerInternal.hpp:53-63. -/
structure Inner where
  handler : Bool
  /-- Whether it is in `_internalRpcServers` of its server. -/
  enrolled : Bool := false
  /-- `_activeCalls`. -/
  active : List Uuid := []
deriving Repr, DecidableEq

/-- The members of `RpcServer`; the internal servers by the client they are for, services/rpc/RpcServer.hpp:51-60. -/
structure Server where
  handler : Bool := true
  inner : List (Nat × Inner) := []
  ub : Bool := false
deriving Repr, DecidableEq

inductive SOut
  /-- The call handler is called with a call of client `i`. -/
  | called (i : Nat) (u : Uuid) (data : Data)
  /-- A response is sent on the network of client `i`. -/
  | answer (i : Nat) (m : Response)
  /-- `SubmitResult` throws a `StateError`. -/
  | stateError
  | ub
deriving Repr, DecidableEq

/-- The client for which there is an internal server. -/
def Server.has (s : Server) (i : Nat) : Bool := s.inner.any fun e => e.1 == i

def modEntry (i : Nat) (f : Inner → Inner) (e : Nat × Inner) : Nat × Inner := if e.1 = i then (e.1, f e.2) else e

def Server.modify (s : Server) (i : Nat) (f : Inner → Inner) : Server := { s with inner := s.inner.map (modEntry i f) }

def Server.get (s : Server) (i : Nat) : Option Inner := (s.inner.find? fun e => e.1 == i).map (·.2)

/-- `RpcServer` discovers a client that it matches, services/rpc/RpcServer.cpp:31-57, and creates the internal server,
services/rpc/RpcServer.cpp:98-102 and Participant_impl.hpp:625-654. Matching is the subject of `Model/PubSubMatching.lean`. -/
def Server.meet (s : Server) (i : Nat) : Server :=
  if s.has i then s else { s with inner := s.inner ++ [(i, { handler := s.handler })] }

/-- `_internalRpcServers.emplace`, services/rpc/RpcServer.cpp:104-105. -/
def Server.enroll (s : Server) (i : Nat) : Server := s.modify i fun n => { n with enrolled := true }

def setEntry (b : Bool) (e : Nat × Inner) : Nat × Inner := if e.2.enrolled then (e.1, { e.2 with handler := b }) else e

/-- `RpcServer::SetCallHandler`, services/rpc/RpcServer.cpp:108-117. -/
def Server.setHandler (s : Server) (b : Bool) : Server := { s with handler := b, inner := s.inner.map (setEntry b) }

/-- `RpcServerInternal::SubmitResult` for an internal server in the map, services/rpc/RpcServerInternal.cpp:74-92: the entry afterwards. -/
def submitEntry (u : Uuid) (e : Nat × Inner) : Nat × Inner :=
  if e.2.enrolled ∧ u ∈ e.2.active then (e.1, { e.2 with active := e.2.active.filter (· != u) }) else e

/-- The response that it sends. -/
def submitAnswer (now : Int) (u : Uuid) (data : Data) (e : Nat × Inner) : Option SOut :=
  if e.2.enrolled ∧ u ∈ e.2.active then some (.answer e.1 ⟨now, u, data, .success⟩) else none

/-- `RpcServer::SubmitResult` with the handle of a call that is alive, services/rpc/RpcServer.cpp:69-96. -/
def Server.submitAlive (s : Server) (now : Int) (u : Uuid) (data : Data) : Server × List SOut :=
  ({ s with inner := s.inner.map (submitEntry u) },
   s.inner.filterMap (submitAnswer now u data) ++ if (s.inner.filterMap (submitAnswer now u data)).length ≠ 1 then [.stateError] else [])

/-- Whether a handle exists: the internal server that got the call keeps it until the result is submitted, services/rpc/RpcServerInternal.cpp:53-91. -/
def Server.alive (s : Server) (u : Uuid) : Bool := s.inner.any fun e => decide (u ∈ e.2.active)

/-- `RpcServer::SubmitResult` outside of the call handler: the pointer to the handle dangles once the result has been submitted. -/
def Server.submit (s : Server) (now : Int) (u : Uuid) (data : Data) : Server × List SOut :=
  if s.ub then (s, [])
  else if s.alive u then s.submitAlive now u data else ({ s with ub := true }, [.ub])

def inlineStep (now : Int) (u : Uuid) (r : Server × List SOut) (data : Data) : Server × List SOut :=
  ((r.1.submitAlive now u data).1, r.2 ++ (r.1.submitAlive now u data).2)

/-- `RpcServerInternal::ReceiveMessage`, services/rpc/RpcServerInternal.cpp:37-72; the call handler submits the results `inline`. The local copy of the
handle keeps it alive during the call of the handler. -/
def Server.take (s : Server) (i : Nat) (now : Int) (m : Call) (inline : List Data) : Server × List SOut :=
  if s.ub then (s, [])
  else
    match s.get i with
    | none => (s, [])
    | some n =>
        if !n.handler then (s, [.answer i ⟨now, m.uuid, [], .internalError⟩])
        else if m.uuid ∈ n.active then (s, [.answer i ⟨now, m.uuid, [], .internalError⟩])
        else
          inline.foldl (inlineStep now m.uuid)
            (s.modify i fun n => { n with active := n.active ++ [m.uuid] }, [.called i m.uuid m.data])

/-! ## Clients and servers

Clients and servers are numbered. Each client has a network of its own (Participant_impl.hpp:661-662), so that its calls reach exactly the internal
servers made for it, and responses of these reach no other client. A channel delivers in order what is sent. -/

structure Net where
  clients : Nat → Client := fun _ => {}
  servers : Nat → Server := fun _ => {}
  /-- The participant of client `i` knows that server `j` receives the calls of the client: `SilKitLink` sends to it. -/
  opened : Nat → Nat → Bool := fun _ _ => false
  /-- Client `i` has discovered the internal server of `j`. -/
  found : Nat → Nat → Bool := fun _ _ => false
  calls : Nat → Nat → List Call := fun _ _ => []
  resps : Nat → Nat → List Response := fun _ _ => []

inductive Act
  /-- Something happens to client `i` that involves no message: a call, the time, or the rest of the handling of a message. -/
  | client (i : Nat) (x : In)
  | meet (i j : Nat)
  | enroll (i j : Nat)
  /-- The subscription of the internal server of `j` reaches the participant of client `i`. -/
  | «open» (i j : Nat)
  /-- The announcement of the internal server of `j` reaches client `i`. -/
  | find (i j : Nat)
  /-- The connection between the participants of client `i` and server `j` ends, and the client learns it. -/
  | part (i j : Nat)
  | setHandler (j : Nat) (b : Bool)
  /-- Server `j` receives the next call of client `i`. -/
  | take (i j : Nat) (now : Int) (inline : List Data)
  | submit (j : Nat) (now : Int) (u : Uuid) (data : Data)
  /-- Client `i` receives the next response of server `j`. -/
  | hear (i j : Nat)
deriving Repr, DecidableEq

inductive Ev
  /-- Something happens to client `i`. -/
  | input (i : Nat) (x : In)
  | client (i : Nat) (o : Out)
  | server (j : Nat) (o : SOut)
  /-- A response of server `j` reaches client `i`. -/
  | heard (i j : Nat) (m : Response)
deriving Repr, DecidableEq

def upd {α : Type} (f : Nat → α) (i : Nat) (x : α) : Nat → α := fun i' => if i' = i then x else f i'

def upd2 {α : Type} (f : Nat → Nat → α) (i j : Nat) (x : α) : Nat → Nat → α := fun i' j' => if i' = i ∧ j' = j then x else f i' j'

def sentCall : Out → Option Call
  | .sent m => some m
  | _ => none

def answered (i : Nat) : SOut → Option Response
  | .answer i' m => if i' = i then some m else none
  | _ => none

/-- The client makes a step, and what it sends goes to all servers its participant knows: SilKitLink.hpp:133-165. -/
def Net.onClient (n : Net) (i : Nat) (x : In) : Net × List Ev :=
  ({ n with
      clients := upd n.clients i ((n.clients i).step x).1
      calls := fun i' j => if i' = i ∧ n.opened i j then n.calls i' j ++ ((n.clients i).step x).2.filterMap sentCall else n.calls i' j },
   .input i x :: ((n.clients i).step x).2.map (.client i))

/-- The server has made a step, and what it sends goes to the clients. -/
def Net.onServer (n : Net) (j : Nat) (r : Server × List SOut) : Net × List Ev :=
  ({ n with
      servers := upd n.servers j r.1
      resps := fun i j' => if j' = j then n.resps i j' ++ r.2.filterMap (answered i) else n.resps i j' },
   r.2.map (.server j))

/-- Inputs of clients that come without a message. -/
def In.isLocal : In → Bool
  | .found | .lost | .hear _ => false
  | _ => true

def Net.step (n : Net) : Act → Net × List Ev
  | .client i x => if x.isLocal then n.onClient i x else (n, [])
  | .meet i j => n.onServer j ((n.servers j).meet i, [])
  | .enroll i j => n.onServer j ((n.servers j).enroll i, [])
  | .open i j => if (n.servers j).has i then ({ n with opened := upd2 n.opened i j true }, []) else (n, [])
  | .find i j =>
      -- the subscription has been sent before the announcement, Participant_impl.hpp:1708-1719
      if n.opened i j ∧ n.found i j = false then Net.onClient { n with found := upd2 n.found i j true } i .found else (n, [])
  | .part i j =>
      if n.found i j then
        Net.onClient { n with opened := upd2 n.opened i j false, found := upd2 n.found i j false
                              calls := upd2 n.calls i j [], resps := upd2 n.resps i j [] } i .lost
      else (n, [])
  | .setHandler j b => n.onServer j ((n.servers j).setHandler b, [])
  | .take i j now inline =>
      match n.calls i j with
      | [] => (n, [])
      | m :: rest => Net.onServer { n with calls := upd2 n.calls i j rest } j ((n.servers j).take i now m inline)
  | .submit j now u data => n.onServer j ((n.servers j).submit now u data)
  | .hear i j =>
      match n.resps i j with
      | [] => (n, [])
      | m :: rest =>
          (((Net.onClient { n with resps := upd2 n.resps i j rest } i (.hear m)).1),
           .heard i j m :: (Net.onClient { n with resps := upd2 n.resps i j rest } i (.hear m)).2)

end SilKit.Rpc
