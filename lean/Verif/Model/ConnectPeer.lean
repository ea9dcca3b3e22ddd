import Verif.Model.Uri
/-!
# Connecting to a peer (core/vasio/ConnectPeer.cpp)

`TryNextUri` calls itself through `IIoContext::Dispatch`, which runs the function at once on the I/O thread (asio::dispatch), and through
`OnAsyncConnectFailure`, which a connector can call from within `AsyncConnect` (io/impl/AsioConnector.hpp:154-160). The calls that are still to be made
are a stack of tasks. Exceptions of the listener and `Shutdown` are not modelled.
-/
namespace SilKit.ConnectPeer
open SilKit.Uri

/-- `IsIp4`, ConnectPeer.cpp:80-83. -/
def isIp4 (a : Str) : Bool := a.contains '.' && !a.contains ':'

/-- `IsIp6`, ConnectPeer.cpp:85-88. -/
def isIp6 (a : Str) : Bool := !a.contains '.' && a.contains ':'

/-- ConnectPeer.cpp:107-117. -/
def bracket (a : Str) : Str :=
  if isIp6 a then
    (if (if a.head? = some '[' then a else '[' :: a).getLast? = some ']' then (if a.head? = some '[' then a else '[' :: a)
     else (if a.head? = some '[' then a else '[' :: a) ++ [']'])
  else a

/-- The loop over the addresses, ConnectPeer.cpp:105-121: those before the first one for which `MakeTcp` throws. -/
def tcpUris (port : Nat) : List Str → List Uri
  | [] => []
  | a :: rest =>
      match makeTcp (bracket a) port with
      | none => []
      | some u => u :: tcpUris port rest

/-- What becomes of one acceptor URI, ConnectPeer.cpp:97-139. `resolve` is `IIoContext::Resolve`, `none` if it throws. -/
def expand (resolve : Str → Option (List Str)) (s : Str) : List Uri :=
  match parse s with
  | none => []
  | some u =>
      if u.kind = .tcp then
        match resolve u.host with
        | none => []
        | some as => tcpUris u.portOf as
      else [u]

/-- `ComputePenalty`, ConnectPeer.cpp:143-162. -/
def penalty (u : Uri) : Nat :=
  match u.kind with
  | .local => 100
  | .tcp => if isIp4 u.host then 200 else if isIp6 u.host then 300 else 400
  | _ => 500

/-- `UpdateUris`, ConnectPeer.cpp:91-169. `List.mergeSort` is stable, as `std::stable_sort` is. -/
def updateUris (resolve : Str → Option (List Str)) (acceptors : List Str) : List Uri :=
  (acceptors.flatMap (expand resolve)).mergeSort fun a b => decide (penalty a ≤ penalty b)

inductive Task
  /-- A call of `TryNextUri`. -/
  | tryNext
  /-- `if (_connector == nullptr)` at the end of `TryNextUri`, ConnectPeer.cpp:249-252, after `AsyncConnect` has failed at once. -/
  | check
deriving Repr, DecidableEq

structure State where
  /-- How many URIs there are: the size of `_uris`. -/
  size : Nat
  index : Nat := 0
  remaining : Nat := 0
  connector : Bool := false
  tasks : List Task := []
deriving Repr, DecidableEq

/-- How making a connector and starting it ends. -/
inductive React
  /-- There is no connector: domain sockets are disabled, the URI has another type, or there was an exception. -/
  | none
  /-- The connector is working. -/
  | pending
  /-- `AsyncConnect` reports the failure before it returns. -/
  | failsAtOnce
deriving Repr, DecidableEq

inductive In
  /-- The next call is made. -/
  | go (r : React)
  /-- The connector reports success. -/
  | connected
  /-- The connector reports failure. -/
  | failed
deriving Repr, DecidableEq

inductive Out
  /-- It is tried to connect to a URI, given by its index. -/
  | tried (i : Nat)
  /-- `OnConnectPeerSuccess` -/
  | success
  /-- `OnConnectPeerFailure` -/
  | failure
deriving Repr, DecidableEq

/-- `AsyncConnect`, ConnectPeer.cpp:58-66. -/
def start (size attempts : Nat) : State := { size := size, remaining := max attempts 1, tasks := [.tryNext] }

/-- `TryNextUri` from the choice of the URI on, ConnectPeer.cpp:196-252. -/
def tryUri (s : State) (rest : List Task) : React → State × List Out
  | .none => ({ s with index := s.index + 1, tasks := .tryNext :: rest }, [.tried s.index])
  | .pending => ({ s with index := s.index + 1, connector := true, tasks := rest }, [.tried s.index])
  | .failsAtOnce => ({ s with index := s.index + 1, connector := false, tasks := .tryNext :: .check :: rest }, [.tried s.index])

/-- `TryNextUri`, ConnectPeer.cpp:172-252; `HandleFailure`, 264-270. -/
def tryNext (s : State) (rest : List Task) (r : React) : State × List Out :=
  if s.remaining = 0 then ({ s with connector := false, tasks := rest }, [.failure])
  else if s.size = 0 then ({ s with connector := false, tasks := rest }, [.failure])
  else if s.size ≤ s.index then ({ s with remaining := s.remaining - 1, index := 0, tasks := .tryNext :: rest }, [])
  else tryUri s rest r

/-- The handlers of the connector, ConnectPeer.cpp:273-287, run when nothing else runs. -/
def State.step (s : State) : In → State × List Out
  | .go r =>
      match s.tasks with
      | [] => (s, [])
      | .tryNext :: rest => tryNext s rest r
      | .check :: rest => if s.connector then ({ s with tasks := rest }, []) else ({ s with tasks := .tryNext :: rest }, [])
  | .connected => if s.tasks = [] ∧ s.connector = true then ({ s with connector := false }, [.success]) else (s, [])
  | .failed => if s.tasks = [] ∧ s.connector = true then ({ s with connector := false, tasks := [.tryNext] }, []) else (s, [])

end SilKit.ConnectPeer
