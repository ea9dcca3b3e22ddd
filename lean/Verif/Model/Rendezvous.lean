import Verif.Model.ConnectPeer
/-!
# Model: how participants find a registry

`VAsioRegistry::StartListening`, `VAsioConnection::AcceptTcpConnectionsOn`, `AcceptLocalConnections`, `ConnectParticipantToRegistryAndStartIoWorker` and
the end of a registry, together with the ports and the socket files of the machine.

Simplifications: all registries and participants are on one machine. Name resolution and `asio::ip::make_address` do not change. A connection to a
socket on which somebody listens succeeds, so one round of attempts is enough. Other programs do not listen on ports; that they use ports is covered
by `refused`. A registry that ends is destroyed in one step. Texts are lists of characters instead of bytes.
-/
namespace SilKit.Rendezvous
open SilKit.Uri

/-- `asio::ip::address`, as far as it is looked at. -/
structure Addr where
  v4 : Bool
  text : Str
deriving Repr, DecidableEq

structure Env where
  /-- `asio::ip::tcp::resolver::resolve`; `none` if it throws. -/
  dns : Str → Option (List Str)
  /-- `asio::ip::make_address`; `none` if it throws. -/
  address : Str → Option Addr
  /-- `std::hash<std::string>`, written in hexadecimal digits. -/
  hash : Str → Str
  /-- `fs::temp_directory_path`. -/
  tmp : Str

/-- The parts of a text between dots. -/
def dotted : Str → List Str
  | [] => [[]]
  | c :: cs => if c = '.' then [] :: dotted cs else
      match dotted cs with
      | [] => [[c]]
      | p :: ps => (c :: p) :: ps

/-- `IsIpV4`, AsioIoContext.cpp:179-183. -/
def isIpV4 (s : Str) : Bool := (dotted s).length == 4 && (dotted s).all (fun p => p ≠ [] && p.all Uri.isDigit)

/-- The regular expression `^\[([0-9:]+)\]$` and its group, AsioIoContext.cpp:186-202. -/
def bracketed (s : Str) : Option Str :=
  match s with
  | '[' :: rest =>
      if rest.getLast? = some ']' ∧ rest.dropLast ≠ [] ∧ rest.dropLast.all (fun c => Uri.isDigit c || c == ':') then some rest.dropLast else none
  | _ => none

/-- `CleanIpAddress`, AsioIoContext.cpp:192-203. -/
def clean (s : Str) : Str := (bracketed s).getD s

/-- `AsioIoContext::Resolve`, AsioIoContext.cpp:283-302. -/
def Env.resolve (env : Env) (name : Str) : Option (List Str) :=
  if isIpV4 name || (bracketed name).isSome then some [name] else env.dns name

/-- `selectBestEndpointFromResolverResults`, VAsioConnection.cpp:106-139; all addresses are IPv4 or IPv6. -/
def best (as : List Addr) : Option Addr :=
  match as.find? (·.v4) with
  | some a => some a
  | none => as.head?

/-- The address that `AcceptTcpConnectionsOn` uses, VAsioConnection.cpp:1266-1294; `none` if it throws. -/
def Env.listenAddress (env : Env) (host : Str) : Option Addr :=
  if host = [] then some ⟨true, "0.0.0.0".toList⟩
  else (env.resolve host).bind fun names => (names.mapM env.address).bind best

/-- `makeLocalEndpoint` for `SilKitRegistry` with the id 0, VAsioConnection.cpp:60-85. -/
def Env.endpoint (env : Env) (unique cwd : Str) : Str :=
  env.tmp ++ "/SilKitRegi".toList ++ env.hash ("SilKitRegistry0".toList ++ unique ++ cwd) ++ ".silkit".toList

structure World where
  /-- The number of registries so far. -/
  next : Nat := 0
  /-- The TCP acceptors of the running registries, with address and port. -/
  tcp : List (Nat × Addr × Nat) := []
  /-- The domain sockets of the running registries, with their paths. -/
  sockets : List (Nat × Str) := []
  /-- The socket files, with the registry that created them. -/
  files : List (Str × Nat) := []
deriving Repr, DecidableEq

/-- A socket that is bound to the address `b` gets the connections to `a`. -/
def serves (b a : Addr) : Bool := b = a || (b.v4 = a.v4 && (b.text = "0.0.0.0".toList || b.text = "::".toList))

/-- Two acceptors cannot be bound to these at the same time (`bind` fails with `EADDRINUSE`; on POSIX `SO_REUSEADDR` does not allow two listening
sockets, on Windows `SO_EXCLUSIVEADDRUSE` is set, AsioIoContext.cpp:63-119). -/
def conflict (x y : Addr × Nat) : Bool := x.2 = y.2 && (serves x.1 y.1 || serves y.1 x.1)

inductive Op
  /-- A registry is created and `StartListening` is called. `domain` is `enableDomainSockets`; `chosen` is the port that the operating system gives if
  the port is 0; the operating system can refuse the TCP acceptor and the domain socket. -/
  | start (uri cwd : Str) (domain : Bool) (chosen : Fin 65536) (refuseTcp refuseLocal : Bool)
  /-- A registry is destroyed. -/
  | stop (r : Nat)
  /-- The process of a registry ends at once. -/
  | crash (r : Nat)
deriving Repr, DecidableEq

/-- What came of a start. `uri` is the value that `StartListening` returns, `none` if it throws. -/
structure Started where
  id : Nat
  uri : Option Str
  hasTcp : Bool
  hasLocal : Bool
deriving Repr, DecidableEq

/-- `AcceptTcpConnectionsOn`, VAsioConnection.cpp:1266-1330: address and port of the acceptor; `none` if it throws. -/
def acceptTcp (env : Env) (w : World) (host : Str) (port : Nat) (chosen : Fin 65536) (refuse : Bool) : Option (Addr × Nat) :=
  match env.listenAddress host with
  | none => none
  | some a =>
    let p := if port = 0 then chosen.val else port
    if refuse || w.tcp.any (fun e => conflict e.2 (a, p)) then none else some (a, p)

/-- `AcceptLocalConnections`, VAsioConnection.cpp:1234-1264: the file is removed in any case. -/
def acceptLocal (w : World) (r : Nat) (path : Str) (refuse : Bool) : World :=
  if refuse then { w with files := w.files.filter (·.1 ≠ path) }
  else { w with files := (path, r) :: w.files.filter (·.1 ≠ path), sockets := (r, path) :: w.sockets }

/-- The destructor of the acceptors: `CleanupEndpoint` removes the file of the path, AsioAcceptor.hpp:99-104, AsioCleanupEndpoint.cpp:21-24. -/
def stop (w : World) (r : Nat) : World :=
  { w with tcp := w.tcp.filter (·.1 ≠ r), sockets := w.sockets.filter (·.1 ≠ r), files := w.files.filter (fun f => !w.sockets.contains (r, f.1)) }

/-- The process ends: its sockets are closed, the files stay. -/
def crash (w : World) (r : Nat) : World := { w with tcp := w.tcp.filter (·.1 ≠ r), sockets := w.sockets.filter (·.1 ≠ r) }

/-- The TCP part of `StartListening`, VAsioRegistry.cpp:80-98: the world afterwards, and the URI that is made if there was no exception. -/
def listenTcp (env : Env) (w : World) (u : Uri) (chosen : Fin 65536) (refuse : Bool) : World × Option Uri :=
  match acceptTcp env w u.host u.portOf chosen refuse with
  | none => (w, none)
  | some (a, p) => ({ w with tcp := (w.next, a, p) :: w.tcp }, make u.host p)

/-- The URI that was made, and otherwise the one that was given, VAsioRegistry.cpp:83-110. -/
def uriOf (made : Option Uri) (given : Str) : Str :=
  match made with
  | some v => v.encoded
  | none => given

/-- The domain socket part, VAsioRegistry.cpp:100-124. -/
def listenLocal (env : Env) (w : World) (uri cwd : Str) (domain : Bool) (made : Option Uri) (refuse : Bool) : World :=
  if domain then acceptLocal w w.next (env.endpoint (uriOf made uri) cwd) refuse else w

/-- `VAsioRegistry::StartListening`, VAsioRegistry.cpp:72-174. If it throws, the registry is destroyed. -/
def start (env : Env) (w : World) (uri cwd : Str) (domain : Bool) (chosen : Fin 65536) (refuseTcp refuseLocal : Bool) : World × Started :=
  match parse uri with
  | none => ({ w with next := w.next + 1 }, ⟨w.next, none, false, false⟩)
  | some u =>
    let t := listenTcp env w u chosen refuseTcp
    let l := listenLocal env t.1 uri cwd domain t.2 refuseLocal
    let hasLocal := domain && !refuseLocal
    if t.2.isSome || hasLocal then
      ({ l with next := w.next + 1 }, ⟨w.next, some (uriOf t.2 u.encoded), t.2.isSome, hasLocal⟩)
    else ({ stop l w.next with next := w.next + 1 }, ⟨w.next, none, false, false⟩)

def step (env : Env) (w : World) : Op → World × List Started
  | .start uri cwd domain chosen refuseTcp refuseLocal => ((start env w uri cwd domain chosen refuseTcp refuseLocal).1, [(start env w uri cwd domain chosen refuseTcp refuseLocal).2])
  | .stop r => (stop w r, [])
  | .crash r => (crash w r, [])

/-- A history, from a machine without registries on. -/
def run (env : Env) (h : List Op) : World × List Started :=
  h.foldl (fun s o => ((step env s.1 o).1, s.2 ++ (step env s.1 o).2)) ({}, [])

/-! ## Participants -/

/-- Who accepts a connection to a candidate, ConnectPeer.cpp:203-232, AsioIoContext.cpp:246-271. -/
def reach (env : Env) (w : World) (domain : Bool) (u : Uri) : Option Nat :=
  match u.kind with
  | .tcp =>
      match env.address (clean u.host) with
      | none => none
      | some a => (w.tcp.find? (fun e => serves e.2.1 a && e.2.2 = u.portOf)).map (·.1)
  | .local =>
      if domain then
        match w.files.lookup u.path with
        | none => none
        | some r => if w.sockets.contains (r, u.path) then some r else none
      else none
  | _ => none

/-- `ConnectParticipantToRegistryAndStartIoWorker`, VAsioConnection.cpp:489-558: the registry to which a participant with this URI is connected;
`none` if it throws. -/
def connect (env : Env) (w : World) (uri cwd : Str) (domain : Bool) : Option Nat :=
  match parse uri with
  | none => none
  | some u =>
    match makeTcp u.host u.portOf with
    | none => none
    | some t =>
      (ConnectPeer.updateUris env.resolve ((if domain then ["local://".toList ++ env.endpoint uri cwd] else []) ++ [t.encoded])).findSome? (reach env w domain)

end SilKit.Rendezvous
