import Verif.Model.Basic
/-!
# Model: who is there — the system monitor's connected and disconnected handlers, and the system controller that waits for them

`Participant::GetSystemMonitor`, `SystemMonitor::SetParticipantConnectedHandler`, `SetParticipantDisconnectedHandler`, `IsParticipantConnected`,
`OnParticipantConnected`, `OnParticipantDisconnected`, the part of `VAsioConnection` that calls them, and the utility `sil-kit-system-controller`.

Two threads take part: the thread of the user, who creates the monitor and sets the two handlers, and the I/O thread, which handles the participants
that come and go. Every step of the model is a critical section of the code or an access to a variable that no mutex guards (the two handlers).

Simplifications: the receivers' mutex (VAsioConnection.cpp:753,1795) is left out; it only delays the registration of the receiver while receivers are
being called, and the monitor's receiver is registered once. One simulation name. The system state tracker is `Model/SystemState.lean`. The order in
which `std::unordered_map` is iterated is the order of insertion here; the theorems do not depend on it. Handlers that are called on both threads at
the same time are called one after the other. Names are Lean strings instead of bytes.
-/
namespace SilKit.Presence

abbrev Name := String

/-- What the user sees: the calls of the two handlers (ISystemMonitor.hpp:32-43). -/
inductive Call where
  | connected (n : Name)
  | disconnected (n : Name)
deriving Repr, DecidableEq

/-- Where the I/O thread is. -/
inductive Io where
  /-- In the event loop. -/
  | idle
  /-- SystemMonitor.cpp:170: the map has been unlocked, the connected handler has not been looked at; `fresh` is `hasInserted`. -/
  | inserted (c : Nat) (n : Name) (fresh : Bool)
  /-- VAsioConnection.cpp:771: the receivers have returned. -/
  | associate (c : Nat) (n : Name)
  /-- SystemMonitor.cpp:243: the name has been erased, the disconnected handler has not been looked at. -/
  | erased (c : Nat) (n : Name)
  /-- VAsioConnection.cpp:1388-1390: the shutdown callbacks have returned. -/
  | remove (c : Nat) (n : Name)
deriving Repr, DecidableEq

/-- The steps of the user's thread. -/
inductive Instr where
  /-- Participant_impl.hpp:890-893, VAsioConnection.cpp:1793-1797 -/
  | registerReceiver
  /-- Participant_impl.hpp:895-898, VAsioConnection.cpp:1349-1353: only posted to the I/O thread -/
  | postCallback
  /-- Participant_impl.hpp:901, VAsioConnection.cpp:1866-1882 -/
  | snapshot
  /-- Participant_impl.hpp:902-905, SystemMonitor.cpp:158-168 -/
  | add (n : Name)
  /-- SystemMonitor.cpp:170-174, on the user's thread -/
  | report (n : Name) (fresh : Bool)
  /-- SystemMonitor.cpp:133-142 -/
  | replay
  /-- SystemMonitor.cpp:143 -/
  | setConnected
  /-- SystemMonitor.cpp:146-149 -/
  | setDisconnected
deriving Repr, DecidableEq

/-- `CreateSystemMonitor()` (Participant_impl.hpp:873-908), then `SetParticipantConnectedHandler` and `SetParticipantDisconnectedHandler`, in the order
in which the system controller calls them (SystemController.cpp:47-101). -/
def program : List Instr := [.registerReceiver, .postCallback, .snapshot, .replay, .setConnected, .setDisconnected]

structure State where
  /-- The open connections, with `GetInfo().participantName`: empty for an accepted connection before the announcement (VAsioPeerInfo.hpp:19). -/
  peers : List (Nat × Name) := []
  /-- `_participantNameToPeer` (VAsioConnection.hpp). -/
  names : List (Name × Nat) := []
  /-- Whether the monitor's receiver is in `_participantAnnouncementReceivers`. -/
  receiver : Bool := false
  /-- Whether the registration of the shutdown callback waits in the I/O thread's queue. -/
  posted : Bool := false
  /-- Whether the monitor's callback is in `_peerShutdownCallbacks`. -/
  callback : Bool := false
  /-- The keys of `SystemMonitor::_connectedParticipants`. -/
  known : List Name := []
  /-- Whether `_participantConnectedHandler` is set. -/
  onConnected : Bool := false
  /-- Whether `_participantDisconnectedHandler` is set. -/
  onDisconnected : Bool := false
  io : Io := .idle
  /-- What the user's thread still has to do. -/
  todo : List Instr := program
  calls : List Call := []
deriving Repr, DecidableEq

/-- A participant that has just been created; the user has not asked for the monitor. -/
def init : State := {}

/-- `_connectedParticipants.emplace` (SystemMonitor.cpp:165-166). -/
def emplace (known : List Name) (n : Name) : List Name := if known.contains n then known else known ++ [n]

/-- `_participantNameToPeer[simulationName].insert` (VAsioConnection.cpp:1161-1167): an existing entry stays. -/
def insertName (names : List (Name × Nat)) (n : Name) (c : Nat) : List (Name × Nat) :=
  if names.any (·.1 == n) then names else names ++ [(n, c)]

/-- SystemMonitor.cpp:170-174. -/
def callConnected (s : State) (n : Name) (fresh : Bool) : List Call :=
  if s.onConnected && fresh then s.calls ++ [.connected n] else s.calls

/-- SystemMonitor.cpp:245-249. -/
def callDisconnected (s : State) (n : Name) : List Call :=
  if s.onDisconnected then s.calls ++ [.disconnected n] else s.calls

/-- One step of the user's thread. -/
def userStep (s : State) : State :=
  match s.todo with
  | [] => s
  | .registerReceiver :: r => { s with receiver := true, todo := r }
  | .postCallback :: r => { s with posted := true, todo := r }
  | .snapshot :: r => { s with todo := s.names.map (fun e => Instr.add e.1) ++ r }
  | .add n :: r => { s with known := emplace s.known n, todo := .report n (!s.known.contains n) :: r }
  | .report n fresh :: r => { s with calls := callConnected s n fresh, todo := r }
  | .replay :: r => { s with calls := s.calls ++ s.known.map Call.connected, todo := r }
  | .setConnected :: r => { s with onConnected := true, todo := r }
  | .setDisconnected :: r => { s with onDisconnected := true, todo := r }

/-- The next step of the I/O thread in a handler it has begun. -/
def ioStep (s : State) : State :=
  match s.io with
  | .idle => s
  | .inserted c n fresh => { s with calls := callConnected s n fresh, io := .associate c n }
  | .associate c n => { s with names := insertName s.names n c, io := .idle }
  | .erased c n => { s with calls := callDisconnected s n, io := .remove c n }
  -- VAsioConnection.cpp:1439-1458
  | .remove c n => { s with names := s.names.filter (fun e => e.1 != n), peers := s.peers.filter (fun e => e.1 != c), io := .idle }

/-- What happens to the connections. -/
inductive Event where
  /-- Somebody connects to one of the acceptors. -/
  | accept (c : Nat)
  /-- This participant connects to another one, while it joins the simulation. -/
  | connect (c : Nat) (n : Name)
  /-- The announcement of a participant arrives on a connection. -/
  | announce (c : Nat) (n : Name)
  /-- A connection is lost or closed by the other side. -/
  | close (c : Nat)
deriving Repr, DecidableEq

/-- The I/O thread begins to handle an event; `State.io` is `idle`. -/
def begin (s : State) : Event → State
  -- VAsioConnection.cpp:1325-1347
  | .accept c => if s.peers.any (·.1 == c) then s else { s with peers := s.peers ++ [(c, "")] }
  -- VAsioConnection.cpp:1142-1158
  | .connect c n =>
    if s.peers.any (·.1 == c) then s else { s with peers := s.peers ++ [(c, n)], names := insertName s.names n c }
  -- VAsioConnection.cpp:742-758: `SetInfo`, then the receivers; SystemMonitor.cpp:158-168
  | .announce c n =>
    if s.peers.any (·.1 == c) then
      let peers := s.peers.map (fun e => if e.1 == c then (c, n) else e)
      if s.receiver then { s with peers := peers, known := emplace s.known n, io := .inserted c n (!s.known.contains n) }
      else { s with peers := peers, io := .associate c n }
    else s
  -- VAsioConnection.cpp:1355-1386; SystemMonitor.cpp:226-234
  | .close c =>
    match s.peers.lookup c with
    | none => s
    | some n => if s.callback then { s with known := s.known.filter (· != n), io := .erased c n } else { s with io := .remove c n }

/-- The steps of the two threads, in any order. -/
inductive Op where
  /-- The user's thread makes its next step. -/
  | user
  /-- The I/O thread makes its next step in the handler it is in. -/
  | io
  /-- The I/O thread, back in the event loop, registers the shutdown callback that was posted. -/
  | registration
  /-- The I/O thread, back in the event loop, begins to handle an event. -/
  | event (e : Event)
deriving Repr, DecidableEq

def step (s : State) : Op → State
  | .user => userStep s
  | .io => ioStep s
  | .registration => if s.io = .idle ∧ s.posted then { s with posted := false, callback := true } else s
  | .event e => if s.io = .idle then begin s e else s

def run (ops : List Op) : State := ops.foldl step init

/-- `ISystemMonitor::IsParticipantConnected` (SystemMonitor.cpp:151-156). -/
def isConnected (s : State) (n : Name) : Bool := s.known.contains n

/-- An event, handled from the beginning to the end without a step of the user. -/
def whole (e : Event) : List Op := [.event e, .io, .io]

/-! ## The system controller -/

/-- `std::set::insert`. -/
def setInsert (n : Name) : List Name → List Name
  | [] => [n]
  | x :: xs => if n < x then n :: x :: xs else if n = x then x :: xs else x :: setInsert n xs

/-- `std::set{begin, end}` (SystemController.cpp:431-432). -/
def toSet (ns : List Name) : List Name := ns.foldl (fun s n => setInsert n s) []

structure Controller where
  required : List Name
  own : Name
  /-- `_connectedParticipantNames` -/
  present : List Name := []
  /-- The arguments of the calls of `SetWorkflowConfiguration`; `_workflowConfigSet` is "not empty". -/
  workflows : List (List Name) := []
deriving Repr, DecidableEq

/-- The handlers of the system controller (SystemController.cpp:47-101). -/
def Controller.handle (k : Controller) : Call → Controller
  | .connected n =>
    if k.workflows ≠ [] then k
    else if k.required.contains n = false then k
    else
      let present := setInsert n k.present
      if present = k.required then { k with present := present, workflows := k.workflows ++ [k.required ++ [k.own]] }
      else { k with present := present }
  | .disconnected n =>
    if k.workflows ≠ [] then k
    else if k.required.contains n then { k with present := k.present.filter (· != n) }
    else k

/-- The controller after these calls of its handlers. -/
def Controller.after (k : Controller) (calls : List Call) : Controller := calls.foldl Controller.handle k

/-- What `main` does with the names on the command line (SystemController.cpp:334-340,431-440): no name is refused with -1, a repeated name with -2. -/
def start (own : Name) (names : List Name) : Except Int Controller :=
  if names = [] then .error (-1)
  else if (toSet names).length ≠ names.length then .error (-2)
  else .ok { required := toSet names, own := own }

/-- The calls of `SetWorkflowConfiguration` that the system controller `own`, started with `names`, has made after the steps `ops` of its two threads. -/
def workflows (own : Name) (names : List Name) (ops : List Op) : List (List Name) :=
  match start own names with
  | .error _ => []
  | .ok k => (k.after (run ops).calls).workflows

end SilKit.Presence
