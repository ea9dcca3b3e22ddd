import Verif.Model.Lifecycle
import Verif.Model.SystemState
/-!
# Model of the start of a simulation: the lifecycles and system monitors of all participants

Composes the lifecycle of a participant (`Model/Lifecycle.lean`) and its system monitor (`Model/SystemState.lean`) over a network:
`SilKit/source/services/orchestration/{LifecycleService,SystemMonitor,SystemController}.cpp`, with the history of length one of participant status and
workflow configuration (`core/internal/traits/SilKitMsgTraits.hpp:154-161`, `core/vasio/VAsioTransmitter.hpp:36-108`).

Simplifications: every pair of participants has a reliable connection in each direction that keeps the order (C27); a participant subscribes at all others in one step when
it joins; the answers of the other participants that a lifecycle waits for are events of their own (C22); `StartLifecycle` is called at most once.
-/
namespace SilKit.Startup

/-- A participant. -/
structure Node where
  cfg : Lifecycle.Config := {}
  life : Lifecycle.Life := {}
  monitor : SystemState.Monitor := {}
  /-- The participant has been created: it is connected and subscribed. -/
  joined : Bool := false
  /-- `StartLifecycle` has been called: the lifecycle's system state handler is registered. -/
  listening : Bool := false
  /-- The function posted by `StartLifecycle` that calls `Initialize` has not run yet. -/
  posted : Bool := false
  /-- The last participant status and workflow configuration that were sent, for late subscribers. -/
  status : Option ParticipantState := none
  workflow : Option (List String) := none
deriving Repr

inductive Msg
  | status (s : ParticipantState)
  | workflow (required : List String)
deriving Repr, DecidableEq

/-- All participants, by name, and what is on the way from one to another, oldest first. -/
structure Net where
  nodes : String → Node
  chan : String → String → List Msg

/-- What is seen of the participants' lifecycles. -/
abbrev Trace := List (String × Lifecycle.Out)

def Net.set (n : Net) (p : String) (x : Node) : Net := { n with nodes := fun q => if q = p then x else n.nodes q }

/-- `SendMsg` to all subscribers, including the sender itself (SilKitMsgTraits.hpp:161; `SystemController::SetWorkflowConfiguration`, SystemController.cpp:30-34). -/
def Net.send (n : Net) (p : String) (m : Msg) : Net :=
  { n with chan := fun a b => if a = p ∧ (n.nodes b).joined = true then n.chan a b ++ [m] else n.chan a b }

/-- `LifecycleService::ChangeParticipantState`, LifecycleService.cpp:475-497: the status is sent, and kept for late subscribers. -/
def Net.publish (p : String) (n : Net) : Lifecycle.Out → Net
  | .published s => (n.set p { n.nodes p with status := some s }).send p (.status s)
  | _ => n

/-- The lifecycle of `p` reacts to an event, and what it publishes is sent. -/
def Net.react (n : Net) (p : String) (e : Lifecycle.Event) (o : Lifecycle.Throws) : Net × Trace :=
  let r := Lifecycle.on (n.nodes p).cfg (n.nodes p).life e o
  (r.2.foldl (Net.publish p) (n.set p { n.nodes p with life := r.1 }), r.2.map (p, ·))

/-- The lifecycle's system state handler is called by the system monitor, if it is registered: LifecycleService.cpp:149-150. -/
def Net.tell (p : String) (o : Lifecycle.Throws) (r : Net × Trace) : SystemState.Out → Net × Trace
  | .systemState s =>
    if (r.1.nodes p).listening then
      let r' := r.1.react p (.systemState s) o
      (r'.1, r.2 ++ r'.2)
    else r
  | _ => r

/-- The system monitor of `p` reacts to an event. -/
def Net.monitor (n : Net) (p : String) (e : SystemState.Event) (o : Lifecycle.Throws) : Net × Trace :=
  let r := (n.nodes p).monitor.on e
  r.2.foldl (Net.tell p o) (n.set p { n.nodes p with monitor := r.1 }, [])

/-- What a new subscriber gets from `q` at once. -/
def Node.history (x : Node) : List Msg := (x.workflow.map Msg.workflow).toList ++ (x.status.map Msg.status).toList

/-- A participant is created. -/
def Net.join (n : Net) (p : String) : Net :=
  if (n.nodes p).joined then n
  else { nodes := fun q => if q = p then { n.nodes p with joined := true } else n.nodes q,
         chan := fun a b => if b = p ∧ (n.nodes a).joined = true then (n.nodes a).history else n.chan a b }

/-- `StartLifecycle`, LifecycleService.cpp:96-178: the handler is registered and called with the current system state (SystemMonitor.cpp:47-52), and `Initialize` is posted. -/
def Net.start (n : Net) (p : String) (o : Lifecycle.Throws) : Net × Trace :=
  if (n.nodes p).joined = false ∨ (n.nodes p).listening = true then (n, [])
  else (n.set p { n.nodes p with listening := true, posted := true }).react p (.systemState (n.nodes p).monitor.tracker.system) o

/-- The events of a lifecycle other than those that the system monitor causes. `Initialize` runs if it was posted. -/
def Net.life (n : Net) (p : String) (e : Lifecycle.Event) (o : Lifecycle.Throws) : Net × Trace :=
  match e with
  | .systemState _ => (n, [])
  | .init => if (n.nodes p).posted then (n.set p { n.nodes p with posted := false }).react p .init o else (n, [])
  | e => n.react p e o

/-- `SystemController::SetWorkflowConfiguration`, SystemController.cpp:30-34. -/
def Net.configure (n : Net) (p : String) (names : List String) : Net :=
  if (n.nodes p).joined then (n.set p { n.nodes p with workflow := some names }).send p (.workflow names) else n

/-- The event at the system monitor, SystemMonitor.cpp:29-45, 115-129. -/
def Msg.event (q : String) : Msg → SystemState.Event
  | .status s => .status q s
  | .workflow names => .workflow names

/-- The oldest message from `q` to `p` is received. -/
def Net.deliver (n : Net) (q p : String) (o : Lifecycle.Throws) : Net × Trace :=
  match n.chan q p with
  | [] => (n, [])
  | m :: rest => Net.monitor { n with chan := fun a b => if a = q ∧ b = p then rest else n.chan a b } p (m.event q) o

/-- `p` loses the connection to `q`. -/
def Net.lost (n : Net) (p q : String) (o : Lifecycle.Throws) : Net × Trace :=
  Net.monitor { n with chan := fun a b => if a = q ∧ b = p then [] else n.chan a b } p (.disconnected q) o

inductive Event
  | join (p : String)
  | start (p : String) (o : Lifecycle.Throws)
  | life (p : String) (e : Lifecycle.Event) (o : Lifecycle.Throws)
  | configure (p : String) (names : List String)
  | deliver (q p : String) (o : Lifecycle.Throws)
  | lost (p q : String) (o : Lifecycle.Throws)
deriving Repr, DecidableEq

def Net.step (n : Net) : Event → Net × Trace
  | .join p => (n.join p, [])
  | .start p o => n.start p o
  | .life p e o => n.life p e o
  | .configure p names => (n.configure p names, [])
  | .deliver q p o => n.deliver q p o
  | .lost p q o => n.lost p q o

/-- A history of the whole simulation, with everything that is seen. -/
def Net.run : List Event → Net → Net × Trace
  | [], n => (n, [])
  | e :: es, n =>
    let r := n.step e
    let r' := Net.run es r.1
    (r'.1, r.2 ++ r'.2)

/-- Nobody has joined yet; `required` is what the system monitors know of the required participants from the start (nothing, in the code). -/
def Net.init (cfg : String → Lifecycle.Config) (required : List String := []) : Net :=
  { nodes := fun p => { cfg := cfg p, monitor := { tracker := { required := required } } }, chan := fun _ _ => [] }

end SilKit.Startup
