import Verif.Model.ParticipantState
/-!
# The system state

`SilKit/source/services/orchestration/{SystemStateTracker,SystemMonitor}.cpp`. The enumerators of `SystemState` are those of
`ParticipantState`, which is used for both. Of a `ParticipantStatus` only name and state are modelled.
-/
namespace SilKit.SystemState

/-- `SystemStateTracker`, SystemStateTracker.hpp. `required` lists `_requiredParticipants` in the iteration order of the unordered
set, whatever that is. -/
structure Tracker where
  required : List String := []
  /-- `_participantStatusCache`. -/
  cache : List (String × ParticipantState) := []
  /-- `_systemState`. -/
  system : ParticipantState := .invalid
deriving Repr, DecidableEq

/-- `GetParticipantStatus`, SystemStateTracker.cpp:262-273. -/
def Tracker.status (t : Tracker) (p : String) : Option ParticipantState := t.cache.lookup p

/-- `SetParticipantStatus`, SystemStateTracker.cpp:313-318. -/
def Tracker.setStatus (t : Tracker) (p : String) (s : ParticipantState) : Tracker :=
  { t with cache := (p, s) :: t.cache.filter (fun e => e.1 ≠ p) }

/-- The condition of `ChangeToIfAllIn`, SystemStateTracker.cpp:342-366. -/
def Tracker.allIn (t : Tracker) (states : List ParticipantState) : Bool :=
  t.required.all (fun p => match t.status p with | none => false | some s => states.contains s)

/-- The start value of `newSystemState`, SystemStateTracker.cpp:339-390. -/
def Tracker.base (t : Tracker) : ParticipantState :=
  if t.cache.isEmpty then
    match t.system with
    | .error => .error
    | .shutdown => .shutdown
    | .shuttingDown => .shutdown
    | _ => .invalid
  else t.system

/-- The first of several alternatives that applies: the sequence of `if (ChangeToIfAllIn(…)) break;`. -/
def Tracker.firstOf (t : Tracker) : List (ParticipantState × List ParticipantState) → ParticipantState
  | [] => t.base
  | (s, states) :: rest => if t.allIn states then s else t.firstOf rest

/-- The alternatives tried for each triggering state, SystemStateTracker.cpp:392-459. -/
def alternatives : ParticipantState → List (ParticipantState × List ParticipantState)
  | .servicesCreated => [(.servicesCreated,
      [.servicesCreated, .communicationInitializing, .communicationInitialized, .readyToRun, .running])]
  | .communicationInitializing => [(.communicationInitializing,
      [.communicationInitializing, .communicationInitialized, .readyToRun, .running])]
  | .communicationInitialized => [(.communicationInitialized, [.communicationInitialized, .readyToRun, .running])]
  | .readyToRun => [(.readyToRun, [.readyToRun, .running])]
  | .running => [(.running, [.running]), (.stopping, [.running, .stopping]), (.stopped, [.running, .stopped]),
      (.shuttingDown, [.running, .stopped, .shuttingDown]), (.shutdown, [.running, .stopped, .shuttingDown, .shutdown])]
  | .paused => [(.paused, [.running, .paused]), (.stopping, [.running, .paused, .stopping]),
      (.stopped, [.running, .paused, .stopped]), (.shuttingDown, [.running, .paused, .stopped, .shuttingDown]),
      (.shutdown, [.running, .paused, .stopped, .shuttingDown, .shutdown])]
  | .stopping => [(.stopping, [.running, .paused, .stopping, .stopped, .shuttingDown, .shutdown])]
  | .stopped => [(.stopped, [.stopped, .shuttingDown, .shutdown])]
  | .shuttingDown => [(.shuttingDown, [.stopped, .shuttingDown, .shutdown, .error, .servicesCreated, .readyToRun])]
  | .shutdown => [(.shutdown, [.shutdown])]
  | .invalid | .aborting | .error => []

/-- `ComputeSystemState`, SystemStateTracker.cpp:335-469. -/
def Tracker.compute (t : Tracker) (trigger : ParticipantState) : ParticipantState :=
  match trigger with
  | .aborting => .aborting
  | .error => .error
  | s => t.firstOf (alternatives s)

/-- `GetAnyRequiredParticipantState`, SystemStateTracker.cpp:320-333. -/
def Tracker.anyRequired (t : Tracker) : ParticipantState :=
  match t.required with
  | [] => .invalid
  | p :: _ => (t.status p).getD .invalid

/-- `UpdateRequiredParticipants`, SystemStateTracker.cpp:106-130. The second component of the results tells whether
`systemStateChanged` is set. -/
def Tracker.require (t : Tracker) (names : List String) : Tracker × Bool :=
  let t := { t with required := names }
  let new := t.compute t.anyRequired
  ({ t with system := new }, decide (t.system ≠ new))

/-- The results of `UpdateParticipantStatus`. -/
structure Update where
  tracker : Tracker
  participantChanged : Bool := false
  systemChanged : Bool := false
  /-- An `AssertionError` leaves the function (`ValidateParticipantStateUpdate`, SystemStateTracker.cpp:66-68). -/
  throws : Bool := false

/-- `UpdateParticipantStatus`, SystemStateTracker.cpp:132-229. The other results of the validation (23-65) are only logged. -/
def Tracker.update (t : Tracker) (p : String) (s : ParticipantState) : Update :=
  let old := (t.status p).getD .invalid
  if s = .invalid then
    { tracker := if t.status p = none then t.setStatus p .invalid else t, throws := true }
  else if old = .shutdown then { tracker := t }
  else
    let t := t.setStatus p s
    if old = s then { tracker := t }
    else if t.required.contains p then
      let new := t.compute s
      { tracker := { t with system := new }, participantChanged := true, systemChanged := decide (t.system ≠ new) }
    else { tracker := t, participantChanged := true }

/-- `RemoveParticipant`, SystemStateTracker.cpp:231-254. -/
def Tracker.remove (t : Tracker) (p : String) : Tracker × Bool :=
  if t.status p = none then (t, false)
  else
    let t := { t with cache := t.cache.filter (fun e => e.1 ≠ p) }
    let new := t.compute t.anyRequired
    ({ t with system := new }, decide (t.system ≠ new))

/-- `SystemMonitor`, SystemMonitor.hpp: the tracker and `_connectedParticipants`. -/
structure Monitor where
  tracker : Tracker := {}
  connected : List String := []
deriving Repr, DecidableEq

/-- The calls of the user's handlers. -/
inductive Out where
  | participantStatus (p : String) (s : ParticipantState)
  | systemState (s : ParticipantState)
  | connected (p : String)
  | disconnected (p : String)
  /-- An exception leaves the reception of a message. -/
  | exception
deriving Repr, DecidableEq

inductive Event where
  /-- A `ParticipantStatus` is received. -/
  | status (p : String) (s : ParticipantState)
  /-- A `WorkflowConfiguration` is received, or set by the system controller of the same participant. -/
  | workflow (required : List String)
  | connected (p : String)
  | disconnected (p : String)
deriving Repr, DecidableEq

/-- `SystemMonitor::ReceiveMsg(ParticipantStatus)`, SystemMonitor.cpp:115-129. -/
def Monitor.receive (m : Monitor) (p : String) (s : ParticipantState) : Monitor × List Out :=
  let r := m.tracker.update p s
  ({ m with tracker := r.tracker },
   (if r.throws then [.exception] else []) ++ (if r.participantChanged then [.participantStatus p s] else []) ++
   (if r.systemChanged then [.systemState r.tracker.system] else []))

/-- `SystemMonitor::UpdateRequiredParticipantNames`, SystemMonitor.cpp:37-45. -/
def Monitor.workflow (m : Monitor) (names : List String) : Monitor × List Out :=
  let r := m.tracker.require names
  ({ m with tracker := r.1 }, if r.2 then [.systemState r.1.system] else [])

/-- `SystemMonitor::OnParticipantConnected`, SystemMonitor.cpp:158-175. -/
def Monitor.onConnected (m : Monitor) (p : String) : Monitor × List Out :=
  if m.connected.contains p then (m, []) else ({ m with connected := p :: m.connected }, [.connected p])

/-- The first part of `OnParticipantDisconnected`, SystemMonitor.cpp:179-226. -/
def Monitor.reportCrash (m : Monitor) (p : String) : Monitor × List Out :=
  match m.tracker.status p with
  | none | some .shutdown | some .invalid => (m, [])
  | some _ => m.receive p .error

/-- The rest of `OnParticipantDisconnected`, SystemMonitor.cpp:228-252. -/
def Monitor.forget (m : Monitor) (p : String) : Monitor × List Out :=
  let r := m.tracker.remove p
  ({ tracker := r.1, connected := m.connected.filter (· ≠ p) },
   (if r.2 then [.systemState r.1.system] else []) ++ [.disconnected p])

/-- The reaction to an event; for a disconnect `SystemMonitor::OnParticipantDisconnected`, SystemMonitor.cpp:177-253. -/
def Monitor.on (m : Monitor) (e : Event) : Monitor × List Out :=
  match e with
  | .status p s => m.receive p s
  | .workflow names => m.workflow names
  | .connected p => m.onConnected p
  | .disconnected p =>
    let r := m.reportCrash p
    let r' := r.1.forget p
    (r'.1, r.2 ++ r'.2)

end SilKit.SystemState
