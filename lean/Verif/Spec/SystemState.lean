import Verif.Model.SystemState
/-!
# Specification of the system state (C20, C21)
-/
namespace SilKit.SystemState.Spec

/-- What the tracker is told. -/
inductive Op where
  | update (p : String) (s : ParticipantState)
  | remove (p : String)
  | require (names : List String)
deriving Repr, DecidableEq

/-- One step of the tracker, and whether it changes the system state. -/
def step (t : Tracker) : Op → Tracker × Bool
  | .update p s => ((t.update p s).tracker, (t.update p s).systemChanged)
  | .remove p => t.remove p
  | .require names => t.require names

def run (h : List Op) : Tracker := h.foldl (fun t o => (step t o).1) {}

/-- The state of a participant according to a history: what it published last; nothing counts after Shutdown until it has gone. -/
def current (h : List Op) (p : String) : Option ParticipantState :=
  h.foldl (fun c o => match o with
    | .update q s => if q = p then (if c = some .shutdown then c else if s = .invalid then some (c.getD .invalid) else some s) else c
    | .remove q => if q = p then none else c
    | .require _ => c) none

/-- The required participants according to a history. -/
def required (h : List Op) : List String :=
  h.foldl (fun r o => match o with | .require names => names | _ => r) []

/-- The participant states that justify a system state: how far the others may be when one participant has reached it. -/
def companions : ParticipantState → List ParticipantState
  | .servicesCreated => [.servicesCreated, .communicationInitializing, .communicationInitialized, .readyToRun, .running]
  | .communicationInitializing => [.communicationInitializing, .communicationInitialized, .readyToRun, .running]
  | .communicationInitialized => [.communicationInitialized, .readyToRun, .running]
  | .readyToRun => [.readyToRun, .running]
  | .running => [.running]
  | .paused => [.running, .paused]
  | .stopping => [.running, .paused, .stopping, .stopped, .shuttingDown, .shutdown]
  | .stopped => [.running, .paused, .stopped, .shuttingDown, .shutdown]
  | .shuttingDown => [.running, .paused, .stopped, .shuttingDown, .shutdown, .error, .servicesCreated, .readyToRun]
  | .shutdown => [.running, .paused, .stopped, .shuttingDown, .shutdown]
  | .invalid | .error | .aborting => []

/-- A system state is justified by the states of the required participants: Error and Aborting by one participant in that state; a
regular state by one participant in that state and all others not behind (or, for the states after Running, not before) it. -/
def Justified (names : List String) (cur : String → Option ParticipantState) (s : ParticipantState) : Prop :=
  match s with
  | .error | .aborting => ∃ p ∈ names, cur p = some s
  | _ => (∃ p ∈ names, cur p = some s) ∧ ∀ p ∈ names, ∃ x ∈ companions s, cur p = some x

/-- The system states reported to the user, in order. -/
def reports (h : List Op) : List ParticipantState :=
  (h.foldl (fun (r : Tracker × List ParticipantState) o =>
    ((step r.1 o).1, if (step r.1 o).2 then r.2 ++ [(step r.1 o).1.system] else r.2)) ({}, [])).2

/-- The system state as the user knows it: the last one reported, Invalid before the first report. -/
def systemState (h : List Op) : ParticipantState := (reports h).getLastD .invalid

/-- The history after the set of required participants was fixed changes it no more. -/
def FixedRequired (h : List Op) : Prop := ∀ names, Op.require names ∉ h

/-- A history as seen by a system monitor. -/
def monitor (h : List Event) : Monitor × List Out :=
  h.foldl (fun r e => ((r.1.on e).1, r.2 ++ (r.1.on e).2)) ({}, [])

/-- The state a participant published last, as far as the monitor has received it; nothing counts after Shutdown until the
participant has gone. -/
def received (h : List Event) (p : String) : Option ParticipantState :=
  h.foldl (fun c e => match e with
    | .status q s => if q = p then (if c = some .shutdown then c else if s = .invalid then some (c.getD .invalid) else some s) else c
    | .disconnected q => if q = p then none else c
    | _ => c) none

/-- The required participants, as far as the monitor has been told. -/
def requiredOf (h : List Event) : List String :=
  h.foldl (fun r e => match e with | .workflow names => names | _ => r) []

/-- What a history of the monitor means for the tracker: a participant that disconnects without having shut down is taken to be in
Error before it is removed. -/
def opsFrom (before : List Event) : List Event → List Op
  | [] => []
  | .status p s :: rest => .update p s :: opsFrom (before ++ [.status p s]) rest
  | .workflow names :: rest => .require names :: opsFrom (before ++ [.workflow names]) rest
  | .connected p :: rest => opsFrom (before ++ [.connected p]) rest
  | .disconnected p :: rest =>
    (if received before p ∈ [none, some .invalid, some .shutdown] then [.remove p] else [.update p .error, .remove p]) ++
      opsFrom (before ++ [.disconnected p]) rest

def ops (h : List Event) : List Op := opsFrom [] h

/-- The system states reported to the handlers. -/
def systemReports (outs : List Out) : List ParticipantState :=
  outs.filterMap (fun o => match o with | .systemState s => some s | _ => none)

/-- The state last reported to the handlers for a participant. -/
def statusReport (outs : List Out) (p : String) : Option ParticipantState :=
  (outs.filterMap (fun o => match o with | .participantStatus q s => if q = p then some s else none | _ => none)).getLast?

/-- Connects (`true`) and disconnects of `p`. -/
def presence (h : List Event) (p : String) : List Bool :=
  h.filterMap fun | .connected q => if q = p then some true else none | .disconnected q => if q = p then some false else none | _ => none

/-- What the handlers are told about the presence of `p`. -/
def presenceReports (outs : List Out) (p : String) : List Bool :=
  outs.filterMap fun | .connected q => if q = p then some true else none | .disconnected q => if q = p then some false else none | _ => none

/-- Every disconnect, and every connect that follows none since the last disconnect. -/
def newsFrom : Bool → List Bool → List Bool
  | _, [] => []
  | true, true :: l => newsFrom true l
  | false, true :: l => true :: newsFrom true l
  | _, false :: l => false :: newsFrom false l

end SilKit.SystemState.Spec
