/-!
# Autonomous participants with virtual time, and participants that do not support them

`SilKit/source/services/orchestration/TimeSyncService.cpp`, `LifecycleService.cpp`: before a participant with an autonomous lifecycle and virtual time takes part in
the simulation, it looks for others that do not have the capability "autonomous-synchronous". The user's thread makes settings while the I/O thread handles
discoveries; the two are interleaved between the check and the addition of a participant.
-/
namespace SilKit.AutonomousCheck

inductive Op where
  /-- `CreateLifecycleService`: `SetLifecycleConfiguration`, LifecycleService.cpp:251-254. -/
  | configure (autonomous : Bool)
  /-- `CreateTimeSyncService`, LifecycleService.cpp:425-444. -/
  | createTimeSync
  /-- `StartLifecycle`, LifecycleService.cpp:104-150: `InitializeTimeSyncPolicy`, TimeSyncService.cpp:630-633. -/
  | startLifecycle
  /-- The connection to `q` is there, with or without the capability, or it is gone. -/
  | peer (q : String) (capability : Option Bool)
  /-- The I/O thread handles the discovery of the time synchronization service of `q`, up to the check: TimeSyncService.cpp:332-380. -/
  | discover (q : String) (active : Bool)
  /-- … and the rest: lines 381-386. -/
  | finish
  /-- … its removal: lines 414-424. -/
  | remove (q : String)
  /-- The lifecycle gets to Running, on the I/O thread: `StartTime`, TimeSyncService.cpp:677-702. -/
  | startTime
deriving DecidableEq, Repr

inductive Out where
  /-- A synchronized participant has been discovered, or its removal. -/
  | seen (q : String)
  | gone (q : String)
  /-- `AbortSimulation` because of `q` (one message to all; at the start, because of all those that lack the capability). -/
  | aborted (q : String)
  /-- The first step is requested. -/
  | requested
deriving DecidableEq, Repr

structure State where
  /-- `LifecycleService::_operationMode` is `Autonomous`. -/
  autonomous : Bool := false
  /-- `LifecycleService::_timeSyncActive`. -/
  timeSync : Bool := false
  /-- `LifecycleService::_isLifecycleStarted`. -/
  started : Bool := false
  /-- `TimeSyncService::_isSynchronizingVirtualTime`. -/
  syncing : Bool := false
  /-- The connected participants, and whether they have the capability: `FindPeerByName`, `VAsioPeerInfo::capabilities`. -/
  peers : String → Option Bool := fun _ => none
  /-- The keys of `TimeConfiguration::_otherNextTasks`. -/
  synced : List String := []
  /-- The handler of the I/O thread is between the check and the addition. -/
  pending : Option String := none

/-- `!ParticipantHasAutonomousSynchronousCapability`, TimeSyncService.cpp:723-741, VAsioConnection.cpp:1952-1965. -/
def State.lacks (s : State) (q : String) : Bool := s.autonomous && s.timeSync && s.peers q != some true

/-- Settings of the user's thread happen at any time; what the I/O thread does, only if it is not inside a handler. That the lifecycle gets to Running only if it has been started
is left to Model/Lifecycle.lean. -/
def step (own : String) (s : State) : Op → State × List Out
  | .configure a => ({ s with autonomous := a }, [])
  | .createTimeSync => ({ s with timeSync := true }, [])
  | .startLifecycle => if s.started then (s, []) else ({ s with started := true, syncing := s.timeSync }, [])
  | .peer q c => ({ s with peers := fun x => if x = q then c else s.peers x }, [])
  | .discover q active =>
    if s.pending ≠ none ∨ q = own ∨ active = false then (s, [])
    else if s.lacks q then (s, [.seen q, .aborted q]) else ({ s with pending := some q }, [.seen q])
  | .finish => match s.pending with | none => (s, []) | some q => ({ s with synced := if q ∈ s.synced then s.synced else q :: s.synced, pending := none }, [])
  | .remove q => if s.pending ≠ none ∨ q = own then (s, []) else ({ s with synced := s.synced.filter (· ≠ q) }, [.gone q])
  | .startTime =>
    if s.pending ≠ none ∨ s.started = false then (s, [])
    else (s, (if s.syncing then ((s.synced.filter s.lacks).take 1).map .aborted else []) ++ [.requested])

/-- A schedule. -/
def run (own : String) (ops : List Op) : State × List Out :=
  ops.foldl (fun r op => let x := step own r.1 op; (x.1, r.2 ++ x.2)) ({}, [])

end SilKit.AutonomousCheck
