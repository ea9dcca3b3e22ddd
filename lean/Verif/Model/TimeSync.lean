import Verif.Model.ParticipantState
import Verif.Model.TimeConfiguration
/-!
# Model of the time synchronization of one participant

`SilKit/source/services/orchestration/TimeSyncService.cpp`: `SynchronizedPolicy` and the parts of `TimeSyncService` around it.

Everything runs on the I/O thread. `ExecuteDeferred([..]{ ProcessSimulationTimeUpdate(); })` increments `polls`; the deferred call
is a separate event. A blocking simulation step handler occupies the I/O thread: the step starts (output `step`), the flag
`inHandler` is set, and the rest of `AdvanceTimeSimStepSync` runs when the handler returns (`stepReturned`). The state of the
lifecycle, the requests to stop or pause, the system state and the wall clock belong to the environment and change at
arbitrary moments. Metrics, logging, the watch dog and the capability check of old peers are omitted.
-/
namespace SilKit.TimeSync

/-- State of `TimeSyncService` + `SynchronizedPolicy`, TimeSyncService.cpp:68-286. -/
structure Part where
  cfg : TimeConfig := {}
  /-- `_controller.State()` -/
  state : ParticipantState := .invalid
  /-- `StopRequested()` -/
  stopRequested : Bool := false
  /-- `PauseRequested()` -/
  pauseRequested : Bool := false
  /-- operation mode is `Coordinated` -/
  coordinated : Bool := false
  /-- `SystemState() == SystemState::Error` -/
  systemError : Bool := false
  /-- `IsCoupledToWallClock()` -/
  coupled : Bool := false
  /-- `GetCurrentWallClockSyncPoint()` -/
  wallClock : Int := 0
  /-- `_wallClockReachedBeforeCompletion` -/
  wallClockReached : Bool := false
  /-- `_lastSentNextSimTask` -/
  lastSent : Int := -1
  /-- `_isExecutingSimStep` -/
  asyncExecuting : Bool := false
  /-- `_hopOnEvaluated` -/
  hopOnEvaluated : Bool := false
  /-- the I/O thread is inside a blocking simulation step handler -/
  inHandler : Bool := false
  /-- number of deferred calls of `ProcessSimulationTimeUpdate` -/
  polls : Nat := 0
deriving Repr, DecidableEq

/-- Observable effects. -/
inductive Out where
  /-- `SendMsg(NextSimTask)` to all participants -/
  | send (t : Task)
  /-- the simulation step handler is called -/
  | step (tp dur : Int)
  /-- `AbortSimulation` -/
  | abort
  /-- `ReportError` -/
  | reportError
deriving Repr, DecidableEq

/-- `SynchronizedPolicy::RequestNextStep`, TimeSyncService.cpp:95-111. -/
def Part.requestNextStep (s : Part) : Part × List Out :=
  if s.state = .running ∧ s.stopRequested = false ∧ s.pauseRequested = false then
    ({ s with lastSent := s.cfg.next.tp, polls := s.polls + 1 },
      if s.lastSent ≠ s.cfg.next.tp then [.send s.cfg.next] else [])
  else (s, [])

/-- `IsTimeAdvancePossible`, TimeSyncService.cpp:173-212. -/
def Part.advancePossible (s : Part) : Bool :=
  s.state == .running && !s.stopRequested && !s.pauseRequested && !(s.coordinated && s.systemError) && !s.cfg.otherLower
    && !(s.coupled && decide (s.wallClock < s.cfg.next.tp))

/-- `AdvanceTimeAndExecuteSimStep`, last part, TimeSyncService.cpp:272-276. -/
def Part.execute (s : Part) : Part × List Out :=
  ({ s with cfg := s.cfg.advance }, [.step s.cfg.advance.current.tp s.cfg.advance.current.dur])

/-- `StartWallClockCouplingThread`, TimeSyncService.cpp:797-800: the offset; the thread itself is part of the environment. -/
def Part.startWallClock (s : Part) : Part := if s.coupled then { s with wallClock := s.cfg.next.tp } else s

/-- `AdvanceTimeAndExecuteSimStep`, TimeSyncService.cpp:251-278. -/
def Part.advanceAndExecute (s : Part) : Part × List Out :=
  if s.state = .paused ∨ s.state = .running then
    if s.hopOnEvaluated then s.execute
    else if s.cfg.isHopOn then
      if s.coordinated then ({ s with hopOnEvaluated := true, cfg := s.cfg.hopOn }, [.abort])
      else ({ s with hopOnEvaluated := true, cfg := s.cfg.hopOn } : Part).startWallClock.execute
    else ({ s with hopOnEvaluated := true } : Part).startWallClock.execute
  else (s, [])

/-- Second half of `AdvanceTimeSimStepSync`, TimeSyncService.cpp:218-227. -/
def Part.afterSyncStep (s : Part) : Part × List Out :=
  if s.pauseRequested = false ∧ s.coupled = false then s.requestNextStep else (s, [])

/-- `AdvanceTimeSimStepSync`, TimeSyncService.cpp:214-228: when the handler has been called, the rest waits for `stepReturned`. -/
def Part.advanceSync (s : Part) : Part × List Out :=
  let r := s.advanceAndExecute
  if r.2 = [.abort] ∨ r.2 = [] then
    let r' := r.1.afterSyncStep
    (r'.1, r.2 ++ r'.2)
  else ({ r.1 with inHandler := true }, r.2)

/-- `AdvanceTimeSimStepAsync`, TimeSyncService.cpp:230-249. -/
def Part.advanceAsync (s : Part) : Part × List Out :=
  if s.asyncExecuting then (s, []) else ({ s with asyncExecuting := true } : Part).advanceAndExecute

/-- `ProcessSimulationTimeUpdate`, TimeSyncService.cpp:151-165. -/
def Part.process (s : Part) : Part × List Out :=
  if s.advancePossible then (if s.cfg.blocking then s.advanceSync else s.advanceAsync) else (s, [])

/-- `ReceiveNextSimTask`, TimeSyncService.cpp:113-149. -/
def Part.receive (s : Part) (q : String) (t : Task) : Part × List Out :=
  let s := { s with cfg := s.cfg.receive q t }
  match s.state with
  | .paused => s.process
  | .running => s.process
  | .aborting => (s, [.reportError])
  | _ => (s, [])

/-- The discovery handler for a new time synchronization service, TimeSyncService.cpp:378-411. -/
def Part.discovered (s : Part) (q : String) : Part × List Out :=
  let s := { s with cfg := s.cfg.add q }
  (s, if 0 ≤ s.cfg.current.tp then [.send (if s.asyncExecuting then s.cfg.current else s.cfg.next)] else [])

/-- The discovery handler for a vanished time synchronization service, TimeSyncService.cpp:412-430. -/
def Part.lost (s : Part) (q : String) : Part × List Out :=
  if (s.cfg.view q).isSome then ({ s with cfg := s.cfg.remove q } : Part).process else (s, [])

/-- The deferred part of `CompleteSimulationStep`, TimeSyncService.cpp:606-626. -/
def Part.complete (s : Part) : Part × List Out :=
  let s := { s with asyncExecuting := false }
  if s.coupled = false ∨ s.wallClockReached = true then ({ s with wallClockReached := false } : Part).requestNextStep
  else (s, [])

/-- Whether the participant has started a step and not completed it. -/
def Part.busy (s : Part) : Bool := s.inHandler || s.asyncExecuting

/-- Everything that can happen to one participant. -/
inductive Event where
  /-- the lifecycle changes its state or the requests to stop or pause -/
  | lifecycle (state : ParticipantState) (stop pause : Bool)
  /-- the state of the whole simulation enters or leaves `Error` -/
  | systemError (b : Bool)
  /-- the wall clock thread moves its sync point (`reached`: a step was still executing), 815-830 -/
  | wallClock (t : Int) (reached : Bool)
  /-- `SetStepDuration`, by the user, from any thread -/
  | setStepDuration (d : Int)
  /-- `RecomputeDynamicStepEnabled`, 881-906 -/
  | setDynamic (b : Bool)
  | discovered (q : String)
  | lost (q : String)
  | receive (q : String) (t : Task)
  /-- a (deferred) call of `RequestNextStep`: `StartTime` 701, `Continue` (LifecycleService.cpp:236), wall clock thread 833 -/
  | request
  /-- a deferred call of `ProcessSimulationTimeUpdate`, 109 -/
  | poll
  /-- a blocking simulation step handler returns -/
  | stepReturned
  /-- the deferred part of `CompleteSimulationStep` -/
  | complete
deriving Repr, DecidableEq

/-- Whether an event runs on the I/O thread (and so has to wait for a blocking handler). -/
def Event.onIoThread : Event → Bool
  | .discovered _ | .lost _ | .receive _ _ | .request | .poll | .complete => true
  | _ => false

/-- One event; `none` if it cannot happen now (or is rejected). -/
def Part.on (s : Part) (e : Event) : Option (Part × List Out) :=
  if s.inHandler ∧ e.onIoThread then none
  else match e with
    | .lifecycle st stop pause => some ({ s with state := st, stopRequested := stop, pauseRequested := pause }, [])
    | .systemError b => some ({ s with systemError := b }, [])
    | .wallClock t r => some ({ s with wallClock := t, wallClockReached := r }, [])
    | .setStepDuration d => (s.cfg.setStepDuration d).map (fun c => ({ s with cfg := c }, []))
    | .setDynamic b => some ({ s with cfg := { s.cfg with dynamic := b } }, [])
    | .discovered q => some (s.discovered q)
    | .lost q => some (s.lost q)
    | .receive q t => some (s.receive q t)
    | .request => some s.requestNextStep
    | .poll => if s.polls = 0 then none else some ({ s with polls := s.polls - 1 } : Part).process
    | .stepReturned => if s.inHandler then some ({ s with inHandler := false } : Part).afterSyncStep else none
    | .complete => some s.complete

end SilKit.TimeSync
