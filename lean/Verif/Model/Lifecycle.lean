import Verif.Model.ParticipantState
/-!
# The lifecycle of one participant

`SilKit/source/services/orchestration/{LifecycleStates,LifecycleManagement,LifecycleService}.cpp`, with the parts of
`core/requests/procs/ParticipantReplies.cpp` and `core/vasio/VAsioConnection.cpp` the lifecycle waits for.

All functions below run on the participant's I/O thread: user calls post a function to it (`ExecuteDeferred`), messages are received
on it. Publishing a state also only posts (`VAsioConnection::SendMsg`, VAsioConnection.hpp:153-156), so the system state never changes
in the middle of a transition; hence the flags `_handlerExecuting` and `_abortRequested` (set by an abort that arrives during a
handler) are never observed set and are not modelled.

Simplifications: `OperationMode::Invalid` and restarting (which always throws) are left out; log messages and reasons are left out;
the call of the system state handler made by `StartLifecycle` on the user's thread (`SystemMonitor::AddSystemStateHandler`) is an
ordinary event of the I/O thread here.
-/
namespace SilKit.Lifecycle

/-- `OperationMode`, whether the time synchronization service was created (`_timeSyncActive`), and the handlers the user has set.
LifecycleService.hpp. -/
structure Config where
  autonomous : Bool := false
  timeSync : Bool := false
  /-- The communication ready handler, if set, and whether it is asynchronous (`_commReadyHandlerIsAsync`). -/
  commReady : Option Bool := none
  starting : Bool := false
  stop : Bool := false
  shutdown : Bool := false
  abort : Bool := false
deriving Repr, DecidableEq

/-- Whether each of the user's handlers, if called now, throws an exception. -/
structure Throws where
  commReady : Bool := false
  starting : Bool := false
  stop : Bool := false
deriving Repr, DecidableEq

/-- The user's handlers; the abort handler is given the state left by the abort. -/
inductive Handler where
  | commReady | starting | stop | shutdown
  | abort (last : ParticipantState)
deriving Repr, DecidableEq

/-- What others, or the user, can observe. -/
inductive Out where
  /-- A `ParticipantStatus` with this state is sent. -/
  | published (s : ParticipantState)
  /-- A handler of the user is invoked. -/
  | called (h : Handler)
  /-- The future returned by `StartLifecycle` is completed. -/
  | future (s : ParticipantState)
  /-- `NotifyShutdown`: the connection is told that disconnects are expected from now on. -/
  | notifyShutdown
  /-- A request to wait for all participants is dropped with a log message. -/
  | dropped
  /-- `TimeSyncService::StartTime` and `StopTime`. -/
  | startTime | stopTime
  /-- An exception leaves the function posted to the I/O thread (it is caught and logged). -/
  | exception
deriving Repr, DecidableEq

/-- The functions the lifecycle passes to `CallAfterAllParticipantsReplied`: LifecycleStates.cpp:166-171, 585-586, 696-712. -/
inductive Completion where
  | servicesCreated | stopped | final
deriving Repr, DecidableEq

/-- `LifecycleManagement`, `LifecycleService`, `ParticipantReplies`, and the waiting list of `VAsioConnection`. -/
structure Life where
  /-- `_currentState`, which is also `_status.state`: both are set together in `SetState`. -/
  state : ParticipantState := .invalid
  /-- `_lastBeforeAbortingState`. -/
  lastBefore : Option ParticipantState := none
  /-- `_commReadyHandlerInvoked`, `_commReadyHandlerCompleted`. -/
  commInvoked : Bool := false
  commCompleted : Bool := false
  /-- Posted calls of `CompleteCommunicationReadyHandler` that have not run yet. -/
  completing : Nat := 0
  /-- `_stopRequestedDueToSystemStateChange`. -/
  stopDueToSystem : Bool := false
  /-- Posted calls of `CallAfterAllParticipantsReplied` that have not run yet, oldest first. -/
  pending : List Completion := []
  /-- `_completionFunction` if `_barrierActive`. -/
  active : Option Completion := none
  /-- `_hasPendingAsyncSubscriptions`. -/
  subsPending : Bool := false
  /-- The number of `_asyncSubscriptionsCompletionHandlers`. -/
  subsWaiting : Nat := 0
  /-- Whether `_finalStatePromise` has a value. -/
  finalSet : Bool := false
deriving Repr, DecidableEq

/-- One thing after the other. -/
def andThen (r : Life × List Out) (f : Life → Life × List Out) : Life × List Out :=
  ((f r.1).1, r.2 ++ (f r.1).2)

/-- `LifecycleManagement::SetState`, `UpdateLifecycleState`, `UpdateParticipantState`, LifecycleManagement.cpp:258-290, and
`LifecycleService::ChangeParticipantState`, LifecycleService.cpp:475-497. `SetStateAndForwardIntent` (264-272) is this followed by the
method of the new state. -/
def setState (l : Life) (s : ParticipantState) : Life × List Out :=
  ({ l with state := s, lastBefore := if s = .aborting then some l.state else l.lastBefore }, [.published s])

/-- `LifecycleManagement::Error`, LifecycleManagement.cpp:118: `State::Error` (LifecycleStates.cpp:82-85), ignored in the states
Shutdown (689-692) and Error (814-819). Also `InvalidStateTransition` with `triggerErrorState` (87-106), the reaction to every
request that has no meaning in the current state. -/
def error (l : Life) : Life × List Out :=
  if l.state = .shutdown ∨ l.state = .error then (l, []) else setState l .error

/-- `CallAfterAllParticipantsReplied` posts a function to the I/O thread, ParticipantReplies.cpp:29-32. -/
def callAfterAllReplied (l : Life) (c : Completion) : Life × List Out := ({ l with pending := l.pending ++ [c] }, [])

/-- `ShuttingDownState::ShutdownParticipant`, LifecycleStates.cpp:639-651, with `HandleShutdown`: an exception of the handler is
ignored. Then `ShutdownState::ShutdownParticipant`, 694-713. -/
def shutdownInShuttingDown (cfg : Config) (l : Life) : Life × List Out :=
  andThen (andThen (l, if cfg.shutdown then [.called .shutdown] else []) (setState · .shutdown)) (callAfterAllReplied · .final)

/-- `AbortingState::ResolveAbortSimulation`, LifecycleStates.cpp:753-769, with `HandleAbort` (an exception of the handler is ignored;
the missing-state exception at LifecycleManagement.cpp:202 cannot happen, as this is only called after `setState … .aborting`) and
`ShutdownAfterAbort`: `AbortingState::ShutdownParticipant`, 742-746, then `ShutdownState::ShutdownParticipant`. -/
def resolveAbort (cfg : Config) (l : Life) : Life × List Out :=
  andThen (andThen (l, if cfg.abort then [.called (.abort (l.lastBefore.getD .invalid))] else []) (setState · .shutdown))
    (callAfterAllReplied · .final)

/-- `LifecycleManagement::AbortSimulation`, LifecycleManagement.cpp:123-132. Ignored in the states Shutdown (LifecycleStates.cpp:715),
ShuttingDown (653) and Aborting (748); in Stopping (533) only a flag is set. Otherwise `ProcessAbortCommand` (120-125). -/
def abort (cfg : Config) (l : Life) : Life × List Out :=
  match l.state with
  | .shutdown | .shuttingDown | .aborting | .stopping => (l, [])
  | .running => andThen (andThen (l, [.stopTime]) (setState · .aborting)) (resolveAbort cfg)
  | _ => andThen (setState l .aborting) (resolveAbort cfg)

/-- `LifecycleManagement::Shutdown`, LifecycleManagement.cpp:69: `ShutdownParticipant` of the states Stopped (LifecycleStates.cpp:594),
Error (797), ShuttingDown (639), Shutdown (694), Aborting (742); an invalid transition otherwise. -/
def shutdown (cfg : Config) (l : Life) : Life × List Out :=
  match l.state with
  | .stopped | .error => andThen (setState l .shuttingDown) (shutdownInShuttingDown cfg)
  | .shuttingDown => shutdownInShuttingDown cfg l
  | .shutdown => callAfterAllReplied l .final
  | .aborting => andThen (setState l .shutdown) (callAfterAllReplied · .final)
  | _ => error l

/-- `StoppingState::StopSimulation`, LifecycleStates.cpp:505-531, and `StoppedState::StopSimulation`, 580-587. -/
def stopInStopping (cfg : Config) (o : Throws) (l : Life) : Life × List Out :=
  andThen (l, if cfg.stop then [.called .stop] else []) fun l =>
    if cfg.stop && o.stop then setState l .error
    else andThen (setState l .stopped) (callAfterAllReplied · .stopped)

/-- `LifecycleManagement::Stop`, LifecycleManagement.cpp:89: the states Running (LifecycleStates.cpp:451), Paused (489), Stopping
(505), Stopped (580), Error (792); a warning otherwise. -/
def stop (cfg : Config) (o : Throws) (l : Life) : Life × List Out :=
  match l.state with
  | .running => andThen (andThen (l, [.stopTime]) (setState · .stopping)) (stopInStopping cfg o)
  | .paused => andThen (setState l .stopping) (stopInStopping cfg o)
  | .stopping => stopInStopping cfg o l
  | .stopped => callAfterAllReplied l .stopped
  | .error => shutdown cfg l
  | _ => (l, [])

/-- `ReadyToRunState::ReadyToRun`, LifecycleStates.cpp:356-401, and `RunningState::ReadyToRun`, 436-439. -/
def readyToRunInReadyToRun (cfg : Config) (o : Throws) (l : Life) : Life × List Out :=
  if cfg.timeSync then andThen (setState l .running) (fun l => (l, [.startTime]))
  else
    andThen (l, if cfg.starting then [.called .starting] else []) fun l =>
      if cfg.starting && o.starting then setState l .error else setState l .running

/-- `LifecycleManagement::ReadyToRun`, LifecycleManagement.cpp:60: the states ReadyToRun, Running (LifecycleStates.cpp:436), Shutdown
(674, ignored); an invalid transition otherwise. -/
def readyToRun (cfg : Config) (o : Throws) (l : Life) : Life × List Out :=
  match l.state with
  | .readyToRun => readyToRunInReadyToRun cfg o l
  | .running => (l, [.startTime])
  | .shutdown => (l, [])
  | _ => error l

/-- `CommunicationInitializedState::CompleteCommunicationReadyHandler`, LifecycleStates.cpp:293-297, and
`ReadyToRunState::CommunicationInitialized`, 348-354. -/
def completeCommReadyInInitialized (cfg : Config) (o : Throws) (l : Life) : Life × List Out :=
  andThen (setState l .readyToRun) fun l => if cfg.autonomous then readyToRunInReadyToRun cfg o l else (l, [])

/-- `CommunicationInitializedState::CommunicationInitialized`, LifecycleStates.cpp:254-291, with
`LifecycleManagement::HandleCommunicationReady`, LifecycleManagement.cpp:139-163, and
`LifecycleService::TriggerCommunicationReadyHandler`, LifecycleService.cpp:261-283. -/
def commInitializedInInitialized (cfg : Config) (o : Throws) (l : Life) : Life × List Out :=
  match cfg.commReady with
  | none => completeCommReadyInInitialized cfg o l
  | some true =>
    if l.commInvoked then (l, [])
    else
      andThen ({ l with commInvoked := true, commCompleted := false }, [.called .commReady]) fun l =>
        if o.commReady then setState l .error else (l, [])
  | some false =>
    andThen (l, [.called .commReady]) fun l =>
      if o.commReady then setState l .error else completeCommReadyInInitialized cfg o l

/-- `LifecycleManagement::CommunicationInitialized`, LifecycleManagement.cpp:50: the states CommunicationInitialized, ReadyToRun
(LifecycleStates.cpp:348), Running (431, ignored), Shutdown (679, ignored); an invalid transition otherwise. -/
def commInitialized (cfg : Config) (o : Throws) (l : Life) : Life × List Out :=
  match l.state with
  | .communicationInitialized => commInitializedInInitialized cfg o l
  | .readyToRun => if cfg.autonomous then readyToRunInReadyToRun cfg o l else (l, [])
  | .running | .shutdown => (l, [])
  | _ => error l

/-- `LifecycleManagement::CompleteCommunicationReadyHandler`, LifecycleManagement.cpp:55: an invalid transition except in the state
CommunicationInitialized. -/
def completeCommReady (cfg : Config) (o : Throws) (l : Life) : Life × List Out :=
  if l.state = .communicationInitialized then completeCommReadyInInitialized cfg o l else error l

/-- The function stored until all subscriptions are complete, LifecycleStates.cpp:206-210, and
`CommunicationInitializedState::CommunicationInitializing`, 244-252. It does not check the current state. -/
def subscriptionsDone (cfg : Config) (o : Throws) (l : Life) : Life × List Out :=
  andThen (setState l .communicationInitialized) fun l =>
    if cfg.autonomous then commInitializedInInitialized cfg o l else (l, [])

/-- `VAsioConnection::AddAsyncSubscriptionsCompletionHandler`, VAsioConnection.cpp:1854-1864, called by
`CommunicationInitializingState::CommunicationInitializing`, LifecycleStates.cpp:202-211. -/
def awaitSubscriptions (cfg : Config) (o : Throws) (l : Life) : Life × List Out :=
  if l.subsPending then ({ l with subsWaiting := l.subsWaiting + 1 }, []) else subscriptionsDone cfg o l

/-- `AsyncSubscriptionsCompleted`, VAsioConnection.cpp:1945-1950: invokes all stored functions. (If there is more than one, a
handler of the user called by several of them behaves the same each time.) -/
def allSubscriptionsDone (cfg : Config) (o : Throws) : Nat → Life → Life × List Out
  | 0, l => ({ l with subsWaiting := 0, subsPending := false }, [])
  | n + 1, l => andThen (subscriptionsDone cfg o l) (allSubscriptionsDone cfg o n)

/-- `LifecycleService::SetFinalStatePromise`, LifecycleService.cpp:363-376: a second value is ignored. -/
def setFinalStatePromise (l : Life) : Life × List Out :=
  if l.finalSet then (l, []) else ({ l with finalSet := true }, [.future l.state])

/-- The functions passed to `CallAfterAllParticipantsReplied`. That of the state ServicesCreated (LifecycleStates.cpp:166-171) does
not check the current state and continues with `CommunicationInitializingState::ServicesCreated` (197-200). -/
def complete (cfg : Config) (o : Throws) (c : Completion) (l : Life) : Life × List Out :=
  match c with
  | .servicesCreated => andThen (setState l .communicationInitializing) (awaitSubscriptions cfg o)
  | .stopped => shutdown cfg l
  | .final => if l.state = .error then (l, []) else andThen (l, [.notifyShutdown]) setFinalStatePromise

/-- The function posted by `CallAfterAllParticipantsReplied` runs, ParticipantReplies.cpp:32-64; `alone` tells whether there are no
other participants. -/
def barrierStart (cfg : Config) (o : Throws) (alone : Bool) (l : Life) : Life × List Out :=
  match l.pending with
  | [] => (l, [])
  | c :: rest =>
    if l.active.isSome then ({ l with pending := rest }, [.dropped])
    else if alone then complete cfg o c { l with pending := rest }
    else ({ l with pending := rest, active := some c }, [])

/-- The last participant replies, ParticipantReplies.cpp:88-103. (`_barrierActive` is reset after the completion function, which does
not read it.) -/
def barrierDone (cfg : Config) (o : Throws) (l : Life) : Life × List Out :=
  match l.active with
  | none => (l, [])
  | some c => complete cfg o c { l with active := none }

/-- `LifecycleManagement::ServicesCreated` and `StartAutonomous`, LifecycleManagement.cpp:45, 113: the states ServicesCreated
(LifecycleStates.cpp:160), CommunicationInitializing (197); an invalid transition otherwise. -/
def servicesCreated (cfg : Config) (o : Throws) (l : Life) : Life × List Out :=
  match l.state with
  | .servicesCreated => callAfterAllReplied l .servicesCreated
  | .communicationInitializing => awaitSubscriptions cfg o l
  | _ => error l

/-- `LifecycleManagement::Initialize`, LifecycleManagement.cpp:40: the state Invalid (LifecycleStates.cpp:130), ignored in Shutdown
(669), Aborting (737), Error (782); an invalid transition otherwise. -/
def initState (l : Life) : Life × List Out :=
  match l.state with
  | .invalid => setState l .servicesCreated
  | .shutdown | .aborting | .error => (l, [])
  | _ => error l

/-- `LifecycleService::Pause`, LifecycleService.cpp:208-221 (the posted function), and `RunningState::PauseSimulation`,
LifecycleStates.cpp:441. In a wrong state an error is reported – that is a further posted function, see `Event.reportError` – and an
exception is thrown. -/
def pause (l : Life) : Life × List Out :=
  if l.state = .running then setState l .paused else (l, [.exception])

/-- `LifecycleService::Continue`, LifecycleService.cpp:223-238, and `PausedState::ContinueSimulation`, LifecycleStates.cpp:484. -/
def resume (l : Life) : Life × List Out :=
  if l.state = .paused then setState l .running else (l, [.exception])

/-- `LifecycleService::ReportError`, LifecycleService.cpp:180-206 (the posted function). -/
def reportError (l : Life) : Life × List Out :=
  if l.state = .shutdown then (l, []) else error l

/-- `LifecycleService::NewSystemState`, LifecycleService.cpp:504-584. `SystemState` has the same enumerators as `ParticipantState`. -/
def newSystemState (cfg : Config) (o : Throws) (s : ParticipantState) (l : Life) : Life × List Out :=
  if cfg.autonomous then (l, [])
  else
    match s with
    | .servicesCreated => servicesCreated cfg o l
    | .communicationInitialized => commInitialized cfg o l
    | .readyToRun => readyToRun cfg o l
    | .stopping =>
      if l.state = .running ∨ l.state = .paused then stop cfg o { l with stopDueToSystem := true } else (l, [])
    | .stopped =>
      if l.stopDueToSystem = false ∧ (l.state = .running ∨ l.state = .paused) then stop cfg o { l with stopDueToSystem := true }
      else (l, [])
    | _ => (l, [])

/-- What can happen after `StartLifecycle` (LifecycleService.cpp:96-178) has been called. The order in which the user, the network
and the posted functions produce these events is arbitrary. -/
inductive Event where
  /-- The functions posted by `StartLifecycle`. -/
  | init | startAutonomous
  /-- The system monitor computes a new system state. -/
  | systemState (s : ParticipantState)
  /-- The user calls `CompleteCommunicationReadyHandlerAsync`; the function posted by it runs. -/
  | completeAsync | completeCommReady
  /-- The functions posted by `ReportError`, `Pause`, `Continue`, `Stop`, `AbortSimulation` run. -/
  | reportError | pause | resume | stop | abort
  /-- A function posted by `CallAfterAllParticipantsReplied` runs; the last participant replies. -/
  | barrierStart (alone : Bool) | barrierDone
  /-- A controller is created whose subscriptions have to be acknowledged (VAsioConnection.hpp:116); all are acknowledged. -/
  | subscriptionsAdded | subscriptionsCompleted
deriving Repr, DecidableEq

/-- The lifecycle reacts to an event. -/
def on (cfg : Config) (l : Life) (e : Event) (o : Throws) : Life × List Out :=
  match e with
  | .init => initState l
  | .startAutonomous => if cfg.autonomous then servicesCreated cfg o l else (l, [])
  | .systemState s => newSystemState cfg o s l
  -- `CompleteCommunicationReadyHandlerAsync`, LifecycleService.cpp:47-74
  | .completeAsync =>
    if l.commInvoked && !l.commCompleted then ({ l with commCompleted := true, completing := l.completing + 1 }, []) else (l, [])
  | .completeCommReady =>
    match l.completing with
    | 0 => (l, [])
    | n + 1 => completeCommReady cfg o { l with completing := n }
  | .reportError => reportError l
  | .pause => pause l
  | .resume => resume l
  | .stop => stop cfg o l
  | .abort => abort cfg l
  | .barrierStart alone => barrierStart cfg o alone l
  | .barrierDone => barrierDone cfg o l
  | .subscriptionsAdded => ({ l with subsPending := true }, [])
  | .subscriptionsCompleted => allSubscriptionsDone cfg o l.subsWaiting l

end SilKit.Lifecycle
