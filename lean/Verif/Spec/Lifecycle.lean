import Verif.Model.Lifecycle
/-!
# Specification of the participant lifecycle (C17–C19)
-/
namespace SilKit.Lifecycle.Spec

/-- The documented lifecycle graph (docs/simulation/simulation.rst and `ValidateParticipantStateUpdate`, SystemStateTracker.cpp:23-70):
`Error` can be entered from everywhere but the final state and the states in which only the way to it is left, `Aborting` likewise. -/
def Edge : ParticipantState → ParticipantState → Prop
  | .invalid, .servicesCreated => True
  | .servicesCreated, .communicationInitializing => True
  | .communicationInitializing, .communicationInitialized => True
  | .communicationInitialized, .readyToRun => True
  | .readyToRun, .running => True
  | .running, .paused => True
  | .paused, .running => True
  | .running, .stopping => True
  | .paused, .stopping => True
  | .stopping, .stopped => True
  | .stopped, .shuttingDown => True
  | .error, .shuttingDown => True
  | .shuttingDown, .shutdown => True
  | .aborting, .shutdown => True
  | s, .error => s ≠ .error ∧ s ≠ .shuttingDown ∧ s ≠ .aborting ∧ s ≠ .shutdown
  | s, .aborting => s ≠ .stopping ∧ s ≠ .shuttingDown ∧ s ≠ .aborting ∧ s ≠ .shutdown
  | _, _ => False

/-- Consecutive elements of a list. -/
def Adjacent {α : Type} (l : List α) (a b : α) : Prop := ∃ pre post, l = pre ++ a :: b :: post

/-- A history: events together with the behaviour of the user's handlers called during each. -/
abbrev History := List (Event × Throws)

/-- The lifecycle and everything observed after a history that begins with the call of `StartLifecycle`. -/
def run (cfg : Config) (h : History) : Life × List Out :=
  h.foldl (fun r e => andThen r (fun l => on cfg l e.1 e.2)) ({}, [])

/-- The states published, in order. -/
def published (tr : List Out) : List ParticipantState :=
  tr.filterMap (fun o => match o with | .published s => some s | _ => none)

/-- The handlers called, in order. -/
def called (tr : List Out) : List Handler :=
  tr.filterMap (fun o => match o with | .called h => some h | _ => none)

/-- The state published last. -/
def lastPublished (tr : List Out) : ParticipantState := (published tr).getLastD .invalid

/-- Some subscriptions of the participant have not been acknowledged after the history. -/
def unacknowledged (h : History) : Bool :=
  h.foldl (fun b e => match e.1 with
    | .subscriptionsAdded => true
    | .subscriptionsCompleted => false
    | _ => b) false

/-- The order of the handlers. The shutdown handler and the abort handler exclude each other. -/
def order : Handler → Nat
  | .commReady => 0
  | .starting => 1
  | .stop => 2
  | .shutdown => 3
  | .abort _ => 3

/-- The state in which each handler is called. -/
def stateOf : Handler → ParticipantState
  | .commReady => .communicationInitialized
  | .starting => .readyToRun
  | .stop => .stopping
  | .shutdown => .shuttingDown
  | .abort _ => .aborting

/-- The step the state ServicesCreated waits for (all participants have replied) comes late: the participant has meanwhile left that
state. -/
def LateReplies (l : Life) : Event → Prop
  | .barrierStart alone => l.active = none ∧ alone = true ∧ l.pending.head? = some .servicesCreated ∧ l.state ≠ .servicesCreated
  | .barrierDone => l.active = some .servicesCreated ∧ l.state ≠ .servicesCreated
  | _ => False

/-- The step the state CommunicationInitializing waits for (all subscriptions are acknowledged) comes late, or is waited for more
than once. -/
def LateSubscriptions (l : Life) : Event → Prop
  | .subscriptionsCompleted => l.subsWaiting ≠ 0 ∧ (l.state ≠ .communicationInitializing ∨ l.subsWaiting ≠ 1)
  | _ => False

/-- No step arrives late in the history. -/
def Timely (cfg : Config) (h : History) : Prop :=
  ∀ pre e o post, h = pre ++ (e, o) :: post → ¬ LateReplies (run cfg pre).1 e ∧ ¬ LateSubscriptions (run cfg pre).1 e

/-- Nothing is outstanding: every request to wait for the other participants has been made and answered. -/
def Idle (l : Life) : Prop := l.pending = [] ∧ l.active = none

end SilKit.Lifecycle.Spec
