import Verif.Model.Startup
/-!
# Specification of the coordinated start (C52)
-/
namespace SilKit.Startup.Spec

/-- All of these participants have reported this state. -/
def AllReported (required : List String) (s : ParticipantState) (seen : Trace) : Prop := ∀ q ∈ required, (q, Lifecycle.Out.published s) ∈ seen

/-- What a participant does only if the simulation runs: it reports Running, calls the starting handler, or starts its time. -/
def runs : Lifecycle.Out → Bool
  | .published .running | .called .starting | .startTime => true
  | _ => false

/-- The events at the lifecycle of a participant that nobody disturbs: no errors, no commands to pause, stop or abort. -/
def undisturbed : Lifecycle.Event → Bool
  | .reportError | .pause | .resume | .stop | .abort => false
  | _ => true

/-- The required participants are undisturbed, their handlers do not throw and they do not lose each other; everybody who sets a workflow configuration names
the same required participants. Other participants do as they please. -/
def calm (required : List String) : Event → Prop
  | .join _ => True
  | .start p o => p ∈ required → o = {}
  | .life p e o => p ∈ required → o = {} ∧ undisturbed e = true
  | .configure _ names => ∀ q, q ∈ names ↔ q ∈ required
  | .deliver _ p o => p ∈ required → o = {}
  | .lost p q _ => p ∉ required ∨ q ∉ required

/-- A required participant has received the workflow configuration before its lifecycle is started. -/
def informed (required : List String) (n : Net) : Event → Prop
  | .start p _ => p ∈ required → (n.nodes p).monitor.tracker.required ≠ []
  | _ => True

/-- This holds whenever a lifecycle is started. -/
def InTime (required : List String) : List Event → Net → Prop
  | [], _ => True
  | e :: es, n => informed required n e ∧ InTime required es (n.step e).1

/-- Nothing is left to do for a participant: its lifecycle was started, what it posted has run, the others have answered, its subscriptions are complete and an
asynchronous communication ready handler was completed. -/
def Idle (x : Node) : Prop :=
  x.joined = true ∧ x.listening = true ∧ x.posted = false ∧ x.life.pending = [] ∧ x.life.active = none ∧ x.life.subsWaiting = 0 ∧ x.life.completing = 0 ∧
    (x.life.commInvoked = true → x.life.commCompleted = true)

/-- Nothing is left to do, and everything is delivered. -/
def Quiet (required : List String) (n : Net) : Prop := ∀ p ∈ required, Idle (n.nodes p) ∧ ∀ q ∈ required, n.chan q p = []

end SilKit.Startup.Spec
