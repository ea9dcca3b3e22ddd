import Verif.Model.StopSignal
/-! # Specification: ending a simulation with Ctrl-C -/
namespace SilKit.StopSignal.Spec
open SilKit SilKit.StopSignal

/-- What shall be done first in a state of the simulation: a simulation that runs is stopped, one that cannot be stopped is aborted, one that is
aborting or has ended is left alone. -/
def response : ParticipantState → List Act
  | .running => [.stop]
  | .paused => [.stop]
  | .aborting => []
  | .shutdown => []
  | _ => [.abort]

/-- The simulation has not ended after so many milliseconds. -/
def still (final : Option Nat) (t : Nat) : Prop := ∀ f, final = some f → t < f

instance (final : Option Nat) (t : Nat) : Decidable (still final t) :=
  match final with
  | none => isTrue (by intro f h; cases h)
  | some f => decidable_of_iff (t < f) ⟨fun h g e => by cases e; exact h, fun h => h f rfl⟩

/-- Whether abortion was requested at once, or the simulation was found aborting. -/
def abortedAtOnce : ParticipantState → Bool
  | .running => false
  | .paused => false
  | .shutdown => false
  | _ => true

/-- The numbers of the signals in a history. -/
def signals (ops : List Op) : List Nat := ops.filterMap (fun o => match o with | .signal k => some k | _ => none)

/-- The levels that the help text names (SystemController.cpp:302-306). -/
def documented : List (String × ConfigText.Level) :=
  [("trace", .trace), ("debug", .debug), ("warn", .warn), ("info", .info), ("error", .error), ("critical", .critical), ("off", .off)]

end SilKit.StopSignal.Spec
