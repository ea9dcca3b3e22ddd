import Verif.Model.TimeProvider
/-! # Specification: the time of a participant, in terms of what was done so far -/
namespace SilKit.TimeProvider.Spec
open SilKit SilKit.TimeProvider

/-- What the history has led to, event by event. -/
structure View where
  /-- The kind of time that was configured last; nothing at first. -/
  mode : Option Kind := none
  /-- The last time that was set since then. -/
  time : Option Int := none
  /-- The handlers added and not removed. -/
  registered : List Nat := []
  /-- The number of handlers added. -/
  added : Nat := 0
  /-- The number of configurations. -/
  configured : Nat := 0
  /-- The kinds of time that were configured; the provider is constructed with the first. -/
  kinds : List Kind := [.noSync]
  /-- Whether a handler was added since the last configuration. -/
  addedSince : Bool := false
  /-- Whether the last tick of the timer of the current implementation is still on its way to the handlers. -/
  inFlight : Bool := false
  /-- Whether there never was such a tick when the kind of time was configured. -/
  calm : Bool := true

def View.next (v : View) : Event → View
  | .add _ => { v with registered := v.registered ++ [v.added], added := v.added + 1, addedSince := true }
  | .remove _ h => { v with registered := v.registered.filter (· ≠ h) }
  | .configure _ k =>
    { v with mode := some k, time := none, configured := v.configured + 1, kinds := v.kinds ++ [k], addedSince := false, inFlight := false, calm := v.calm && !v.inFlight }
  | .setTime _ now _ => if v.mode = some .syncTime then { v with time := some now } else v
  | .now _ _ => v
  | .tick p _ => if p = v.configured ∧ v.mode ≠ none then { v with inFlight := true } else v
  | .enter p => if p = v.configured then { v with inFlight := false } else v
  | .leave _ => v
  | .exit _ => v

def view (h : List Event) : View := h.foldl View.next {}

/-- What `Now()` shall return. -/
def expectedNow (v : View) (clock : Int) : Option Int :=
  match v.mode with
  | some .syncTime => v.time
  | some .wallClock => some clock
  | _ => none

/-- A call of a handler. -/
def isCall : Out → Bool
  | .called .. => true
  | _ => false

/-- The history changes neither the handlers nor the kind of time. -/
def steadyEvent : Event → Bool
  | .add _ => false
  | .remove .. => false
  | .configure .. => false
  | _ => true

end SilKit.TimeProvider.Spec
