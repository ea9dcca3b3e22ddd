import Verif.Model.Dashboard
/-!
# Specification: what the dashboard gets to know

The requests, read as a record of each simulation: of the simulation with a given id, which system states, which states of a participant, which
services and which metrics have been reported, and when it was stopped. And the same for the events themselves, if each of them
were reported at once.
-/
namespace SilKit.Dashboard.Spec
open SilKit SilKit.Dashboard

/-! ## What the requests tell about the simulation with an id -/

/-- The updates of a simulation. -/
def updates (id : Nat) (rs : List Request) : List Dto :=
  rs.filterMap (fun r => match r with | .update i dto => if i = id then some dto else none | _ => none)

/-- The system states. -/
def systemStates (id : Nat) (rs : List Request) : List ParticipantState := (updates id rs).flatMap (·.system)

/-- What an update tells about a participant. -/
def about (p : String) (dto : Dto) : List ParticipantDto := dto.participants.filter (·.name = p)

/-- The states of a participant. -/
def states (id : Nat) (p : String) (rs : List Request) : List ParticipantState :=
  (updates id rs).flatMap (fun dto => (about p dto).flatMap (·.statuses))

/-- The services of a participant. -/
def services (id : Nat) (p : String) (rs : List Request) : List Entry :=
  (updates id rs).flatMap (fun dto => (about p dto).flatMap (·.entries))

/-- Whether a participant is named. -/
def Named (id : Nat) (p : String) (rs : List Request) : Prop := ∃ dto ∈ updates id rs, ∃ q ∈ dto.participants, q.name = p

/-- The times at which the simulation has been reported to have stopped. -/
def stops (id : Nat) (rs : List Request) : List Nat := (updates id rs).flatMap (fun dto => dto.stopped.toList)

/-- The metrics, with their origins. -/
def metrics (id : Nat) (rs : List Request) : List (String × String) :=
  rs.filterMap (fun r => match r with | .metrics i o m => if i = id then some (o, m) else none | _ => none)

/-- A request about a simulation comes after its creation, and not after it was reported to have stopped. -/
def InOrder (rs : List Request) : Prop :=
  ∀ a r c, rs = a ++ r :: c → ∀ id, ((∃ dto, r = .update id dto) ∨ ∃ o m, r = .metrics id o m) →
    (∃ sim time, .create sim time id ∈ a) ∧ stops id a = []

/-! ## Which simulation an event belongs to -/

/-- The simulations that are being recorded, with their ids, and how many the dashboard has been asked to create. -/
structure Books where
  open_ : List (String × Nat) := []
  asked : Nat := 0

/-- A start opens a simulation unless it is open or the dashboard refuses; an end closes it. -/
def Books.after (answer : Nat → Nat) (b : Books) (e : String × Event) : Books :=
  match e.2 with
  | .start _ =>
    if (b.open_.lookup e.1).isSome then b
    else { open_ := if answer b.asked = 0 then b.open_ else (e.1, answer b.asked) :: b.open_, asked := b.asked + 1 }
  | .stop _ => { b with open_ := b.open_.filter (fun n => n.1 ≠ e.1) }
  | _ => b

/-- The id to which an event belongs: that of its simulation, if it is open. -/
def Books.idOf (b : Books) (e : String × Event) : Option Nat :=
  match e.2 with
  | .start _ => none
  | _ => b.open_.lookup e.1

/-- The events of a queue with the ids they belong to; the others are lost. -/
def assigned (answer : Nat → Nat) : Books → List (String × Event) → List (Nat × Event)
  | _, [] => []
  | b, e :: es => ((b.idOf e).map (fun id => (id, e.2))).toList ++ assigned answer (b.after answer e) es

/-- The events of one id. -/
def eventsOf (id : Nat) (es : List (Nat × Event)) : List Event := (es.filter (·.1 = id)).map (·.2)

/-- What the events tell. -/
def systemEvents (es : List Event) : List ParticipantState := es.filterMap (fun e => match e with | .system s => some s | _ => none)

def stateEvents (p : String) (es : List Event) : List ParticipantState :=
  es.filterMap (fun e => match e with | .status q s => if q = p then some s else none | _ => none)

def serviceEvents (p : String) (es : List Event) : List Descriptor :=
  es.filterMap (fun e => match e with | .service d => if d.participant = p then some d else none | _ => none)

def stopEvents (es : List Event) : List Nat := es.filterMap (fun e => match e with | .stop t => some t | _ => none)

def metricEvents (es : List Event) : List (String × String) :=
  es.filterMap (fun e => match e with | .metrics o m => some (o, m) | _ => none)

/-- An event that names a participant. -/
def Names (p : String) : Event → Prop
  | .connected q => q = p
  | .status q _ => q = p
  | .service d => d.participant = p
  | _ => False

/-- The dashboard never answers with the same number twice, except that 0 stands for a failure. -/
def Distinct (answer : Nat → Nat) : Prop := ∀ i j, answer i ≠ 0 → answer i = answer j → i = j

/-- Every service in the queue can be described to the dashboard. -/
def Describable (es : List (String × Event)) : Prop := ∀ sim d, (sim, Event.service d) ∈ es → (entries d).isSome

/-! ## The calls of the registry -/

/-- The participants of a simulation that are connected after a history of calls. -/
def connected (sim : String) : List Call → List String
  | [] => []
  | c :: cs => match c with
    -- the newest call is the first
    | .connected s p _ => if s = sim then p :: (connected sim cs).filter (· ≠ p) else connected sim cs
    | .disconnected s p _ => if s = sim then (connected sim cs).filter (· ≠ p) else connected sim cs
    | _ => connected sim cs

/-- The participants of a simulation that are connected and have reported a state (the newest call is the first). -/
def reported (sim : String) : List Call → List String
  | [] => []
  | c :: cs => match c with
    | .status s p _ => if s = sim then p :: (reported sim cs).filter (· ≠ p) else reported sim cs
    | .disconnected s p _ => if s = sim then (reported sim cs).filter (· ≠ p) else reported sim cs
    | _ => reported sim cs

/-- The state a connected participant has last reported (the newest call is the first); nothing follows a shutdown. -/
def lastState (sim p : String) : List Call → Option ParticipantState
  | [] => none
  | c :: cs => match c with
    | .status s q st => if s = sim ∧ q = p ∧ lastState sim p cs ≠ some .shutdown then some st else lastState sim p cs
    | .disconnected s q _ => if s = sim ∧ q = p then none else lastState sim p cs
    | _ => lastState sim p cs

/-- `Invalid` is never reported. -/
def Valid (cs : List Call) : Prop := ∀ sim p, Call.status sim p .invalid ∉ cs

/-- Who calls, for which simulation. -/
def Call.origin : Call → String × String
  | .connected sim p _ => (sim, p)
  | .disconnected sim p _ => (sim, p)
  | .required sim p _ => (sim, p)
  | .status sim p _ => (sim, p)
  | .service sim p _ _ => (sim, p)
  | .metrics sim p _ => (sim, p)

/-- A history of calls (the newest first) as the registry makes them: a participant is connected once, and everything else comes from connected
participants. -/
def Proper : List Call → Prop
  | [] => True
  | c :: cs => Proper cs ∧ match c with
    | .connected sim p _ => p ∉ connected sim cs
    | c => (Call.origin c).2 ∈ connected (Call.origin c).1 cs

/-- Whenever a participant leaves and others stay, one of those has reported a state. -/
def Reporting : List Call → Prop
  | [] => True
  | c :: cs => Reporting cs ∧ match c with
    | .disconnected sim p t => connected sim (.disconnected sim p t :: cs) = [] ∨ reported sim (.disconnected sim p t :: cs) ≠ []
    | _ => True

end SilKit.Dashboard.Spec
