import Verif.Model.Presence
/-!
# Specification: who is there

Written in terms of what happens to the connections (`Event`) and of the calls of the handlers, not of the state of the monitor.
-/
namespace SilKit.Presence.Spec
open SilKit.Presence

/-- The connections as they are: which are open without a name, and which belong to a participant that has introduced itself. -/
structure World where
  unnamed : List Nat := []
  there : List (Nat × Name) := []
deriving Repr, DecidableEq

/-- What an event does to the connections. -/
def World.after (w : World) : Event → World
  | .accept c => { w with unnamed := w.unnamed ++ [c] }
  | .connect c n => { w with there := w.there ++ [(c, n)] }
  | .announce c n => { unnamed := w.unnamed.filter (· != c), there := w.there ++ [(c, n)] }
  | .close c => { unnamed := w.unnamed.filter (· != c), there := w.there.filter (fun e => e.1 != c) }

def world (es : List Event) : World := es.foldl World.after {}

/-- The participants that are there. -/
def World.names (w : World) : List Name := w.there.map Prod.snd

/-- Whether a connection is open. -/
def World.isOpen (w : World) (c : Nat) : Prop := c ∈ w.unnamed ∨ c ∈ w.there.map Prod.fst

instance (w : World) (c : Nat) : Decidable (w.isOpen c) := by unfold World.isOpen; infer_instance

/-- An event that can happen in a simulation in which a participant comes back only after its old connection has been closed: connections are
numbered, a participant introduces itself once, and with a name of its own that is not empty. -/
def World.allows (w : World) : Event → Prop
  | .accept c => ¬ w.isOpen c
  | .connect c n => ¬ w.isOpen c ∧ n ∉ w.names ∧ n ≠ ""
  | .announce c n => c ∈ w.unnamed ∧ n ∉ w.names ∧ n ≠ ""
  | .close c => w.isOpen c

instance (w : World) (e : Event) : Decidable (w.allows e) := by cases e <;> unfold World.allows <;> infer_instance

/-- Every event can happen after those before it. -/
def Orderly : World → List Event → Prop
  | _, [] => True
  | w, e :: es => w.allows e ∧ Orderly (w.after e) es

instance orderlyDecidable : ∀ (w : World) (es : List Event), Decidable (Orderly w es)
  | _, [] => isTrue trivial
  | w, e :: es => by unfold Orderly; exact @instDecidableAnd _ _ _ (orderlyDecidable (w.after e) es)

/-- What the handlers shall be told about an event: a participant that comes, a participant that goes. -/
def World.news (w : World) : Event → List Call
  | .accept _ => []
  | .connect _ n => [.connected n]
  | .announce _ n => [.connected n]
  | .close c => (w.there.lookup c).toList.map Call.disconnected

def news : World → List Event → List Call
  | _, [] => []
  | w, e :: es => w.news e ++ news (w.after e) es

/-- Only connections of participants that have introduced themselves end. -/
def World.proper (w : World) : Event → Prop
  | .close c => c ∈ w.there.map Prod.fst
  | _ => True

instance (w : World) (e : Event) : Decidable (w.proper e) := by cases e <;> unfold World.proper <;> infer_instance

def Proper : World → List Event → Prop
  | _, [] => True
  | w, e :: es => w.proper e ∧ Proper (w.after e) es

instance properDecidable : ∀ (w : World) (es : List Event), Decidable (Proper w es)
  | _, [] => isTrue trivial
  | w, e :: es => by unfold Proper; exact @instDecidableAnd _ _ _ (properDecidable (w.after e) es)

/-- No event of the list is a connection made by this participant itself: it makes them only while it joins the simulation. -/
def Joined (es : List Event) : Prop := ∀ e ∈ es, ∀ c n, e ≠ .connect c n

/-- A schedule in which nothing happens to the connections while the user is in a function of the monitor: first the events `before`; then the user
creates the monitor, which takes three steps and two for every participant that is there, and the posted registration is carried out; then the events
`between`; then the user sets the two handlers, which takes three steps; then the events `later`. -/
def calm (before between later : List Event) : List Op :=
  before.flatMap whole ++ List.replicate (3 + 2 * (world before).names.length) Op.user ++ [Op.registration]
    ++ between.flatMap whole ++ List.replicate 3 Op.user ++ later.flatMap whole

/-- Somebody has introduced itself with this name, or this participant has connected to a participant of this name. -/
def introduced (ops : List Op) (n : Name) : Prop := ∃ c, Op.event (.announce c n) ∈ ops ∨ Op.event (.connect c n) ∈ ops

/-- How many connections have ended. -/
def closes (ops : List Op) : Nat := ops.countP (fun o => match o with | .event (.close _) => true | _ => false)

/-- How many departures the disconnected handler was told. -/
def departures (calls : List Call) : Nat := calls.countP (fun k => match k with | .disconnected _ => true | _ => false)

/-- According to the calls of the handlers, the participant is there: the last call about it is `connected`. -/
def reported (calls : List Call) (n : Name) : Bool :=
  calls.foldl (fun b k => match k with | .connected m => if m = n then true else b | .disconnected m => if m = n then false else b) false

end SilKit.Presence.Spec
