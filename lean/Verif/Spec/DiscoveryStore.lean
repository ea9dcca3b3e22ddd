import Verif.Model.DiscoveryStore
import Verif.Spec.Labels
/-!
# Specification vocabulary for the matching of services

A history is a list of events, oldest first. Which services are alive and who is listening is read off the history alone.
-/
namespace SilKit.Spec
open Labels Discovery

/-- What happens at the discovery store. -/
inductive DiscoveryEvent where
  | appear (s : Service)
  | vanish (s : Service)
  | listen (controllerType key : String) (i : Info)
deriving Repr, DecidableEq

/-- One event changes the list of services alive for a controller type and topic. -/
def aliveStep (ct key : String) (alive : List Service) : DiscoveryEvent → List Service
  | .appear s => if s.controllerType = ct ∧ s.key = key then alive ++ [s] else alive
  | .vanish s => if s.controllerType = ct ∧ s.key = key then alive.filter (fun n => n.id != s.id) else alive
  | .listen _ _ _ => alive

/-- The services alive after a history, in order of appearance. -/
def alive (ct key : String) (history : List DiscoveryEvent) : List Service := history.foldl (aliveStep ct key) []

/-- The listeners registered in a history, in order of registration. -/
def listeners (ct key : String) : List DiscoveryEvent → List Info
  | [] => []
  | .listen c k i :: h => if c = ct ∧ k = key then i :: listeners ct key h else listeners ct key h
  | _ :: h => listeners ct key h

/-- The store reacts to one event. -/
def storeStep (st : Store) : DiscoveryEvent → Store × List Notice
  | .appear s => st.serviceChange true s
  | .vanish s => st.serviceChange false s
  | .listen ct key i => st.register ct key i

/-- The store after a history. -/
def storeAfter (history : List DiscoveryEvent) : Store := history.foldl (fun st ev => (storeStep st ev).1) {}

/-- Every optional label of the first list has its key in the second list. -/
def OptionalKeysIn (a b : List Label) : Prop := ∀ l ∈ a, l.kind = .optional → ∃ t ∈ b, t.key = l.key

end SilKit.Spec
