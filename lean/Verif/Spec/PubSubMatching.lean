import Verif.Model.PubSubMatching
import Verif.Spec.DiscoveryStore
/-!
# Specification vocabulary for publish/subscribe connections
-/
namespace SilKit.Spec
open Labels Discovery

/-- What happens: publishers come and go, subscribers are created. -/
inductive PubSubEvent where
  | publish (s : Service)
  | unpublish (s : Service)
  | subscribe (topic mediaType : String) (i : Info)
deriving Repr, DecidableEq

/-- One event changes the publishers alive on a topic. -/
def publishersStep (topic : String) (l : List Service) : PubSubEvent → List Service
  | .publish s => if s.key = topic then l ++ [s] else l
  | .unpublish s => if s.key = topic then l.filter (fun n => n.id != s.id) else l
  | .subscribe _ _ _ => l

/-- The publishers alive on a topic. -/
def publishers (topic : String) (h : List PubSubEvent) : List Service := h.foldl (publishersStep topic) []

/-- Histories that can occur: publishers have unique ids, only existing publishers disappear, every subscriber is a new one. -/
inductive PubSubHistory : List PubSubEvent → Prop where
  | start : PubSubHistory []
  | publish {h s} : PubSubHistory h → s.controllerType = dataPublisher → (∀ p ∈ publishers s.key h, p.id ≠ s.id) →
      PubSubHistory (h ++ [.publish s])
  | unpublish {h s} : PubSubHistory h → s.controllerType = dataPublisher → s ∈ publishers s.key h →
      PubSubHistory (h ++ [.unpublish s])
  | subscribe {h topic mediaType i} : PubSubHistory h →
      (∀ t m i', PubSubEvent.subscribe t m i' ∈ h → i'.handler ≠ i.handler) →
      PubSubHistory (h ++ [.subscribe topic mediaType i])

/-- The system reacts to one event. -/
def worldStep (w : World) : PubSubEvent → World
  | .publish s => w.publish s
  | .unpublish s => w.unpublish s
  | .subscribe t m i => w.subscribe t m i

/-- The system after a history. -/
def worldAfter (h : List PubSubEvent) : World := h.foldl worldStep {}

/-- Neither side has an optional label whose key is missing on the other side, unless that other side has no labels at all. -/
def Indexable (a b : List Label) : Prop :=
  (b = [] ∨ OptionalKeysIn a b) ∧ (a = [] ∨ OptionalKeysIn b a)

end SilKit.Spec
