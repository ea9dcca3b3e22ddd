import Verif.Model.DiscoveryStore
/-!
# Model of how a `DataSubscriber` connects to publishers

`SilKit/source/services/pubsub/DataSubscriber.cpp`: one internal subscriber per connected publisher.
-/
namespace SilKit.Discovery
open Labels

/-- `DataSubscriber`: its media type and the publisher UUIDs in `_internalSubscribers`. -/
structure Subscriber where
  mediaType : String
  connected : List Nat := []
deriving Repr, DecidableEq

/-- `matchHandler` in `DataSubscriber::RegisterServiceDiscovery`, DataSubscriber.cpp:31-67 with `AddInternalSubscriber` 85-92 and
`RemoveInternalSubscriber` 94-102. The publisher UUID is the service id. -/
def Subscriber.onNotice (sub : Subscriber) (n : Notice) : Subscriber :=
  if n.created ∧ n.service.id ∈ sub.connected then sub
  else if matchMediaType sub.mediaType n.service.mediaType then
    if n.created then { sub with connected := sub.connected ++ [n.service.id] }
    else { sub with connected := sub.connected.filter (fun u => u != n.service.id) }
  else sub

/-- All subscribers of a participant, by the number of their discovery handler, and the discovery store. -/
structure World where
  store : Store := {}
  subs : Nat → Option Subscriber := fun _ => none

/-- Every notice is a call of the handler of one subscriber. -/
def World.deliver (w : World) (ns : List Notice) : World :=
  { w with subs := fun j => (w.subs j).map (fun sub => (ns.filter (fun n => n.handler == j)).foldl Subscriber.onNotice sub) }

/-- A publisher appears (`ServiceDiscovery::OnServiceAddition` → `SpecificDiscoveryStore::ServiceChange`). -/
def World.publish (w : World) (s : Service) : World :=
  let r := w.store.serviceChange true s
  World.deliver { w with store := r.1 } r.2

/-- A publisher disappears. -/
def World.unpublish (w : World) (s : Service) : World :=
  let r := w.store.serviceChange false s
  World.deliver { w with store := r.1 } r.2

/-- A subscriber is created: `RegisterSpecificServiceDiscoveryHandler(matchHandler, controllerTypeDataPublisher, _topic, _labels)`,
DataSubscriber.cpp:69-70. -/
def World.subscribe (w : World) (topic mediaType : String) (i : Info) : World :=
  let r := w.store.register dataPublisher topic i
  World.deliver { store := r.1, subs := fun j => if j = i.handler then some { mediaType := mediaType } else w.subs j } r.2

end SilKit.Discovery
