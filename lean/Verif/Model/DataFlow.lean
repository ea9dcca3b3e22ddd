import Verif.Model.PubSubMatching
import Verif.Model.Links
import Verif.Spec.PubSubMatching
/-!
# From publishers to subscribers

Publishers and subscribers of any number of participants, with the matching of `Model/PubSubMatching.lean` (each participant has its own discovery) on
top of the links of `Model/Links.lean`. A publisher has a link of its own (services/pubsub/DataPublisher.cpp:27-41, Participant_impl.hpp:484-560), and a
subscriber receives on the links of the publishers that it is connected to, through one internal subscriber for each
(DataSubscriber.cpp:31-102, Participant_impl.hpp:448-481).

How the news about a publisher gets to a participant is left open (`Model/ServiceDiscovery.lean`): any participant can hear of any publisher at any
time, once, and later once that it has gone. Not modelled: replay, tracing and time stamps. An internal subscriber that is removed keeps its place on the
link, as in the code (DataSubscriber.cpp:94-102).
-/
namespace SilKit.DataFlow
open SilKit.Links (MsgType)
open SilKit.Discovery SilKit.Spec

variable {V : Type}

/-- The network of the publisher with the given identity, `network = to_string(Util::Uuid::GenerateRandom())`, Participant_impl.hpp:494. Identities are
random; the model takes them to be different. -/
def channel (u : Nat) : String := String.ofList (Nat.toDigits 10 u)

/-- The service of the internal subscriber of subscriber `j` on a link; the publisher has service 0. On one link, this is all that matters. -/
def internal (j : Nat) : Nat := j + 1

inductive Event (V : Type)
  /-- `CreateDataPublisher` of participant `p`; `s.id` is the identity. -/
  | createPublisher (p : Nat) (s : Service)
  /-- `CreateDataSubscriber` of participant `q`; `i.handler` is the number of the subscriber. -/
  | createSubscriber (q : Nat) (topic mediaType : String) (i : Info)
  /-- The discovery of participant `q` hears of publisher `u`: `OnServiceAddition`, ServiceDiscovery.cpp:139-170. -/
  | learn (q u : Nat)
  /-- It hears that the publisher has gone: ServiceDiscovery.cpp:69-88, 184-198. -/
  | forget (q u : Nat)
  /-- `Publish` of publisher `u`, DataPublisher.cpp:37-51. -/
  | publish (u : Nat) (v : V)
  | connect (p q : Nat)
  | announce (p q : Nat)
  | deliver (p q : Nat)
  | close (p q : Nat)
deriving Repr, DecidableEq

structure Control where
  /-- The publishers: participant and description. -/
  pubs : Nat → Option (Nat × Service) := fun _ => none
  /-- What happened at the discovery of a participant. -/
  news : Nat → List PubSubEvent := fun _ => []

def Control.hear (c : Control) (q : Nat) (ev : PubSubEvent) : Control :=
  { c with news := fun x => if x = q then c.news x ++ [ev] else c.news x }

/-- The calls of the handlers of subscribers that an event causes, `World.publish` etc. -/
def notices (w : World) : PubSubEvent → List Notice
  | .publish s => (w.store.serviceChange true s).2
  | .unpublish s => (w.store.serviceChange false s).2
  | .subscribe t _ i => (w.store.register dataPublisher t i).2

/-- The subscribers when the handlers are called. -/
def before (w : World) : PubSubEvent → Nat → Option Subscriber
  | .subscribe _ m i => fun j => if j = i.handler then some { mediaType := m } else w.subs j
  | _ => w.subs

/-- A handler is called: `matchHandler`, DataSubscriber.cpp:31-67. If it adds an internal subscriber, this is noted. -/
def noticeStep (r : (Nat → Option Subscriber) × List (Nat × Nat)) (n : Notice) : (Nat → Option Subscriber) × List (Nat × Nat) :=
  match r.1 n.handler with
  | none => r
  | some sub =>
    ((fun j => if j = n.handler then some (sub.onNotice n) else r.1 j),
     if sub.connected.length < (sub.onNotice n).connected.length then r.2 ++ [(n.handler, n.service.id)] else r.2)

/-- The internal subscribers (subscriber, publisher) that are created because of an event, in order. -/
def added (w : World) (ev : PubSubEvent) : List (Nat × Nat) := ((notices w ev).foldl noticeStep (before w ev, [])).2

/-- `CreateController` registers the internal subscriber on the link of the publisher, Participant_impl.hpp:1675-1723. -/
def registration (q : Nat) (a : Nat × Nat) : Links.Event V := .register q .dataMessage (channel a.2) (internal a.1)

/-- The discovery of `q` handles an event. -/
def Control.handle (c : Control) (q : Nat) (ev : PubSubEvent) : Control × List (Links.Event V) :=
  (c.hear q ev, (added (worldAfter (c.news q)) ev).map (registration q))

def isSubscriber (j : Nat) : PubSubEvent → Bool
  | .subscribe _ _ i => i.handler == j
  | _ => false

/-- What an event means for the links. -/
def control (c : Control) : Event V → Control × List (Links.Event V)
  | .createPublisher p s =>
    if s.controllerType = dataPublisher ∧ c.pubs s.id = none then
      ({ c with pubs := fun u => if u = s.id then some (p, s) else c.pubs u }, [])
    else (c, [])
  | .createSubscriber q t m i => if (c.news q).any (isSubscriber i.handler) then (c, []) else c.handle q (.subscribe t m i)
  | .learn q u =>
    match c.pubs u with
    | some (_, s) => if .publish s ∈ c.news q then (c, []) else c.handle q (.publish s)
    | none => (c, [])
  | .forget q u =>
    match c.pubs u with
    | some (_, s) => if s ∈ publishers s.key (c.news q) then c.handle q (.unpublish s) else (c, [])
    | none => (c, [])
  | .publish u v =>
    match c.pubs u with
    | some (p, _) => (c, [.send p 0 .dataMessage (channel u) v])
    | none => (c, [])
  | .connect p q => (c, [.connect p q])
  | .announce p q => (c, [.announce p q])
  | .deliver p q => (c, [.deliver p q])
  | .close p q => (c, [.close p q])

def controlStep (r : Control × List (Links.Event V)) (e : Event V) : Control × List (Links.Event V) :=
  ((control r.1 e).1, r.2 ++ (control r.1 e).2)

/-- A history, from the start; the second part is what happens at the links. -/
def runControl (h : List (Event V)) : Control × List (Links.Event V) := h.foldl controlStep ({}, [])

end SilKit.DataFlow
