/-!
# Model of `ServiceDiscovery`

`SilKit/source/core/service/ServiceDiscovery.cpp`: the cache of announced services and the handlers told about changes.

`_servicesByParticipant` is an association list of association lists; the order in which `unordered_map`s are iterated is
unspecified, the model uses insertion order and no theorem depends on it. Handlers are numbered in the order of
registration; calling a handler is an output. A handler that re-enters the discovery is not modelled (every operation runs
under `_discoveryMx`), nor is `_shuttingDown` (which only makes all operations no-ops).
-/
namespace SilKit.ServiceDiscovery

/-- `ServiceType`, core/internal/ServiceDescriptor.hpp:31-48. -/
inductive ServiceType where
  | undefined | link | controller | simulatedController | internalController
deriving Repr, DecidableEq

/-- `to_string(ServiceType)`, core/internal/ServiceDescriptor.hpp:31-48. -/
def ServiceType.name : ServiceType → String
  | .undefined => "Undefined"
  | .link => "Link"
  | .controller => "Controller"
  | .simulatedController => "SimulatedController"
  | .internalController => "InternalController"

/-- `ServiceDescriptor`, core/internal/ServiceDescriptor.hpp: the fields used here. `controllerType` is the supplemental data item
of that name (always present for controllers). -/
structure Desc where
  participant : String
  type : ServiceType
  networkType : String := ""
  network : String := ""
  service : String := ""
  controllerType : String := ""
  serviceId : Nat := 0
deriving Repr, DecidableEq

/-- The parts printed by `ServiceDescriptor::to_string`, ServiceDescriptor.hpp:275-304. -/
def Desc.parts (d : Desc) : List String :=
  d.participant :: d.type.name :: match d.type with
    | .link => [d.networkType, d.network]
    | .controller => [d.controllerType, d.network, d.service]
    | .simulatedController => [d.controllerType, d.network, d.service]
    | .internalController => [d.service]
    | .undefined => [d.network, d.service]

/-- Characters of the parts, joined by the separator. -/
def joinSlash : List String → List Char
  | [] => []
  | [p] => p.toList
  | p :: q :: ps => p.toList ++ '/' :: joinSlash (q :: ps)

/-- `ServiceDescriptor::to_string`, ServiceDescriptor.hpp:275-304: parts separated by "/". -/
def Desc.key (d : Desc) : List Char := joinSlash d.parts

/-- `controllerTypeServiceDiscovery`, core/service/IServiceDiscovery.hpp. -/
def controllerTypeServiceDiscovery : String := "ServiceDiscovery"

/-- `ServiceMap`, ServiceDiscovery.hpp:83. -/
abbrev ServiceMap := List (List Char × Desc)

/-- `announcementMap.count(key) > 0`. -/
def ServiceMap.has (m : ServiceMap) (k : List Char) : Bool := m.any (fun e => e.1 == k)

/-- State of `ServiceDiscovery`, ServiceDiscovery.hpp:77-88. `byParticipant` is `_servicesByParticipant` (an absent participant
and one with an empty map cannot be distinguished), `handlers` the number of registered handlers. -/
structure State where
  self : String
  byParticipant : String → ServiceMap := fun _ => []
  /-- participants in the order in which they got an entry, for iterating -/
  known : List String := []
  handlers : Nat := 0

/-- What the component does to the outside. -/
inductive Output where
  /-- handler number `handler` is called -/
  | call (handler : Nat) (created : Bool) (d : Desc)
  /-- `_specificDiscoveryStore.ServiceChange` -/
  | store (created : Bool) (d : Desc)
  /-- `ParticipantDiscoveryEvent` sent to one participant -/
  | announce (target sender : String) (services : List Desc)
  /-- `ServiceDiscoveryEvent` sent to everybody -/
  | event (created : Bool) (d : Desc)
deriving Repr, DecidableEq

/-- `_servicesByParticipant[p]`: creates the entry. -/
def State.touch (s : State) (p : String) : State :=
  { s with known := if p ∈ s.known then s.known else s.known ++ [p] }

/-- Store one map. -/
def State.put (s : State) (p : String) (m : ServiceMap) : State :=
  { s with byParticipant := fun q => if q = p then m else s.byParticipant q }

/-- `CallHandlers`, ServiceDiscovery.cpp:192-201. -/
def State.callHandlers (s : State) (created : Bool) (d : Desc) : List Output :=
  (List.range s.handlers).map (fun i => .call i created d)

/-- One iteration of the loop in `OnParticpantAddition`, ServiceDiscovery.cpp:50-65. -/
def State.addAnnounced (p : String) (r : State × List Output) (d : Desc) : State × List Output :=
  if (r.1.byParticipant p).has d.key then r
  else
    let s := r.1.put p (r.1.byParticipant p ++ [(d.key, d)])
    (s, r.2 ++ .store true d :: s.callHandlers true d)

/-- `OnParticpantAddition`, ServiceDiscovery.cpp:44-66. -/
def State.onParticipantAddition (s : State) (p : String) (services : List Desc) : State × List Output :=
  services.foldl (State.addAnnounced p) (s.touch p, [])

/-- Reporting the removal of all services of a map, ServiceDiscovery.cpp:79-83. -/
def State.removeAll (s : State) (m : ServiceMap) : List Output :=
  m.flatMap (fun e => .store false e.2 :: s.callHandlers false e.2)

/-- `OnParticpantRemoval`, ServiceDiscovery.cpp:68-89. -/
def State.onParticipantRemoval (s : State) (p : String) : State × List Output :=
  if p = s.self then (s, [])
  else ({ s.put p [] with known := s.known.filter (· != p) }, s.removeAll (s.byParticipant p))

/-- `AnnounceLocalParticipantTo`, ServiceDiscovery.cpp:163-173. -/
def State.announceLocalTo (s : State) (target : String) : Output :=
  .announce target s.self ((s.byParticipant s.self).map (·.2))

/-- `OnServiceAddition`, ServiceDiscovery.cpp:127-161. -/
def State.onServiceAddition (s : State) (d : Desc) : State × List Output :=
  let s := s.touch d.participant
  if (s.byParticipant d.participant).has d.key then (s, [])
  else
    let reply := if d.participant ≠ s.self ∧ d.controllerType = controllerTypeServiceDiscovery
      then [s.announceLocalTo d.participant] else []
    let s' := s.put d.participant (s.byParticipant d.participant ++ [(d.key, d)])
    (s', reply ++ .store true d :: s'.callHandlers true d)

/-- `OnServiceRemoval`, ServiceDiscovery.cpp:175-190. -/
def State.onServiceRemoval (s : State) (d : Desc) : State × List Output :=
  let s := s.touch d.participant
  if (s.byParticipant d.participant).has d.key then
    (s.put d.participant ((s.byParticipant d.participant).filter (fun e => e.1 != d.key)), .store false d :: s.callHandlers false d)
  else (s, [])

/-- `NotifyServiceCreated`, ServiceDiscovery.cpp:91-105. -/
def State.notifyServiceCreated (s : State) (d : Desc) : State × List Output :=
  let r := s.onServiceAddition d
  (r.1, r.2 ++ [.event true d])

/-- `NotifyServiceRemoved`, ServiceDiscovery.cpp:107-121. -/
def State.notifyServiceRemoved (s : State) (d : Desc) : State × List Output :=
  let r := s.onServiceRemoval d
  (r.1, r.2 ++ [.event false d])

/-- `GetServices`, ServiceDiscovery.cpp:203-216. -/
def State.getServices (s : State) : List Desc := s.known.flatMap (fun p => (s.byParticipant p).map (·.2))

/-- `RegisterServiceDiscoveryHandler`, ServiceDiscovery.cpp:218-237. -/
def State.registerHandler (s : State) : State × List Output :=
  ({ s with handlers := s.handlers + 1 }, s.getServices.map (fun d => .call s.handlers true d))

end SilKit.ServiceDiscovery
