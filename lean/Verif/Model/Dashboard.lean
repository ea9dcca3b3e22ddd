import Verif.Model.SystemState
/-!
# Model: the data the registry sends to the dashboard

`SilKit/source/dashboard`: the listener called by the registry, the queue, the worker with its bulk updates, and the mapping of a bulk update
to a request.

Simplifications: an HTTP request that does not reach the dashboard or is answered with an error is only logged
(DashboardSystemServiceClient.cpp:27-75) and is modelled like one that is answered; only the number that the creation of a simulation yields
matters (0 without an answer). The worker starts with `IsBulkUpdateSupported`; the model is the worker after a positive answer. Labels and
the parent's id are the texts of the supplemental data (the code parses them). Of a participant's status the reason and the time are left
out. Metrics are opaque texts.
-/
namespace SilKit.Dashboard
open SilKit.SystemState

/-- `Core::ServiceType` and `Config::NetworkType`, as far as they are distinguished. -/
inductive ServiceType | controller | link | other
deriving Repr, DecidableEq

inductive Network | can | ethernet | flexray | lin | other
deriving Repr, DecidableEq

/-- `ServiceDescriptor`. -/
structure Descriptor where
  participant : String
  type : ServiceType
  id : Nat := 0
  name : String := ""
  networkName : String := ""
  network : Network := .other
  /-- The supplemental data. -/
  data : List (String × String) := []
deriving Repr, DecidableEq

/-- `SilKitEvent`, SilKitEvent.hpp:30-64. -/
inductive Event
  | start (time : Nat)
  | connected (participant : String)
  | system (state : ParticipantState)
  | status (participant : String) (state : ParticipantState)
  | service (d : Descriptor)
  | stop (time : Nat)
  | metrics (origin : String) (update : String)
deriving Repr, DecidableEq

/-! ## The listener -/

/-- The calls by the registry (VAsioRegistry.cpp:243-246, 316-319, 377-417, 440-452). The time is that of the system clock. -/
inductive Call
  | connected (sim p : String) (time : Nat)
  | disconnected (sim p : String) (time : Nat)
  | required (sim p : String) (names : List String)
  | status (sim p : String) (s : ParticipantState)
  | service (sim p : String) (created : Bool) (d : Descriptor)
  | metrics (sim p : String) (update : String)
deriving Repr, DecidableEq

/-- `_simulationEventHandlers`. -/
abbrev Listener := List (String × Tracker)

/-- `GetOrCreateSimulationData`, DashboardInstance.cpp:296-300. -/
def Listener.tracker (l : Listener) (sim : String) : Tracker := (l.lookup sim).getD {}

def Listener.put (l : Listener) (sim : String) (t : Tracker) : Listener := (sim, t) :: l.filter (fun e => e.1 ≠ sim)

/-- `RemoveSimulationData`, DashboardInstance.cpp:302-305. -/
def Listener.erase (l : Listener) (sim : String) : Listener := l.filter (fun e => e.1 ≠ sim)

/-- An event if a condition holds. -/
def onlyIf (b : Bool) (e : Event) : List Event := if b then [e] else []

/-- `ShouldSkipServiceDiscoveryEvent`, DashboardInstance.cpp:21-26. -/
def skipped (created : Bool) (d : Descriptor) : Bool := !created || (d.type != .controller && d.type != .link)

/-- The calls, DashboardInstance.cpp:322-445: the new trackers, the simulation, and what is put into the queue. -/
def Listener.on (l : Listener) : Call → Listener × String × List Event
  | .connected sim p time =>
    let t := l.tracker sim
    (l.put sim t, sim, onlyIf t.cache.isEmpty (.start time) ++ [.connected p])
  | .disconnected sim p time =>
    let r := (l.tracker sim).remove p
    (if r.1.cache.isEmpty then l.erase sim else l.put sim r.1, sim,
      onlyIf r.2 (.system r.1.system) ++ onlyIf r.1.cache.isEmpty (.stop time))
  | .required sim _ names =>
    let r := (l.tracker sim).require names
    (l.put sim r.1, sim, onlyIf r.2 (.system r.1.system))
  | .status sim p s =>
    let r := (l.tracker sim).update p s
    (l.put sim r.tracker, sim, onlyIf r.participantChanged (.status p s) ++ onlyIf r.systemChanged (.system r.tracker.system))
  | .service sim _ created d => (l, sim, if skipped created d then [] else [.service d])
  | .metrics sim p update => (l, sim, [.metrics p update])

/-- What a history of calls puts into the queue. -/
def Listener.queue : Listener → List Call → List (String × Event)
  | _, [] => []
  | l, c :: cs => (l.on c).2.2.map (fun e => ((l.on c).2.1, e)) ++ Listener.queue (l.on c).1 cs

/-- The trackers after a history. -/
def Listener.after (l : Listener) (cs : List Call) : Listener := cs.foldl (fun l c => (l.on c).1) l

/-! ## Bulk updates and their mapping -/

/-- `DashboardBulkUpdate`, DashboardBulkUpdate.hpp:19-46. -/
structure Bulk where
  stopped : Option Nat := none
  systemStates : List ParticipantState := []
  connected : List String := []
  statuses : List (String × ParticipantState) := []
  services : List Descriptor := []
deriving Repr, DecidableEq

/-- `Empty`, DashboardBulkUpdate.hpp:32-36. -/
def Bulk.empty (b : Bulk) : Bool :=
  b.stopped.isNone && b.systemStates.isEmpty && b.connected.isEmpty && b.statuses.isEmpty && b.services.isEmpty

/-- The cases of the worker's switch that extend the bulk update, DashboardInstance.cpp:193-230. -/
def Bulk.add (b : Bulk) : Event → Bulk
  | .connected p => { b with connected := b.connected ++ [p] }
  | .system s => { b with systemStates := b.systemStates ++ [s] }
  | .status p s => { b with statuses := b.statuses ++ [(p, s)] }
  | .service d => { b with services := b.services ++ [d] }
  | .stop time => { b with stopped := some time }
  | .start _ => b
  | .metrics _ _ => b

/-- The lists of services of `BulkParticipantDto`, dto/BulkUpdateDto.hpp. -/
inductive Category
  | canControllers | ethernetControllers | flexrayControllers | linControllers
  | dataPublishers | dataSubscribers | dataSubscriberInternals
  | rpcClients | rpcServers | rpcServerInternals
  | canNetworks | ethernetNetworks | flexrayNetworks | linNetworks
deriving Repr, DecidableEq

/-- An entry of one of these lists: a network has only a name. -/
structure Entry where
  category : Category
  id : Nat := 0
  name : String := ""
  networkName : String
  /-- Topic or function, media type and labels, or the parent's id. -/
  spec : List String := []
deriving Repr, DecidableEq

/-- `BulkParticipantDto`. The lists of services are one list. -/
structure ParticipantDto where
  name : String
  statuses : List ParticipantState := []
  entries : List Entry := []
deriving Repr, DecidableEq

/-- `BulkSimulationDto`. -/
structure Dto where
  stopped : Option Nat
  system : List ParticipantState
  participants : List ParticipantDto
deriving Repr, DecidableEq

/-- `GetSupplementalDataValue`, SilKitToOatppMapper.cpp:38-46, for several keys; `none` is the exception. -/
def values (d : Descriptor) : List String → Option (List String)
  | [] => some []
  | k :: ks => match d.data.lookup k, values d ks with
    | some v, some vs => some (v :: vs)
    | _, _ => none

/-- The type of the controller, the list it is shown in, and the keys that `CreateBulkDataServiceDto`, `CreateBulkRpcServiceDto` and
`CreateBulkServiceInternalDto` need, SilKitToOatppMapper.cpp:216-337, 466-519 and ServiceConfigKeys.hpp:23-56. -/
def controllers : List (String × Category × List String) :=
  [("CAN", .canControllers, []), ("Ethernet", .ethernetControllers, []), ("FlexRay", .flexrayControllers, []), ("LIN", .linControllers, []),
   ("DataPublisher", .dataPublishers, ["PubSub::topic", "PubSub::pubMediaType", "PubSub::pubLabels"]),
   ("DataSubscriber", .dataSubscribers, ["PubSub::topic", "PubSub::subMediaType", "PubSub::subLabels"]),
   ("DataSubscriberInternal", .dataSubscriberInternals, ["PubSub::subIntParentServiceId"]),
   ("RpcClient", .rpcClients, ["Rpc::client::functionName", "Rpc::client::mediaType", "Rpc::client::labels"]),
   ("RpcServer", .rpcServers, ["Rpc::server::functionName", "Rpc::server::mediaType", "Rpc::server::labels"]),
   ("RpcServerInternal", .rpcServerInternals, ["Rpc::serverinternal::parentServiceId"])]

/-- `ProcessControllerDiscovery`, SilKitToOatppMapper.cpp:466-519; the key of the type is `controller.type`. -/
def controllerEntry (d : Descriptor) : Option (List Entry) :=
  match d.data.lookup "controller.type" with
  | none => none
  | some t => match controllers.lookup t with
    | none => none
    | some (category, keys) => (values d keys).map (fun spec => [{ category, id := d.id, name := d.name, networkName := d.networkName, spec }])

/-- `ProcessLinkDiscovery`, SilKitToOatppMapper.cpp:521-540. -/
def linkEntry (d : Descriptor) : List Entry :=
  match d.network with
  | .can => [{ category := .canNetworks, networkName := d.networkName }]
  | .ethernet => [{ category := .ethernetNetworks, networkName := d.networkName }]
  | .flexray => [{ category := .flexrayNetworks, networkName := d.networkName }]
  | .lin => [{ category := .linNetworks, networkName := d.networkName }]
  | .other => []

/-- `ProcessServiceDiscovery`, SilKitToOatppMapper.cpp:451-464; `none` is an exception. -/
def entries (d : Descriptor) : Option (List Entry) :=
  match d.type with
  | .controller => controllerEntry d
  | .link => some (linkEntry d)
  | .other => some []

/-- `getOrCreateParticipantDto` and a change of the result, SilKitToOatppMapper.cpp:355-365. New participants are put at the end; the code
keeps them in an unordered map. -/
def onParticipant (ps : List ParticipantDto) (name : String) (f : ParticipantDto → ParticipantDto) : List ParticipantDto :=
  match ps with
  | [] => [f { name }]
  | p :: ps => if p.name = name then f p :: ps else p :: onParticipant ps name f

/-- The loop over the services, SilKitToOatppMapper.cpp:378-389. -/
def mapServices : List ParticipantDto → List Descriptor → Option (List ParticipantDto)
  | ps, [] => some ps
  | ps, d :: ds => match entries d with
    | none => none
    | some es => mapServices (onParticipant ps d.participant (fun p => { p with entries := p.entries ++ es })) ds

/-- The loops over connections and statuses, SilKitToOatppMapper.cpp:367-376. -/
def mapParticipants (b : Bulk) : List ParticipantDto :=
  b.statuses.foldl (fun ps s => onParticipant ps s.1 (fun p => { p with statuses := p.statuses ++ [s.2] }))
    (b.connected.foldl (fun ps c => onParticipant ps c id) [])

/-- `CreateBulkSimulationDto`, SilKitToOatppMapper.cpp:339-397. The states are mapped one to one (78-154). -/
def Bulk.dto (b : Bulk) : Option Dto :=
  (mapServices (mapParticipants b) b.services).map (fun ps => { stopped := b.stopped, system := b.systemStates, participants := ps })

/-! ## The worker -/

/-- A request to the dashboard. -/
inductive Request
  | create (sim : String) (time : Nat) (answer : Nat)
  | update (id : Nat) (dto : Dto)
  | metrics (id : Nat) (origin : String) (update : String)
deriving Repr, DecidableEq

/-- `ProcessEventsWithBulkUpdates`, DashboardInstance.cpp:113-252. -/
structure Worker where
  /-- `simulationNameToId`. -/
  names : List (String × Nat) := []
  /-- `simulationBulkUpdates`, in the order of the iteration, whatever that is. -/
  bulks : List (Nat × Bulk) := []
  /-- The number of simulations created so far. -/
  created : Nat := 0
  /-- The requests sent so far. -/
  sent : List Request := []
  /-- An exception has ended the worker (270-281). -/
  failed : Bool := false
deriving Repr, DecidableEq

/-- `simulationBulkUpdates[id]`, changed. -/
def change (bs : List (Nat × Bulk)) (id : Nat) (f : Bulk → Bulk) : List (Nat × Bulk) :=
  match bs with
  | [] => [(id, f {})]
  | b :: bs => if b.1 = id then (id, f b.2) :: bs else b :: change bs id f

/-- `ProcessAllAccumulatedBulkUpdates`, DashboardInstance.cpp:121-135: the bulk updates afterwards, the requests, and whether there was an
exception. -/
def flush : List (Nat × Bulk) → List (Nat × Bulk) × List Request × Bool
  | [] => ([], [], false)
  | (id, b) :: bs =>
    if b.empty then ((id, b) :: (flush bs).1, (flush bs).2)
    else match b.dto with
      | none => ((id, b) :: bs, [], true)
      | some dto => ((id, {}) :: (flush bs).1, .update id dto :: (flush bs).2.1, (flush bs).2.2)

def Worker.flush (w : Worker) : Worker :=
  { w with bulks := (Dashboard.flush w.bulks).1, sent := w.sent ++ (Dashboard.flush w.bulks).2.1, failed := (Dashboard.flush w.bulks).2.2 }

/-- A simulation is created, DashboardInstance.cpp:150-174. `answer n` is what the dashboard answers to the n-th request to create a
simulation. -/
def Worker.start (answer : Nat → Nat) (w : Worker) (sim : String) (time : Nat) : Worker :=
  match w.names.lookup sim with
  | some _ => w
  | none =>
    let id := answer w.created
    { w with
      created := w.created + 1, sent := w.sent ++ [.create sim time id],
      names := if id = 0 then w.names else (sim, id) :: w.names }

/-- The events of a known simulation, DashboardInstance.cpp:188-246. -/
def Worker.item (w : Worker) (sim : String) (id : Nat) (e : Event) : Worker :=
  let w := { w with bulks := change w.bulks id (·.add e) }
  match e with
  | .stop _ => { w with names := w.names.filter (fun n => n.1 ≠ sim) }
  | .metrics origin update => { w with sent := w.sent ++ [.metrics id origin update] }
  | _ => w

/-- One event, DashboardInstance.cpp:137-247. -/
def Worker.event (answer : Nat → Nat) (w : Worker) (e : String × Event) : Worker :=
  if w.failed then w
  else match e.2 with
    | .start time => if w.flush.failed then w.flush else w.flush.start answer e.1 time
    | ev => match w.names.lookup e.1 with
      | none => w
      | some id => w.item e.1 id ev

/-- The events of a batch up to its end, or up to the point where the worker finds that it has to abort (139-142). -/
def Worker.events (answer : Nat → Nat) (w : Worker) (es : List (String × Event)) : Worker := es.foldl (Worker.event answer) w

/-- What `DequeueAllInto` yields, and the flush afterwards, DashboardInstance.cpp:119, 249-250. -/
def Worker.batch (answer : Nat → Nat) (w : Worker) (es : List (String × Event)) : Worker :=
  let w := w.events answer es
  if w.failed then w else w.flush

/-- The worker, for the queue taken in the given batches. -/
def Worker.run (answer : Nat → Nat) (batches : List (List (String × Event))) : Worker :=
  batches.foldl (Worker.batch answer) {}

/-- The destructor has set `_abort` (DashboardInstance.cpp:43-60) while the worker processes a batch: it has processed some of the events and
returns. -/
def Worker.aborted (answer : Nat → Nat) (batches : List (List (String × Event))) (es : List (String × Event)) : Worker :=
  (Worker.run answer batches).events answer es

end SilKit.Dashboard
