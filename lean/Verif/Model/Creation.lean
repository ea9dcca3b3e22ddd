import Verif.Model.Labels
/-!
# Model: creating participants and services

`core/participant/ValidateAndSanitizeConfig.cpp`, the `Create...` functions of `core/participant/Participant_impl.hpp`, and the
configuration of replays, `tracing/ReplayScheduler.cpp:317-375`.

Simplifications: one thread creates services, except in `Guard` (the maps of controllers are not protected by a lock); random UUIDs are
numbers that never repeat; what a configuration contains beyond the fields below has no influence here. `std::sort` does not say in which
order labels with the same key come, so its result is an argument (`SortedLabels`).
-/
namespace SilKit.Creation
open SilKit.Labels

/-! ## Participants -/

/-- What of a `ParticipantConfiguration` names the participant, ParticipantConfiguration.hpp. -/
structure Identity where
  name : String := ""
  registryUri : String := ""
deriving Repr, DecidableEq

/-- `ValidateAndSanitizeConfig`, ValidateAndSanitizeConfig.cpp:13-87: `none` models `throw ConfigurationError`; the second component
counts the messages. No configuration is an empty one, with a warning. -/
def sanitize (config : Option Identity) (name registryUri : String) : Option (Identity × Nat) :=
  let c := config.getD {}
  if name = "" then none
  else
    let warn := (if config.isNone then 1 else 0) + (if c.name ≠ "" ∧ c.name ≠ name then 1 else 0) +
      (if c.registryUri = "" then (if registryUri = "" then 1 else 0) else if c.registryUri ≠ registryUri then 1 else 0)
    some ({ name := if c.name = "" then name else c.name
            registryUri := if c.registryUri = "" then (if registryUri = "" then "silkit://localhost:8500" else registryUri)
                           else c.registryUri }, warn)

/-! ## Services -/

/-- The services that users create. -/
inductive Kind | can | ethernet | flexray | lin | publisher | subscriber | client | server
deriving Repr, DecidableEq

/-- One entry of `CanControllers`, ..., `RpcServers`, ParticipantConfiguration.hpp. `address` is the network of a bus controller, the
topic of publishers and subscribers, the function name of clients and servers. `replay`: the trace source of a valid replay
(`IsValidReplayConfig`, Tracing.cpp:141-144). -/
structure Entry where
  name : String
  address : Option String := none
  labels : Option (List Label) := none
  history : Option Nat := none
  replay : Option String := none
  traceSinks : List String := []
deriving Repr, DecidableEq

/-- The entries per kind, the trace sinks that exist, and the trace sources. -/
structure Config where
  entries : Kind → List Entry := fun _ => []
  sinks : List String := []
  sources : List String := []

/-- A call of `Create...`. Fields that a kind does not have are ignored. -/
structure Request where
  kind : Kind
  name : String
  address : String
  mediaType : String := ""
  labels : List Label := []
  history : Nat := 0
deriving Repr, DecidableEq

/-- The network of a service: named, a UUID of its own, or irrelevant. -/
inductive Network
  | named (n : String)
  | unique (n : Nat)
deriving Repr, DecidableEq

/-- A created service: what `ServiceDescriptor`, supplemental data and constructor get, Participant_impl.hpp:1698-1709. -/
structure Service where
  id : Nat
  kind : Kind
  name : String
  network : Network
  address : String
  mediaType : String
  labels : List Label
  history : Nat
  traceSinks : List String
deriving Repr, DecidableEq

/-- `GetConfigByControllerName`, Participant_impl.hpp:258-276: the first entry with the name. -/
def findEntry (entries : List Entry) (name : String) : Entry :=
  (entries.find? (fun e => e.name == name)).getD { name }

/-- `UpdateOptionalConfigValue`, Participant_impl.hpp:278-294: the value, and whether a mismatch is reported. -/
def merge {α : Type} [DecidableEq α] (configured : Option α) (passed : α) : α × Bool :=
  match configured with
  | none => (passed, false)
  | some v => (v, decide (v ≠ passed))

/-- `PubSubSpec::AddLabel`, PubSubSpec.hpp:59-77, and `RpcSpec::AddLabel`, RpcSpec.hpp:59-77: a label with the same key is replaced in its
place. -/
def addLabel : List Label → Label → List Label
  | [], l => [l]
  | x :: xs, l => if x.key = l.key then l :: xs else x :: addLabel xs l

/-- What `std::sort` by key may make of the labels (Participant_impl.hpp:508-510). -/
def SortedLabels (labels sorted : List Label) : Prop := sorted.Perm labels ∧ sorted.Pairwise (fun a b => a.key ≤ b.key)

/-- The participant as far as services are concerned. -/
structure State where
  config : Config
  services : List Service := []
  /-- passed to `ServiceDiscovery::NotifyServiceCreated`, in order -/
  announced : List Service := []
  nextId : Nat := 0
  nextUuid : Nat := 0
  /-- mismatches that were logged -/
  mismatches : Nat := 0
  /-- `SetHistoryLengthForLink`, by service -/
  histories : List (Nat × Nat) := []

inductive Error
  | historyTooLong
  | emptyName
  | alreadyExists
  /-- `std::out_of_range` of `_replayFiles.at`, ReplayScheduler.cpp:340 -/
  | noSuchTraceSource
deriving Repr, DecidableEq

/-- The kinds with labels and media types. -/
def Kind.hasLabels : Kind → Bool
  | .publisher | .subscriber | .client | .server => true
  | _ => false

/-- The kinds for which the replay is configured when they are created: Participant_impl.hpp:322-326, 361-365, 434-438, 556-560. -/
def Kind.replays : Kind → Bool
  | .can | .ethernet | .lin | .publisher => true
  | _ => false

/-- The kinds to which `AddTraceSinksToSourceInternal` is applied: 328-332, 367-371, 398-402, 441-445, 550-554, 624-628. -/
def Kind.traces : Kind → Bool
  | .client | .server => false
  | _ => true

/-- The network in the descriptor: the configured one of bus controllers (1668-1670), a new UUID for publishers and clients (494, 662),
`"default"` for subscribers and servers (569, 720). -/
def network (k : Kind) (address : String) (uuid : Nat) : Network :=
  match k with
  | .publisher | .client => .unique uuid
  | .subscriber | .server => .named "default"
  | _ => .named address

/-- `_replayScheduler->ConfigureController`, ReplayScheduler.cpp:317-375: whether an exception leaves it. `_replayScheduler` exists if
there are trace sources (Tracing.cpp:136-139). Sources that exist are taken to have a channel, or the error is only logged. -/
def replayFails (c : Config) (k : Kind) (e : Entry) : Bool :=
  k.replays && !c.sources.isEmpty && (match e.replay with | some s => !c.sources.contains s | none => false)

/-- The trace sinks that exist, `AddTraceSinksToSourceInternal`, Participant_impl.hpp:1743-1771. -/
def usedSinks (c : Config) (k : Kind) (e : Entry) : List String :=
  if k.traces then e.traceSinks.filter (fun n => c.sinks.contains n) else []

/-- The effective settings of a request, with the number of mismatches. -/
structure Settings where
  address : String
  labels : List Label
  history : Nat
  mismatches : Nat

/-- The calls of `UpdateOptionalConfigValue`: 302, 341, 380, 413, 499-502, 574-576, 666-668, 724-726. -/
def settings (e : Entry) (r : Request) : Settings :=
  let a := merge e.address r.address
  let l := if r.kind.hasLabels then merge e.labels r.labels else ([], false)
  let h := if r.kind = .publisher then merge e.history r.history else (0, false)
  { address := a.1, labels := l.1, history := h.1, mismatches := a.2.toNat + l.2.toNat + h.2.toNat }

/-- One creation: `CreateCanController` etc., Participant_impl.hpp:296-446, 484-748, with `CreateController`, 1673-1724. `sorted` is what
`std::sort` makes of the labels. The last component is the exception. -/
def State.create (s : State) (r : Request) (sorted : List Label) : State × Option Error :=
  if r.kind = .publisher ∧ 1 < r.history then (s, some .historyTooLong)
  else
    let e := findEntry (s.config.entries r.kind) r.name
    let c := settings e r
    let s := { s with mismatches := s.mismatches + c.mismatches, nextUuid := s.nextUuid + 1 }
    if r.kind = .publisher ∧ 1 < c.history then (s, some .historyTooLong)
    else if e.name = "" then (s, some .emptyName)
    else if s.services.any (fun x => x.kind == r.kind && x.name == e.name) then (s, some .alreadyExists)
    else
      let v : Service :=
        { id := s.nextId, kind := r.kind, name := e.name, network := network r.kind c.address s.nextUuid, address := c.address
          mediaType := if r.kind.hasLabels then r.mediaType else "", labels := sorted.foldl addLabel [], history := c.history
          traceSinks := usedSinks s.config r.kind e }
      let s := { s with services := s.services ++ [v], announced := s.announced ++ [v], nextId := s.nextId + 1
                        histories := if r.kind = .publisher then s.histories ++ [(v.id, c.history)] else s.histories }
      if replayFails s.config r.kind e then (s, some .noSuchTraceSource) else (s, none)

/-- A service that the library creates for itself takes an identifier from the same counter (1698). -/
def State.internal (s : State) : State := { s with nextId := s.nextId + 1 }

inductive Op
  | create (r : Request) (sorted : List Label)
  | internal
deriving Repr

/-- A call and its outcome: `none` for internal ones, otherwise the exception, if any. -/
def State.step (s : State) : Op → State × Option (Option Error)
  | .create r sorted => let x := s.create r sorted; (x.1, some x.2)
  | .internal => (s.internal, none)

def State.run (s : State) : List Op → State
  | [] => s
  | o :: l => (s.step o).1.run l

/-! ## Services that exist once -/

/-- `CreateLifecycleService` (848-871), `CreateSystemMonitor` (910-919): a flag is tested and then set, not in one step. The calls of
several threads. -/
inductive GuardOp
  | test (thread : Nat)
  | set (thread : Nat)

structure Guard where
  created : Bool := false
  /-- the threads that have seen the flag unset -/
  inside : List Nat := []
  succeeded : List Nat := []
  failed : List Nat := []

def Guard.step (g : Guard) : GuardOp → Guard
  | .test t => if g.created then { g with failed := g.failed ++ [t] } else { g with inside := g.inside ++ [t] }
  | .set t => if t ∈ g.inside then { g with created := true, inside := g.inside.filter (· ≠ t), succeeded := g.succeeded ++ [t] } else g

/-- A call that is not interrupted. -/
def Guard.call (g : Guard) (t : Nat) : Guard := (g.step (.test t)).step (.set t)

end SilKit.Creation
