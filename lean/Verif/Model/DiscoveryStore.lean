import Verif.Model.Labels
/-!
# Model of `SpecificDiscoveryStore`

`SilKit/source/core/service/SpecificDiscoveryStore.{hpp,cpp}`: the index that tells data subscribers, RPC servers and RPC
clients about their counterparts.

`unordered_map`s are functions from keys. For `labelMap` an absent entry and an empty cluster are the same thing (entries
are only reached by key or when removing a node). For `notLabelMap` presence matters (`firstTimeLabel`), hence `Option`.
All clusters touched by one loop over `notLabelMap` are different, so the (unspecified) iteration order is irrelevant.
Handlers are identified by a number; calling a handler is an output. Callbacks that re-enter the store for another key are
separate operations.
-/
namespace SilKit.Discovery
open Labels

/-- What `ServiceChange` extracts from a `ServiceDescriptor`, SpecificDiscoveryStore.cpp:25-63. `id` is the identity compared by
`ServiceDescriptor::operator==` (core/internal/ServiceDescriptor.hpp:264-268). -/
structure Service where
  id : Nat
  controllerType : String
  key : String
  mediaType : String
  labels : List Label
deriving Repr, DecidableEq

/-- `ControllerCluster`, SpecificDiscoveryStore.hpp:40-49. -/
structure Info where
  handler : Nat
  labels : List Label
deriving Repr, DecidableEq

/-- `DiscoveryCluster`, SpecificDiscoveryStore.hpp:52-57. -/
structure Cluster where
  nodes : List Service := []
  infos : List Info := []
deriving Repr, DecidableEq

/-- `DiscoveryKeyNode`, SpecificDiscoveryStore.hpp:60-71. -/
structure Entry where
  labelMap : String → String → Cluster := fun _ _ => {}
  notLabelMap : String → Option Cluster := fun _ => none
  noLabel : Cluster := {}
  all : Cluster := {}

/-- `controllerTypeRpcServerInternal` etc., core/service/IServiceDiscovery.hpp. -/
def rpcServerInternal : String := "RpcServerInternal"
def rpcClient : String := "RpcClient"
def dataPublisher : String := "DataPublisher"

/-- `_allowedControllers`, SpecificDiscoveryStore.hpp:139-140. -/
def allowed (controllerType : String) : Bool :=
  controllerType == dataPublisher || controllerType == rpcServerInternal || controllerType == rpcClient

/-- The labels of a service: read for publishers and RPC clients only, `ServiceChange` 35-63 and `GetLabels` 386-409. -/
def Service.labelsOf (s : Service) : List Label :=
  if s.controllerType = rpcServerInternal then [] else s.labels

/-- `keyNode.notLabelMap[key]` with `operator[]`: creates an empty cluster when absent. -/
def Entry.touch (e : Entry) (key : String) : Entry :=
  { e with notLabelMap := fun k => if k = key ∧ e.notLabelMap k = none then some {} else e.notLabelMap k }

/-- The cluster in `notLabelMap`, empty when absent. -/
def Entry.notLabel (e : Entry) (key : String) : Cluster := (e.notLabelMap key).getD {}

/-- `GetLabelWithMinimalHandlerSet` (208-245, `cnt` counts handlers) and `GetLabelWithMinimalNodeSet` (247-285, `cnt` counts
nodes): the loop over the labels with `matchCount` and `outGreedyLabel`. Looking at an optional label creates its
`notLabelMap` entry. -/
def Entry.greedyLoop (cnt : Cluster → Nat) : Entry → Nat → Option Label → List Label → Entry × Option Label
  | e, _, out, [] => (e, out)
  | e, matchCount, out, l :: ls =>
    if matchCount ≤ 1 then (e, out)
    else match l.kind with
      | .mandatory =>
        if cnt (e.labelMap l.key l.value) < matchCount then
          greedyLoop cnt e (cnt (e.labelMap l.key l.value)) (some l) ls
        else greedyLoop cnt e matchCount out ls
      | .optional =>
        let n := cnt (e.labelMap l.key l.value) + cnt (e.notLabel l.key)
        if 0 < n ∧ n < matchCount then greedyLoop cnt (e.touch l.key) n (some l) ls
        else greedyLoop cnt (e.touch l.key) matchCount out ls

/-- Choice of the label to search by. -/
def Entry.greedy (cnt : Cluster → Nat) (e : Entry) (labels : List Label) : Entry × Option Label :=
  e.greedyLoop cnt (cnt e.all) none labels

/-- The clusters that are searched for a chosen label, in order (`CallHandlerOnHandlerRegistration` 87-132 and
`CallHandlersOnServiceChange` 146-189). -/
def Entry.candidates {α : Type} (sel : Cluster → List α) (e : Entry) : Option Label → List α
  | none => sel e.all
  | some l => match l.kind with
    | .optional => sel (e.notLabel l.key) ++ sel e.noLabel ++ sel (e.labelMap l.key l.value)
    | .mandatory => sel (e.labelMap l.key l.value)

/-- `CallHandlerOnHandlerRegistration`, 79-133: the services the new handler is told about. -/
def Entry.onRegistration (e : Entry) (labels : List Label) : Entry × List Service :=
  let r := e.greedy (fun c => c.nodes.length) labels
  (r.1, (r.1.candidates Cluster.nodes r.2).filter (fun s => matchLabels labels s.labelsOf))

/-- `CallHandlersOnServiceChange`, 136-190: the handlers that are told about the service. Label checks are skipped for
`RpcServerInternal` (whose label list is empty, so no label is chosen). -/
def Entry.onChange (e : Entry) (s : Service) : Entry × List Info :=
  let r := e.greedy (fun c => c.infos.length) s.labelsOf
  (r.1, (r.1.candidates Cluster.infos r.2).filter
    (fun i => (r.2.isNone && s.controllerType == rpcServerInternal) || matchLabels i.labels s.labelsOf))

/-- Body of the first loop of `UpdateDiscoveryClusters`, 303-320: a label key seen for the first time gets all earlier nodes and
handlers (`entry.allCluster`, which the current item has already been added to). -/
def Entry.ensureLabel (e : Entry) (key : String) : Entry :=
  { e with notLabelMap := fun k => if k = key ∧ e.notLabelMap k = none then some e.all else e.notLabelMap k }

/-- First loop of `UpdateDiscoveryClusters`, 301-321. -/
def Entry.ensureLabels (e : Entry) (labels : List Label) : Entry := labels.foldl (fun e l => e.ensureLabel l.key) e

/-- Second loop of `UpdateDiscoveryClusters`, 324-340. -/
def Entry.updateLabels (e : Entry) (labels : List Label) (upd : Cluster → Cluster) : Entry :=
  { e with
    labelMap := fun k v =>
      if (e.notLabelMap k).isSome && (tryFind k labels).any (fun l => l.value == v) then upd (e.labelMap k v)
      else e.labelMap k v
    notLabelMap := fun k => if (tryFind k labels).isNone then (e.notLabelMap k).map upd else e.notLabelMap k }

/-- `UpdateDiscoveryClusters`, 287-342. -/
def Entry.update (e : Entry) (labels : List Label) (upd : Cluster → Cluster) : Entry :=
  let e := { e with all := upd e.all }
  match labels with
  | [] => { e with noLabel := upd e.noLabel }
  | _ => (e.ensureLabels labels).updateLabels labels upd

/-- `cluster.nodes.push_back`, 349. -/
def Cluster.addNode (s : Service) (c : Cluster) : Cluster := { c with nodes := c.nodes ++ [s] }
/-- `cluster.controllerInfo.push_back`, 383. -/
def Cluster.addInfo (i : Info) (c : Cluster) : Cluster := { c with infos := c.infos ++ [i] }
/-- erase-remove by `ServiceDescriptor::operator==`, 356-374. -/
def Cluster.removeNode (s : Service) (c : Cluster) : Cluster := { c with nodes := c.nodes.filter (fun n => n.id != s.id) }

/-- `InsertLookupNode`, 344-350. -/
def Entry.insertNode (e : Entry) (s : Service) : Entry := e.update s.labelsOf (Cluster.addNode s)
/-- `InsertLookupHandler`, 377-384. -/
def Entry.insertInfo (e : Entry) (i : Info) : Entry := e.update i.labels (Cluster.addInfo i)

/-- `RemoveLookupNode`, 352-375. -/
def Entry.removeNode (e : Entry) (s : Service) : Entry :=
  { labelMap := fun k v => (e.labelMap k v).removeNode s
    notLabelMap := fun k => (e.notLabelMap k).map (Cluster.removeNode s)
    noLabel := e.noLabel.removeNode s
    all := e.all.removeNode s }

/-- A call of a handler: which handler, created or removed, which service. -/
structure Notice where
  handler : Nat
  created : Bool
  service : Service
deriving Repr, DecidableEq

/-- `_lookup`, SpecificDiscoveryStore.hpp:144: an entry per controller type and key. -/
structure Store where
  lookup : String → String → Entry := fun _ _ => {}

/-- Replacing one entry. -/
def Store.set (st : Store) (ct key : String) (e : Entry) : Store :=
  { lookup := fun c k => if c = ct ∧ k = key then e else st.lookup c k }

/-- `ServiceChange`, 22-76: notify first, then update the index. -/
def Store.serviceChange (st : Store) (created : Bool) (s : Service) : Store × List Notice :=
  if allowed s.controllerType then
    let r := (st.lookup s.controllerType s.key).onChange s
    let e := if created then r.1.insertNode s else r.1.removeNode s
    (st.set s.controllerType s.key e, r.2.map (fun i => ⟨i.handler, created, s⟩))
  else (st, [])

/-- `RegisterSpecificServiceDiscoveryHandler`, 411-417. -/
def Store.register (st : Store) (ct key : String) (i : Info) : Store × List Notice :=
  let r := (st.lookup ct key).onRegistration i.labels
  (st.set ct key (r.1.insertInfo i), r.2.map (fun s => ⟨i.handler, true, s⟩))

end SilKit.Discovery
