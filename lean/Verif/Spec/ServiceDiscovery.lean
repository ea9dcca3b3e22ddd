import Verif.Model.ServiceDiscovery
/-!
# Specification of service discovery (C11)
-/
namespace SilKit.ServiceDiscovery.Spec

/-- Everything that can happen to the discovery of one participant. -/
inductive Op where
  /-- a remote participant sends its list of services -/
  | announcement (sender : String) (services : List Desc)
  /-- a remote participant reports one new service -/
  | remoteCreated (d : Desc)
  /-- a remote participant reports the removal of a service -/
  | remoteRemoved (d : Desc)
  /-- this participant creates a service -/
  | localCreated (d : Desc)
  /-- this participant removes a service -/
  | localRemoved (d : Desc)
  /-- the connection to a participant is lost -/
  | disconnected (participant : String)
  /-- the user registers another handler -/
  | register

/-- Participants announce their own services only. -/
def Op.Honest : Op → Prop
  | .announcement p ds => ∀ d ∈ ds, d.participant = p
  | _ => True

/-- A service is identified by its participant and its printed name. -/
def ident (d : Desc) : String × List Char := (d.participant, d.key)

/-- Whether the service with identity `k` is alive after one more event: announced and since then neither removed nor its
participant disconnected. -/
def aliveStep (self : String) (k : String × List Char) (alive : Bool) : Op → Bool
  | .announcement _ ds => alive || ds.any (fun d => ident d == k)
  | .remoteCreated d => alive || ident d == k
  | .localCreated d => alive || ident d == k
  | .remoteRemoved d => alive && ident d != k
  | .localRemoved d => alive && ident d != k
  | .disconnected p => alive && (k.1 != p || p == self)
  | .register => alive

/-- Whether the service `k` is alive after a history. -/
def alive (self : String) (h : List Op) (k : String × List Char) : Bool := h.foldl (aliveStep self k) false

/-- The component reacts to an event. -/
def react (s : State) : Op → State × List Output
  | .announcement p ds => s.onParticipantAddition p ds
  | .remoteCreated d => s.onServiceAddition d
  | .remoteRemoved d => s.onServiceRemoval d
  | .localCreated d => s.notifyServiceCreated d
  | .localRemoved d => s.notifyServiceRemoved d
  | .disconnected p => s.onParticipantRemoval p
  | .register => s.registerHandler

/-- State and all outputs after a history. -/
def run (self : String) (h : List Op) : State × List Output :=
  h.foldl (fun r op => ((react r.1 op).1, r.2 ++ (react r.1 op).2)) ({ self := self }, [])

/-- What handler number `i` heard about service `k`: `true` for created, `false` for removed. -/
def heard (i : Nat) (k : String × List Char) (outs : List Output) : List Bool :=
  outs.filterMap (fun o => match o with
    | .call j created d => if j = i ∧ ident d = k then some created else none
    | _ => none)

/-- What the index for publishers and RPC (`SpecificDiscoveryStore`) is told about service `k`. -/
def indexed (k : String × List Char) (outs : List Output) : List Bool :=
  outs.filterMap (fun o => match o with
    | .store created d => if ident d = k then some created else none
    | _ => none)

/-- created, removed, created, … -/
def Alternating (l : List Bool) : Prop := ∀ i (h : i < l.length), l[i] = (i % 2 == 0)

/-- How many handlers were registered. -/
def registered (h : List Op) : Nat := (h.filter (fun op => match op with | .register => true | _ => false)).length

/-- No name in the descriptor contains a slash. -/
def SlashFree (d : Desc) : Prop :=
  ∀ s, s = d.participant ∨ s = d.networkType ∨ s = d.network ∨ s = d.service ∨ s = d.controllerType → '/' ∉ s.toList

/-- The same service: same participant and kind, and the names that matter for that kind agree. -/
def SameService (a b : Desc) : Prop :=
  a.participant = b.participant ∧ a.type = b.type ∧
  (a.type = .link → a.networkType = b.networkType ∧ a.network = b.network) ∧
  (a.type = .controller ∨ a.type = .simulatedController →
    a.controllerType = b.controllerType ∧ a.network = b.network ∧ a.service = b.service) ∧
  (a.type = .internalController → a.service = b.service) ∧
  (a.type = .undefined → a.network = b.network ∧ a.service = b.service)

end SilKit.ServiceDiscovery.Spec
