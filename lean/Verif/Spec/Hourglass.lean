import Verif.Model.Hourglass
import Verif.Spec.Handlers
/-!
# Specification of handlers given to the C++ API (C42)

A history is a list of events of the model: the calls of the C++ API, in two steps each, of any threads, and the events of the services.
`seenBy k h` lists what the users see of the handlers of kind `k`, in the vocabulary of C36; `requests k h` lists, in the same vocabulary, what has
been asked of them.
-/
namespace SilKit.Hourglass.Spec

def kindOf : Event → Kind
  | .addBegin k _ => k
  | .addEnd k _ => k
  | .removeBegin k _ => k
  | .removeEnd k _ => k
  | .invoke k => k
  | .ret k => k

def runStep (r : State × List (Kind × Handlers.Out)) (e : Event) : State × List (Kind × Handlers.Out) :=
  ((on r.1 e).1, r.2 ++ (on r.1 e).2.map (fun o => (kindOf e, o)))

def run (h : List Event) : State × List (Kind × Handlers.Out) := h.foldl runStep ({}, [])

def ofKind (k : Kind) (t : List (Kind × Handlers.Out)) : List Handlers.Out := t.filterMap (fun e => if e.1 = k then some e.2 else none)

/-- What happens to the handlers of kind `k`. A handler is known by the number the user gave it. -/
def seenBy (k : Kind) (h : List Event) : List Handlers.Out := ofKind k (run h).2

def request (k : Kind) : Event → Option Handlers.Event
  | .addBegin k' p => if k' = k then some (.add p) else none
  | .removeBegin k' id => if k' = k then some (.remove id) else none
  | .invoke k' => if k' = k then some .invoke else none
  | .ret k' => if k' = k then some .ret else none
  | _ => none

/-- What is asked of a container of handlers of kind `k` in the history. -/
def requests (k : Kind) (h : List Event) : List Handlers.Event := h.filterMap (request k)

/-- Not more than 2^64 handlers of each kind are added. -/
def FewHandlers (h : List Event) : Prop := ∀ k, Handlers.Spec.FewHandlers (requests k h)

def adds (k : Kind) (h : List Event) : Nat := (h.filter (fun | .addBegin k' _ => decide (k' = k) | _ => false)).length

/-- Only identifiers that have been handed out are removed: they are 0, 1, 2, … for each kind. -/
def KnownIdentifiers (h : List Event) : Prop := ∀ a b k id, h = a ++ .removeBegin k id :: b → id < adds k a

/-- No LIN slave configuration handler is removed. -/
def NoSlaveConfigurationRemoval (h : List Event) : Prop := ∀ id, Event.removeBegin .linSlaveConfiguration id ∉ h

/-! ## Handlers that are set -/

def slotRun (h : List SlotEvent) : Slots × List Called := h.foldl (fun r e => ((onSlot r.1 e).1, r.2 ++ (onSlot r.1 e).2)) ({}, [])

def called (h : List SlotEvent) : List Called := (slotRun h).2

/-- Whether setting a handler with `t` replaces the handler that was set with `st`. -/
def replaces : Setter → Setter → Bool
  | .rpcCall, .rpcCallInitial => true
  | .rpcCallInitial, .rpcCall => true
  | .communicationReady, .communicationReadyAsync => true
  | .communicationReadyAsync, .communicationReady => true
  | .simulationStep, .simulationStepAsync => true
  | .simulationStepAsync, .simulationStep => true
  | t, st => decide (t = st)

/-- The handler that was set last. -/
def lastSet (st : Setter) (h : List SlotEvent) : Option Nat :=
  (h.filterMap (fun | .setBegin t p => if replaces t st then some p else none | _ => none)).getLast?

/-- A setter of an object is not called again before it has returned. -/
def OneAtATime (h : List SlotEvent) : Prop :=
  ∀ a m b st p q, h = a ++ .setBegin st p :: (m ++ .setBegin st q :: b) → SlotEvent.setEnd st ∈ m

/-- `SetCallHandler` of an RPC server is not used. -/
def NoSetCallHandler (h : List SlotEvent) : Prop := ∀ p, SlotEvent.setBegin .rpcCall p ∉ h

/-- What has to be called when the event occurs. -/
def dueAt (st : Setter) (a : List SlotEvent) : Called :=
  match lastSet st a with
  | none => .nobody st
  | some h => .handler st h

end SilKit.Hourglass.Spec
