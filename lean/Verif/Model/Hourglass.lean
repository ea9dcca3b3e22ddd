import Verif.Model.Handlers
/-!
# Model of handlers given to the C++ API

Source: `SilKit/include/silkit/detail/impl/services/**`, the header-only C++ API on top of the C interface, with `SilKit/source/capi/Capi*.cpp`.

A C++ handler cannot be given to the C interface; only a function pointer and a `void*` context can. So the C++ API keeps an object with the
handler, the `HandlerData`, and hands its address to the C interface as the context. The services behind the C interface keep the address (the
closures of CapiCan.cpp:46 and the like) in their own container of handlers, one for each kind of handler (`SynchronizedHandlers`, modelled
in `Model/Handlers.lean`, where the address is the payload), or in a single slot. When an event occurs, the address is cast back, and the
handler behind it is called. The model follows the addresses: using the address of an object that has been destroyed, or that is no
`HandlerData`, is undefined behaviour.

Simplifications: all objects of the C++ API with handlers are taken as one, with one container for each kind of handler (they do not share
anything). Addresses are not reused. Not modelled: what is passed to the handlers (see `Model/HourglassValues.lean`), calls that fail (the
`HandlerData` is destroyed, nothing is registered), data races between two threads that add or remove handlers of one object, a handler that
sets another one in its own place while it is being called, the first calls made by adding a handler of the system monitor, and the end of the objects.
-/
namespace SilKit.Hourglass
open SilKit (Handlers.State Handlers.Out)

/-- The kinds of handlers that are added and removed with an identifier. -/
inductive Kind
  /-- can/CanController.hpp:73-76. -/
  | canFrame | canStateChange | canErrorStateChange | canFrameTransmit
  /-- ethernet/EthernetController.hpp:139, 181, 219, 257. -/
  | ethFrame | ethFrameTransmit | ethStateChange | ethBitrateChange
  /-- lin/LinController.hpp:277, 314, 352, 392, 468. -/
  | linFrameStatus | linGoToSleep | linWakeup | linSlaveConfiguration | linFrameHeader
  /-- flexray/FlexrayController.hpp:256, 297, 336, 382, 421, 460, 498. -/
  | frFrame | frFrameTransmit | frWakeup | frPocStatus | frSymbol | frSymbolTransmit | frCycleStart
  /-- orchestration/SystemMonitor.hpp:120, 169. -/
  | systemState | participantStatus
  /-- orchestration/TimeSyncService.hpp:164. -/
  | otherStepsCompleted
deriving Repr, DecidableEq

/-- The map of the C++ API from which removing a handler erases: its own (CanController.hpp:197, 235, 273, 318, EthernetController.hpp:150,
192, 230, 268, LinController.hpp:288, 325, 363, 479, FlexrayController.hpp:267, 308, 347, 393, 432, 471, 509, SystemMonitor.hpp:131, 180), except that
removing a LIN slave configuration handler erases from the wakeup handlers (LinController.hpp:403), and removing a handler of
`OtherSimulationStepsCompleted` erases nothing (TimeSyncService.hpp:170-179). -/
def erasedMap : Kind → Option Kind
  | .linSlaveConfiguration => some .linWakeup
  | .otherStepsCompleted => none
  | k => some k

structure State where
  /-- The containers behind the C interface; the payload is the address of the `HandlerData`. -/
  core : Kind → Handlers.State := fun _ => {}
  /-- The `HandlerData` objects allocated so far: the address is the position, the value the user's handler. -/
  allocated : List Nat := []
  /-- The addresses of destroyed objects. -/
  freed : List Nat := []
  /-- The local `handlerData` of the calls that add a handler and have not stored it yet: kind, identifier, address. -/
  pending : List (Kind × Nat × Nat) := []
  /-- The maps `_xxxHandlers`: kind, identifier, address. -/
  table : List (Kind × Nat × Nat) := []
  /-- The calls that remove a handler and have not erased it yet. -/
  removing : List (Kind × Nat) := []

inductive Event
  /-- `AddXxxHandler` up to the return of the C function. -/
  | addBegin (k : Kind) (handler : Nat)
  /-- The rest of the call that was given the identifier `id`. -/
  | addEnd (k : Kind) (id : Nat)
  /-- `RemoveXxxHandler` up to the return of the C function. -/
  | removeBegin (k : Kind) (id : Nat)
  | removeEnd (k : Kind) (id : Nat)
  /-- An event for the handlers of the kind, and the return of the innermost handler called, see `Handlers.Event`. -/
  | invoke (k : Kind)
  | ret (k : Kind)
deriving Repr, DecidableEq

def setCore (s : State) (k : Kind) (c : Handlers.State) : State := { s with core := fun k' => if k' = k then c else s.core k' }

/-- What the user sees of an output of the container: for a call, `static_cast<HandlerData<…>*>(context)` and the call of the handler in it, e.g.
CanController.hpp:172-173. -/
def seen (s : State) : Handlers.Out → Handlers.Out
  | .called n id p => if p ∈ s.freed then .undefined else match s.allocated[p]? with
    | some h => .called n id h
    | none => .undefined
  | .added id p => match s.allocated[p]? with
    | some h => .added id h
    | none => .undefined
  | o => o

/-- CanController.hpp:178-184 and the like, with the C function, CapiCan.cpp:34-69. -/
def addBegin (s : State) (k : Kind) (h : Nat) : State × List Handlers.Out :=
  let p := s.allocated.length
  let r := Handlers.on (s.core k) (.add p)
  let s' := { setCore s k r.1 with allocated := s.allocated ++ [h], pending := (k, (s.core k).next % Handlers.idRange, p) :: s.pending }
  (s', r.2.map (seen s'))

def isEntry (k : Kind) (id : Nat) (e : Kind × Nat × Nat) : Bool := decide (e.1 = k ∧ e.2.1 = id)

/-- `_frameHandlers.emplace(…)`, CanController.hpp:186: if the key is there already, the object is destroyed. -/
def addEnd (s : State) (k : Kind) (id : Nat) : State :=
  match s.pending.find? (isEntry k id) with
  | none => s
  | some e =>
      let s' := { s with pending := s.pending.filter (fun x => x != e) }
      if s.table.any (isEntry k id) then { s' with freed := e.2.2 :: s.freed } else { s' with table := e :: s.table }

/-- CanController.hpp:193-195, with the C function, CapiCan.cpp:73-82. -/
def removeBegin (s : State) (k : Kind) (id : Nat) : State × List Handlers.Out :=
  let r := Handlers.on (s.core k) (.remove id)
  ({ setCore s k r.1 with removing := (k, id) :: s.removing }, r.2)

/-- `_frameHandlers.erase(handlerId)`, CanController.hpp:197. -/
def erase (s : State) (k : Kind) (id : Nat) : State :=
  { s with freed := (s.table.filter (isEntry k id)).map (·.2.2) ++ s.freed, table := s.table.filter (fun e => !isEntry k id e) }

def removeEnd (s : State) (k : Kind) (id : Nat) : State :=
  if (k, id) ∈ s.removing then
    let s' := { s with removing := s.removing.erase (k, id) }
    match erasedMap k with
    | some k' => erase s' k' id
    | none => s'
  else s

def invoke (s : State) (k : Kind) : State × List Handlers.Out :=
  let r := Handlers.on (s.core k) .invoke
  let s' := setCore s k r.1
  (s', r.2.map (seen s'))

def ret (s : State) (k : Kind) : State × List Handlers.Out :=
  let r := Handlers.on (s.core k) .ret
  let s' := setCore s k r.1
  (s', r.2.map (seen s'))

def on (s : State) : Event → State × List Handlers.Out
  | .addBegin k h => addBegin s k h
  | .addEnd k id => (addEnd s k id, [])
  | .removeBegin k id => removeBegin s k id
  | .removeEnd k id => (removeEnd s k id, [])
  | .invoke k => invoke s k
  | .ret k => ret s k

/-! ## Handlers that are set -/

/-- The functions of the C++ API that set a handler in the place of the one before. -/
inductive Setter
  /-- pubsub/DataSubscriber.hpp:74-91, 93-104. -/
  | dataMessage
  /-- rpc/RpcClient.hpp:79-96, 115-126. -/
  | rpcResult
  /-- rpc/RpcServer.hpp:80-98: the constructor. -/
  | rpcCallInitial
  /-- `SetCallHandler`, rpc/RpcServer.hpp:109-119. -/
  | rpcCall
  /-- orchestration/LifecycleService.hpp:114-130, 132-149, 157-173, 175-190, 192-208, 210-226. -/
  | communicationReady | communicationReadyAsync | starting | stop | shutdown | abort
  /-- orchestration/TimeSyncService.hpp:88-105, 107-125. -/
  | simulationStep | simulationStepAsync
  /-- orchestration/SystemMonitor.hpp:228-248, 250-268. -/
  | participantConnected | participantDisconnected
deriving Repr, DecidableEq

/-- The member of the C++ object that holds the `HandlerData`. -/
def member : Setter → Setter
  | .rpcCallInitial => .rpcCall
  | s => s

/-- The place behind the C interface where the handler is kept: `_simTask` (TimeSyncService.cpp:473, 481) and `_commReadyHandler`
(LifecycleService.cpp:38, 44) are shared by two setters. -/
def slot : Setter → Setter
  | .rpcCallInitial => .rpcCall
  | .communicationReadyAsync => .communicationReady
  | .simulationStepAsync => .simulationStep
  | s => s

/-- The context handed to the C interface. -/
inductive Context
  | handlerData (address : Nat)
  /-- The address of the object of the C++ API itself. -/
  | self
deriving Repr, DecidableEq

/-- `handlerData.get()` or `ownedHandlerPtr.get()`, e.g. DataSubscriber.hpp:100; `this` in `RpcServer::SetCallHandler`, RpcServer.hpp:115. -/
def contextOf (st : Setter) (address : Nat) : Context :=
  match st with
  | .rpcCall => .self
  | _ => .handlerData address

structure Slots where
  allocated : List Nat := []
  freed : List Nat := []
  /-- The handler kept behind the C interface. -/
  core : Setter → Option Context := fun _ => none
  /-- The `unique_ptr` members. -/
  members : Setter → Option Nat := fun _ => none
  /-- The calls that have not stored the `HandlerData` yet. -/
  setting : List (Setter × Nat) := []

inductive SlotEvent
  /-- A setter up to the return of the C function. -/
  | setBegin (st : Setter) (handler : Nat)
  /-- The rest of a setter. -/
  | setEnd (st : Setter)
  /-- The handler in the slot is called. -/
  | event (st : Setter)
deriving Repr, DecidableEq

inductive Called
  | handler (st : Setter) (h : Nat)
  | nobody (st : Setter)
  | undefined
deriving Repr, DecidableEq

/-- e.g. DataSubscriber.hpp:95-101. -/
def setBegin (s : Slots) (st : Setter) (h : Nat) : Slots :=
  let p := s.allocated.length
  { s with
    allocated := s.allocated ++ [h]
    core := fun t => if t = slot st then some (contextOf st p) else s.core t
    setting := s.setting ++ [(st, p)] }

/-- `_dataMessageHandler = std::move(handlerData)`, DataSubscriber.hpp:103: the object before is destroyed. -/
def setEnd (s : Slots) (st : Setter) : Slots :=
  match s.setting.find? (fun e => decide (e.1 = st)) with
  | none => s
  | some e =>
      { s with
        setting := s.setting.erase e
        members := fun t => if t = member st then some e.2 else s.members t
        freed := (s.members (member st)).toList ++ s.freed }

/-- The callback of the C++ API, e.g. DataSubscriber.hpp:106-118, RpcServer.hpp:121-132: the context is taken for a `HandlerData`. -/
def callBack (s : Slots) (st : Setter) : Context → Called
  | .handlerData p => if p ∈ s.freed then .undefined else match s.allocated[p]? with
    | some h => .handler st h
    | none => .undefined
  | .self => .undefined

def onSlot (s : Slots) : SlotEvent → Slots × List Called
  | .setBegin st h => (setBegin s st h, [])
  | .setEnd st => (setEnd s st, [])
  | .event st => (s, [match s.core (slot st) with
      | none => .nobody st
      | some c => callBack s st c])

end SilKit.Hourglass
