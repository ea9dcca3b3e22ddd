/-!
# Model: starting a lifecycle and waiting for its end through the C interface

`SilKit_LifecycleService_StartLifecycle` and `SilKit_LifecycleService_WaitForLifecycleToComplete` (SilKit/source/capi/CapiOrchestration.cpp:213-305) and the
waiting thread of the C++ API's `LifecycleService::StartLifecycle` (SilKit/include/silkit/detail/impl/services/orchestration/LifecycleService.hpp:228-256).
The C interface keeps the `std::future`s of all lifecycle services of the process in one table, by the address of the service.

Simplified: the arguments are not null (C72); what a lifecycle does until its end is left to the environment (C17, C18); two accesses to the same
`std::future` are a data race if one thread is inside `get` while another one uses it (races between accesses of short duration, one after the other, are
not counted); the C++ wrapper object is not modelled, only the thread it starts; the process does not end.
-/
namespace SilKit.LifecycleWait

/-- What becomes of the promise of a lifecycle service: `SetFinalStatePromise` (SilKit/source/services/orchestration/LifecycleService.cpp:363-376) sets
it to the final state, or the service is destroyed before. -/
inductive Outcome where
  | ended (state : Nat)
  | broken
deriving DecidableEq, Repr

/-- A lifecycle service object, LifecycleService.cpp:27-28: whether its future has been moved out by `StartLifecycle`, and its promise. -/
structure Service where
  taken : Bool := false
  outcome : Option Outcome := none
deriving DecidableEq, Repr

/-- An entry of `LifecycleFutureMap::_map` (CapiOrchestration.cpp:218-253): `id` tells the nodes of the table apart; `ref` is the service whose shared
state the future refers to, `none` if the future is not valid. -/
structure Node where
  id : Nat
  ref : Option Nat
deriving DecidableEq, Repr

/-- What the functions return, CapiOrchestration.cpp:280-305 with CapiImpl.hpp:13-83. -/
inductive Code where
  | success (state : Nat)
  /-- BADPARAMETER, "Unknown participant to wait for completion of asynchronous run operation". -/
  | unknown
  /-- UNSPECIFIEDERROR, "Failed to access asynchronous run operation". -/
  | noAccess
  /-- UNSPECIFIEDERROR: `get` has thrown `std::future_error`. -/
  | failed
deriving DecidableEq, Repr

/-- Where a thread is. `a` is the address that was passed, `o` the service the caller means. -/
inductive Phase where
  | idle
  /-- In `StartLifecycle`: the service has returned its future, which has to be added; then, for the C++ API, thread `waiter` is started. -/
  | adding (a o : Nat) (ref : Option Nat) (waiter : Option Nat)
  /-- About to call `Get` of the table. -/
  | calling (a o : Nat)
  /-- `Get` has returned a pointer to node `id`. -/
  | holding (a id o : Nat)
  /-- The future was valid. -/
  | checked (a id o : Nat)
  /-- Inside `future->get()`, for the shared state of service `r`. -/
  | getting (a id o r : Nat)
  /-- Has the final state; about to remove the entry and to return. -/
  | leaving (a o state : Nat)
deriving DecidableEq, Repr

/-- What can be seen from outside. -/
inductive Event where
  /-- `StartLifecycle` for service `o` at address `a` has returned SUCCESS. -/
  | started (a o : Nat)
  /-- `WaitForLifecycleToComplete` has returned. -/
  | returned (t a o : Nat) (code : Code)
deriving DecidableEq, Repr

/-- The process: the services that exist by address, all services ever created, the table, the threads. -/
structure World where
  live : Nat → Option Nat := fun _ => none
  services : Nat → Service := fun _ => {}
  nextService : Nat := 0
  table : Nat → Option Node := fun _ => none
  nextNode : Nat := 0
  threads : Nat → Phase := fun _ => .idle
  /-- The threads that have made calls. -/
  known : List Nat := []
  ub : Bool := false
  events : List Event := []

/-- What can happen. -/
inductive Op where
  /-- A participant creates a lifecycle service, which is put at address `a`. -/
  | create (a : Nat)
  /-- The participant with the service at `a` is destroyed. -/
  | destroy (a : Nat)
  /-- The lifecycle of the service at `a` ends. -/
  | finish (a state : Nat)
  /-- Thread `t` calls `StartLifecycle`; `ok = false`: the service throws. `waiter = some w`: the C++ API is used, and thread `w` will wait. -/
  | start (t a : Nat) (ok : Bool) (waiter : Option Nat)
  /-- Thread `t` calls `WaitForLifecycleToComplete` for the service that is at `a`. -/
  | wait (t a : Nat)
  /-- Thread `t` goes on. -/
  | go (t : Nat)
deriving DecidableEq, Repr

/-- Change one entry. -/
def upd {β : Type} (f : Nat → β) (k : Nat) (v : β) : Nat → β := fun i => if i = k then v else f i

/-- Whether a thread is inside `get` of node `id` at address `a`. -/
def inGet (a id : Nat) : Phase → Bool
  | .getting a' id' _ _ => a' = a && id' = id
  | _ => false

/-- Whether some other thread is inside `get` of this node. -/
def raced (w : World) (t a id : Nat) : Bool := w.known.any fun t' => t' ≠ t && inGet a id (w.threads t')

/-- One step. -/
def step (w : World) : Op → World
  | .create a =>
    if w.live a = none then
      { w with live := upd w.live a (some w.nextService), services := upd w.services w.nextService {}, nextService := w.nextService + 1 }
    else w
  | .destroy a =>
    match w.live a with
    | none => w
    | some o =>
      let s := w.services o
      { w with live := upd w.live a none, services := upd w.services o { s with outcome := if s.outcome = none then some .broken else s.outcome } }
  | .finish a state =>
    match w.live a with
    | none => w
    | some o =>
      let s := w.services o
      if s.taken ∧ s.outcome = none then { w with services := upd w.services o { s with outcome := some (.ended state) } } else w
  | .start t a ok waiter =>
    match w.live a with
    | none => w
    | some o =>
      -- LifecycleService.cpp:96-178: `_finalStatePromise` is never null, so that the second call returns a future that is not valid.
      if w.threads t = .idle ∧ ok then
        { w with services := upd w.services o { w.services o with taken := true },
                 threads := upd w.threads t (.adding a o (if (w.services o).taken then none else some o) waiter),
                 known := w.known ++ [t] ++ waiter.toList }
      else w
  | .wait t a =>
    match w.live a with
    | none => w
    | some o => if w.threads t = .idle then { w with threads := upd w.threads t (.calling a o), known := w.known ++ [t] } else w
  | .go t =>
    match w.threads t with
    | .idle => w
    | .adding a o ref waiter =>
      -- `_map[lifecycleService] = std::move(future)`, CapiOrchestration.cpp:224-228, 273
      let node : Node := match w.table a with | some n => { n with ref := ref } | none => { id := w.nextNode, ref := ref }
      let threads := upd w.threads t .idle
      let threads := match waiter with | some v => if threads v = .idle then upd threads v (.calling a o) else threads | none => threads
      { w with table := upd w.table a (some node), nextNode := w.nextNode + 1, threads := threads, events := w.events ++ [.started a o],
               ub := if raced w t a node.id then true else w.ub }
    | .calling a o =>
      -- CapiOrchestration.cpp:230-241, 288-295
      match w.table a with
      | none => { w with threads := upd w.threads t .idle, events := w.events ++ [.returned t a o .unknown] }
      | some n => { w with threads := upd w.threads t (.holding a n.id o) }
    | .holding a id o =>
      -- CapiOrchestration.cpp:296-300: `future->valid()`
      match w.table a with
      | none => { w with ub := true }
      | some n =>
        if n.id ≠ id ∨ raced w t a id then { w with ub := true }
        else if n.ref = none then { w with threads := upd w.threads t .idle, events := w.events ++ [.returned t a o .noAccess] }
        else { w with threads := upd w.threads t (.checked a id o) }
    | .checked a id o =>
      -- CapiOrchestration.cpp:301: `get` is entered
      match w.table a with
      | none => { w with ub := true }
      | some n =>
        if n.id ≠ id ∨ raced w t a id then { w with ub := true }
        else match n.ref with
          | none => { w with ub := true }
          | some r => { w with threads := upd w.threads t (.getting a id o r) }
    | .getting a id o r =>
      -- `get` returns: the future is not valid any more
      match (w.services r).outcome with
      | none => w
      | some out =>
        match w.table a with
        | none => { w with ub := true }
        | some n =>
          if n.id ≠ id then { w with ub := true }
          else
            let table := upd w.table a (some { n with ref := none })
            match out with
            | .ended s => { w with table := table, threads := upd w.threads t (.leaving a o s) }
            | .broken => { w with table := table, threads := upd w.threads t .idle, events := w.events ++ [.returned t a o .failed] }
    | .leaving a o s =>
      -- CapiOrchestration.cpp:302-304, 243-247
      { w with table := upd w.table a none, threads := upd w.threads t .idle, events := w.events ++ [.returned t a o (.success s)] }

/-- A history. -/
def run (ops : List Op) : World := ops.foldl step {}

end SilKit.LifecycleWait
