/-!
# Handlers with filters

The services keep one `Util::SynchronizedHandlers` per kind of events (EthController.hpp:144-149, LinController.hpp:227, FlexrayController.hpp:165)
and wrap handlers with masks so that the wrapped handler only calls the user's handler if the mask contains the event (e.g. EthController.cpp:293-302).
`SilKit/source/util/SynchronizedHandlers.hpp`: `Add` 84-89, `Remove` 91-95, `InvokeAll` 97-102.

Handlers do not call back into the service here, and identifiers do not wrap around; `Model/Handlers.lean` is about both.
-/
namespace SilKit.Handling

/-- `SynchronizedHandlers`, in the order of the identifiers. -/
structure Table where
  /-- Identifier and mask. -/
  entries : List (Nat × Nat) := []
  next : Nat := 0
deriving Repr, DecidableEq

/-- What a service with handlers does: `did` is whatever the service does besides. -/
inductive Out (κ ν ρ : Type)
  | did (r : ρ)
  /-- All handlers of the kind of the event `n` are invoked. -/
  | told (n : ν)
  /-- The user's handler with the identifier `id` is called. -/
  | called (id : Nat) (n : ν)
  | added (k : κ) (id mask : Nat)
  | removed (k : κ) (id : Nat)
deriving Repr, DecidableEq

/-- The kinds of events, and the filters. -/
structure Events (κ ν : Type) where
  kind : ν → κ
  passes : Nat → ν → Bool

variable {κ ν ρ : Type}

/-- `CallHandlers`, e.g. EthController.cpp:381-386. -/
def tell (E : Events κ ν) (T : κ → Table) (n : ν) : List (Out κ ν ρ) :=
  .told n :: ((T (E.kind n)).entries.filter (fun x => E.passes x.2 n)).map (fun x => .called x.1 n)

variable [DecidableEq κ]

def set (T : κ → Table) (k : κ) (t : Table) : κ → Table := fun k' => if k' = k then t else T k'

/-- `AddHandler`, e.g. EthController.cpp:367-372. -/
def add (T : κ → Table) (k : κ) (mask : Nat) : (κ → Table) × List (Out κ ν ρ) :=
  (set T k ⟨(T k).entries ++ [((T k).next, mask)], (T k).next + 1⟩, [.added k (T k).next mask])

/-- `RemoveHandler`, e.g. EthController.cpp:374-379. -/
def remove (T : κ → Table) (k : κ) (id : Nat) : (κ → Table) × List (Out κ ν ρ) :=
  (set T k ⟨(T k).entries.filter (·.1 != id), (T k).next⟩, [.removed k id])

end SilKit.Handling
