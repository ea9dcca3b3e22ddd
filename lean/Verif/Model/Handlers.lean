import Verif.Model.Basic
/-!
# Model of the registered handlers of a service

Source: `SilKit/source/util/SynchronizedHandlers.hpp`. All operations lock one recursive mutex (81, 88, 95, 103), so operations of other threads
fall outside of invocations, while a handler that is being invoked may use the container itself: add, remove, and even invoke all handlers
again. An invocation is therefore a loop that the model takes step by step: the event `ret` is the return of the innermost handler being
invoked, followed by the increment of the iterator and the next call.

Not modelled: `swap`, handlers that throw, and the arguments of the call. A handler is known by a number, the payload of `add`.
-/
namespace SilKit.Handlers

/-- `HandlerId` and `_nextHandlerId` have 64 bits, HandlerId.hpp:14, SynchronizedHandlers.hpp:71. -/
def idRange : Nat := 2 ^ 64

/-- `std::map::emplace`, at its place in the order of the keys; without effect if the key is there already. -/
def insert (id payload : Nat) : List (Nat × Nat) → List (Nat × Nat)
  | [] => [(id, payload)]
  | (k, v) :: l => if id < k then (id, payload) :: (k, v) :: l else if id = k then (k, v) :: l else (k, v) :: insert id payload l

structure State where
  /-- `_entries`, SynchronizedHandlers.hpp:70, in the order of the keys. -/
  entries : List (Nat × Nat) := []
  next : Nat := 0
  /-- The running invocations, innermost first: their number, and the identifier of the entry the iterator points to. -/
  frames : List (Nat × Nat) := []
  /-- The number of invocations so far. -/
  count : Nat := 0
  ub : Bool := false
deriving Repr, DecidableEq

inductive Event
  | add (payload : Nat)
  | remove (id : Nat)
  | clear
  | invoke
  /-- The innermost handler that is being invoked returns. -/
  | ret
deriving Repr, DecidableEq

inductive Out
  /-- `Add` has returned the identifier `id`. -/
  | added (id payload : Nat)
  | removed (id : Nat)
  | cleared
  /-- The `k`-th invocation begins. -/
  | began (k : Nat)
  /-- The handler is called as part of the `k`-th invocation. -/
  | called (k id payload : Nat)
  | ended (k : Nat)
  /-- The iterator to an erased entry is incremented. -/
  | undefined
deriving Repr, DecidableEq

/-- `Add` and `MakeHandlerId`, SynchronizedHandlers.hpp:21-28, 61-64. -/
def add (s : State) (payload : Nat) : State × List Out :=
  let id := s.next % idRange
  ({ s with entries := insert id payload s.entries, next := s.next + 1 }, [.added id payload])

/-- `Remove`, SynchronizedHandlers.hpp:30-33. -/
def remove (s : State) (id : Nat) : State × List Out := ({ s with entries := s.entries.filter (·.1 != id) }, [.removed id])

/-- `Clear`, SynchronizedHandlers.hpp:46-49. -/
def clear (s : State) : State × List Out := ({ s with entries := [] }, [.cleared])

/-- `InvokeAll`, SynchronizedHandlers.hpp:35-44, up to the first call. -/
def invoke (s : State) : State × List Out :=
  match s.entries with
  | [] => ({ s with count := s.count + 1 }, [.began s.count, .ended s.count])
  | (id, p) :: _ => ({ s with count := s.count + 1, frames := (s.count, id) :: s.frames }, [.began s.count, .called s.count id p])

/-- `InvokeAll`, SynchronizedHandlers.hpp:38: the iterator is incremented, and the next handler is called. -/
def ret (s : State) : State × List Out :=
  match s.frames with
  | [] => (s, [])
  | (k, c) :: fs =>
      if s.entries.any (·.1 == c) then
        match s.entries.find? (fun e => decide (c < e.1)) with
        | none => ({ s with frames := fs }, [.ended k])
        | some (id, p) => ({ s with frames := (k, id) :: fs }, [.called k id p])
      else ({ s with ub := true }, [.undefined])

def on (s : State) (e : Event) : State × List Out :=
  if s.ub then (s, [])
  else match e with
    | .add p => add s p
    | .remove id => remove s id
    | .clear => clear s
    | .invoke => invoke s
    | .ret => ret s

end SilKit.Handlers
