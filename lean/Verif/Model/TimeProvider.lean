import Verif.Model.Basic
/-!
# Model of the time of a participant

Source: `SilKit/source/services/orchestration/TimeProvider.hpp` and `.cpp`, `SilKit/source/util/Timer.hpp`. One time provider with its registered handlers
(used by RPC clients for timeouts, RpcClient.cpp:159-172, and by the replay of traces, ReplayScheduler.cpp:306-315), the implementations that it is
configured with one after another, and the thread of the timer of each. Every public function locks `_mutex` (recursive). Where no thread can block while
the mutex is held, a function is one event. `AddNextSimStepHandler` may block in `std::thread::join`, and the handlers called by a timer may use the time
provider themselves, so that those take several events. A blocked thread is one whose event is not enabled.

Not modelled: the identifiers and the reentrant changes of the handlers during an invocation (see Model/Handlers.lean: handlers are all called when the
invocation begins), handlers that throw, `IsSynchronizingVirtualTime`, `TimeProviderName`; the unsynchronized write to `_m.callback` (Timer.hpp:66), which
is a data race in exactly those schedules in which `add` finds a tick under way; configuring from a handler that is called by an implementation which has
been replaced already.
-/
namespace SilKit.TimeProvider

/-- `TimeProviderKind`, core/internal/ITimeProvider.hpp. -/
inductive Kind
  | noSync
  | wallClock
  | syncTime
deriving Repr, DecidableEq

/-- A thread of the application or of SIL Kit, or the timer thread of the implementation with this number. -/
inductive Thread
  | app (n : Nat)
  | timer (p : Nat)
deriving Repr, DecidableEq

/-- What the thread of a timer (`Timer::ThreadMain`, Timer.hpp:90-101) is doing. -/
inductive Phase
  /-- It was not started, or it has ended. -/
  | none
  /-- In `wait_for`, Timer.hpp:95. -/
  | idle
  /-- The period is over, `_active` was seen to be true, and `OnTick` waits for the mutex (TimeProvider.cpp:53-58, 201). -/
  | pending (clock : Int)
  /-- In a handler, with the mutex, TimeProvider.cpp:202. -/
  | inside
deriving Repr, DecidableEq

/-- `ProviderBase` and the classes derived from it, TimeProvider.cpp:29-148. -/
structure Impl where
  kind : Kind := .noSync
  active : Bool := false
  /-- `SynchronizedVirtualTimeProvider::_now`; `none` is `DEFAULT_NOW_TIMESTAMP_WITHOUT_SYNC`. -/
  now : Option Int := none
  /-- `Timer::_isRunning`. -/
  running : Bool := false
  phase : Phase := .none
deriving Repr, DecidableEq

/-- `_tickPeriod` in nanoseconds, TimeProvider.cpp:117, 175. -/
def period : Kind → Int
  | .noSync => 100000
  | .wallClock => 1000000
  | .syncTime => 0

structure State where
  /-- `_handlers`: the identifiers in the order in which they are called. -/
  handlers : List Nat := []
  next : Nat := 0
  /-- All implementations so far; `_currentProvider` is the last one. -/
  impl : Nat → Impl := fun _ => {}
  cur : Nat := 0
  /-- The owner of `_mutex` between two events. -/
  holder : Option Thread := none
  /-- The owner of `_mutex` is in `_m.thread.join()` (Timer.hpp:75) in order to add this handler. -/
  joining : Option Nat := none
  /-- `std::terminate` was called. -/
  dead : Bool := false

/-- `TimeProvider::TimeProvider`, TimeProvider.cpp:154-157: an implementation that is not active. -/
def init : State := {}

def set (s : State) (p : Nat) (i : Impl) : State := { s with impl := fun q => if q = p then i else s.impl q }

inductive Event
  | add (t : Thread)
  | remove (t : Thread) (h : Nat)
  | configure (t : Thread) (k : Kind)
  | setTime (t : Thread) (now duration : Int)
  /-- `Now()`, while the clock of the computer shows this time. -/
  | now (t : Thread) (clock : Int)
  /-- The `wait_for` of a timer times out. -/
  | tick (p : Nat) (clock : Int)
  /-- `OnTick` gets the mutex and calls the handlers. -/
  | enter (p : Nat)
  /-- The last handler returns. -/
  | leave (p : Nat)
  /-- The thread of a timer that was stopped ends. -/
  | exit (p : Nat)
deriving Repr, DecidableEq

inductive Out
  /-- `AddNextSimStepHandler` has returned. -/
  | added (h : Nat)
  | called (h : Nat) (now duration : Int)
  | isNow (time : Option Int)
  | exited (p : Nat)
  | terminated
deriving Repr, DecidableEq

/-- The thread `t` gets the mutex, or has it already: a timer uses the time provider from handlers only, which it calls with the mutex held. -/
def locks (s : State) : Thread → Bool
  | .app _ => s.joining.isNone && s.holder.isNone
  | .timer p => s.joining.isNone && s.holder == some (.timer p)

/-- `Handlers::InvokeAll`, TimeProvider.cpp:202. -/
def invokeAll (s : State) (now duration : Int) : List Out := s.handlers.map (fun h => .called h now duration)

/-- `AddNextSimStepHandler`, TimeProvider.hpp:91-97, with `OnHandlerAdded`, TimeProvider.cpp:77-80, 104-107, 132, and `Timer::WithPeriod`,
Timer.hpp:58-81. A timer that runs is stopped and its thread joined, with the mutex held. `join` on the calling thread itself throws
`std::system_error`, which no frame between the handler and `ThreadMain` catches. -/
def add (s : State) (t : Thread) : State × List Out :=
  let s1 := { s with handlers := s.handlers ++ [s.next], next := s.next + 1 }
  let i := s.impl s.cur
  if i.kind = .syncTime then (s1, [.added s.next])
  else match i.phase with
    | .none => (set s1 s.cur { i with running := true, phase := .idle }, [.added s.next])
    | _ =>
      if t = .timer s.cur then ({ s1 with dead := true }, [.terminated])
      else ({ set s1 s.cur { i with running := false } with holder := some t, joining := some s.next }, [])

/-- `ConfigureTimeProvider`, TimeProvider.cpp:159-197: a new implementation becomes the current one, the old one is set inactive and, without the mutex,
destroyed: `~Timer`, Timer.hpp:39-46, stops the timer and waits for the thread to end. On the thread of that timer `join` throws in a destructor. -/
def configure (s : State) (t : Thread) (k : Kind) : State × List Out :=
  let i := s.impl s.cur
  let s1 := set (set s s.cur { i with active := false, running := false }) (s.cur + 1) { kind := k, active := true }
  if t = .timer s.cur then ({ s1 with cur := s.cur + 1, dead := true }, [.terminated])
  else ({ s1 with cur := s.cur + 1 }, [])

/-- `SetTime`, TimeProvider.hpp:105-109, TimeProvider.cpp:88, 114, 139-144. -/
def setTime (s : State) (now duration : Int) : State × List Out :=
  let i := s.impl s.cur
  if i.kind = .syncTime then (set s s.cur { i with now := some now }, if i.active then invokeAll s now duration else []) else (s, [])

/-- `Now`, TimeProvider.hpp:79-83, TimeProvider.cpp:82-86, 109-112, 134-137. -/
def nowOf (s : State) (clock : Int) : Option Int :=
  match (s.impl s.cur).kind with
  | .noSync => none
  | .wallClock => some clock
  | .syncTime => (s.impl s.cur).now

/-- One event; `none` if it is not enabled. -/
def step (s : State) (e : Event) : Option (State × List Out) :=
  if s.dead then none
  else match e with
    | .add t => if locks s t then some (add s t) else none
    | .remove t h => if locks s t then some ({ s with handlers := s.handlers.filter (· ≠ h) }, []) else none
    | .configure t k =>
      if locks s t && (s.holder.isNone || t == .timer s.cur) then some (configure s t k) else none
    | .setTime t now duration => if locks s t then some (setTime s now duration) else none
    | .now t clock => if locks s t then some (s, [.isNow (nowOf s clock)]) else none
    | .tick p clock =>
      if (s.impl p).phase = .idle ∧ (s.impl p).running then
        some (if (s.impl p).active then (set s p { s.impl p with phase := .pending clock }, []) else (s, []))
      else none
    | .enter p =>
      match (s.impl p).phase with
      | .pending clock =>
        if s.holder.isNone then
          some ({ set s p { s.impl p with phase := .inside } with holder := some (.timer p) }, invokeAll s clock (period (s.impl p).kind))
        else none
      | _ => none
    | .leave p =>
      if (s.impl p).phase = .inside ∧ s.joining = none then some ({ set s p { s.impl p with phase := .idle } with holder := none }, []) else none
    | .exit p =>
      if (s.impl p).phase = .idle ∧ (s.impl p).running = false then
        match s.joining with
        | some h =>
          if p = s.cur then
            some ({ set s p { s.impl p with running := true } with
              joining := none, holder := match s.holder with | some (.timer q) => some (.timer q) | _ => none }, [.exited p, .added h])
          else some (set s p { s.impl p with phase := .none }, [.exited p])
        | none => some (set s p { s.impl p with phase := .none }, [.exited p])
      else none

/-- A schedule, with what it shows; `none` if some event of it is not enabled. -/
def run : State → List Event → Option (State × List Out)
  | s, [] => some (s, [])
  | s, e :: es =>
    match step s e with
    | none => none
    | some (s', o) =>
      match run s' es with
      | none => none
      | some (s'', os) => some (s'', o ++ os)

end SilKit.TimeProvider
