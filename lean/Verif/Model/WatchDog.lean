/-!
# The watchdog (services/orchestration/WatchDog.cpp)

The simulation thread starts and resets the watchdog around each call of the simulation step handler (TimeSyncService.cpp:549-551). The thread of the
watchdog looks at it again and again. It loads the start time and reads the clock later, so that anything can happen in between: these are two steps
of the model. Times are in nanoseconds; they are integers, overflows are not modelled. Starts are numbered, which has no effect on what happens.
-/
namespace SilKit.WatchDog

/-- `_warnTimeout` and `_errorTimeout` in milliseconds, WatchDog.hpp:71-72. -/
structure Config where
  warn : Int
  error : Int
deriving Repr, DecidableEq

/-- `std::chrono::milliseconds::max()`, WatchDog.hpp:59. -/
def defaultTimeout : Int := 2 ^ 63 - 1

/-- The constructor, WatchDog.cpp:22-42; `none` if it throws. -/
def configure (soft hard : Option Int) : Option Config :=
  if soft.any (· ≤ 0) || hard.any (· ≤ 0) then none else some ⟨soft.getD defaultTimeout, hard.getD defaultTimeout⟩

/-- `WatchDogState`, WatchDog.cpp:71-76. -/
inductive Health
  | healthy
  | warn
  | error
deriving Repr, DecidableEq

structure Dog where
  /-- How often `Start` was called. -/
  count : Nat := 0
  /-- `_startTime`, with the number of the start; `none` is `nanoseconds::min()`. -/
  start : Option (Nat × Int) := none
  /-- The local variable `startTime` of `Run`, between the load and the use of it, WatchDog.cpp:92-107. -/
  loaded : Option (Nat × Int) := none
  /-- The local variable `state` of `Run`. -/
  health : Health := .healthy
deriving Repr, DecidableEq

inductive In
  /-- `Start`, where the clock shows `now`. -/
  | start (now : Int)
  /-- `Reset`; the time is not used. -/
  | reset (now : Int)
  /-- The thread of the watchdog wakes up and loads `_startTime`. -/
  | load
  /-- It reads the clock. -/
  | look (now : Int)
deriving Repr, DecidableEq

/-- `idle` and `looked` are no effects of the program. They tell what the watchdog sees. -/
inductive Out
  | idle
  | looked (k : Nat) (ms : Int)
  | warn (k : Nat) (ms : Int)
  | error (k : Nat) (ms : Int)
deriving Repr, DecidableEq

/-- `duration_cast<milliseconds>(now - startTime)`, WatchDog.cpp:108. -/
def millis (start now : Int) : Int := (now - start).tdiv 1000000

/-- WatchDog.cpp:110-131. -/
def judge (c : Config) (d : Dog) (k : Nat) (ms : Int) : Dog × List Out :=
  if c.warn < ms ∧ ms ≤ c.error then
    if d.health = .healthy then ({ d with health := .warn }, [.warn k ms]) else (d, [])
  else if c.error < ms then
    if d.health ≠ .error then ({ d with health := .error }, [.error k ms]) else (d, [])
  else ({ d with health := .healthy }, [])

/-- `WatchDog::Start`, WatchDog.cpp:50-53; `WatchDog::Reset`, 55-58; the body of the loop of `WatchDog::Run`, 82-131. -/
def Dog.step (c : Config) (d : Dog) : In → Dog × List Out
  | .start now => ({ d with count := d.count + 1, start := some (d.count, now) }, [])
  | .reset _ => ({ d with start := none }, [])
  | .load =>
      match d.loaded with
      | some _ => (d, [])
      | none =>
          match d.start with
          | none => ({ d with health := .healthy }, [.idle])
          | some s => ({ d with loaded := some s }, [])
  | .look now =>
      match d.loaded with
      | none => (d, [])
      | some s =>
          ((judge c { d with loaded := none } s.1 (millis s.2 now)).1,
           .looked s.1 (millis s.2 now) :: (judge c { d with loaded := none } s.1 (millis s.2 now)).2)

end SilKit.WatchDog
