import Verif.Model.ParticipantState
import Verif.Model.ConfigText
/-!
# Model: ending a simulation with Ctrl-C

`SilKit/source/util/SignalHandler.cpp` (the implementation for UNIX) and the part of `sil-kit-system-controller` that stops the simulation when a
signal arrives, and its option `--log`.

Simplifications: time passes only in `wait_for`; it is counted in milliseconds. The pipe is never full, and `read` and `write` do not fail. Signals
that the shell wants to be ignored are left out.
-/
namespace SilKit.StopSignal
open SilKit SilKit.ConfigText

/-! ## The signal handler -/

/-- `SignalMonitor` (SignalHandler.cpp:134-201). -/
structure Monitor where
  /-- Bytes in the pipe. -/
  pipe : Nat := 0
  /-- `_signalNumber`; -1 is `INVALID_SIGNAL_NUMBER`. -/
  number : Int := -1
  /-- Whether the worker has left `read`. -/
  woken : Bool := false
  /-- Whether the worker has finished; it runs once (SignalHandler.cpp:182-195). -/
  finished : Bool := false
  /-- Whether the destructor has begun (SignalHandler.cpp:161-166): the default actions are back. -/
  closing : Bool := false
  /-- The calls of the handler, with the number of the signal. -/
  calls : List Int := []
deriving Repr, DecidableEq

inductive Op where
  /-- The operating system delivers SIGINT or SIGTERM (SignalHandler.cpp:172-179,237-243). -/
  | signal (k : Nat)
  /-- The worker returns from `read`. -/
  | wake
  /-- The worker looks at the number and calls the handler. -/
  | work
  /-- `ShutdownSignalHandler` (SignalHandler.cpp:161-166,255-258), up to the `join`. -/
  | shutdown
deriving Repr, DecidableEq

def Monitor.step (m : Monitor) : Op → Monitor
  | .signal k => if m.closing then m else { m with number := k, pipe := m.pipe + 1 }
  | .wake => if m.woken = false ∧ m.pipe > 0 then { m with woken := true, pipe := m.pipe - 1 } else m
  | .work =>
    if m.woken ∧ m.finished = false then
      { m with finished := true, calls := if m.number ≠ -1 then m.calls ++ [m.number] else m.calls }
    else m
  | .shutdown => if m.closing then m else { m with closing := true, number := -1, pipe := m.pipe + 1 }

def Monitor.run (ops : List Op) : Monitor := ops.foldl Monitor.step {}

/-! ## The handler of the system controller -/

/-- What the handler does to the simulation. -/
inductive Act where
  /-- `ILifecycleService::Stop` -/
  | stop
  /-- `ISystemController::AbortSimulation` -/
  | abort
  /-- `ILifecycleService::ReportError` -/
  | reportError
deriving Repr, DecidableEq

/-- What the handler meets. -/
structure Env where
  /-- What `ISystemMonitor::SystemState` returns, for the first, second, … call. -/
  reads : Nat → ParticipantState
  /-- When the future of the final state becomes ready, in milliseconds after the signal; `none`: never. -/
  final : Option Nat

/-- `StopOrAbort` (SystemController.cpp:174-200): what it does, and `_aborted`. Every comparison calls `SystemState` again. -/
def stopOrAbort (reads : Nat → ParticipantState) : List Act × Bool :=
  if reads 0 = .running then ([.stop], false)
  else if reads 1 = .paused then ([.stop], false)
  else if reads 2 = .aborting then ([], true)
  else if reads 3 ≠ .shutdown then ([.abort], true)
  else ([], false)

/-- `std::future::wait_for(5s)` that begins at `t`: when it returns `ready`; `none`: it times out. -/
def waitFor (final : Option Nat) (t : Nat) : Option Nat :=
  match final with
  | none => none
  | some f => if f ≤ t + 5000 then some (max t f) else none

/-- The loop over `numRetries` (SystemController.cpp:204-218). -/
def waitLoop (final : Option Nat) : Nat → Nat → Option Nat
  | 0, _ => none
  | k + 1, t => match waitFor final t with | some r => some r | none => waitLoop final k (t + 5000)

/-- `WaitForFinalStateWithRetries` with `_aborted` set (SystemController.cpp:202-224): what it does and when, and when it returns. -/
def waitAborted (final : Option Nat) (t : Nat) : List (Nat × Act) × Nat :=
  match waitLoop final 3 t with
  | some r => ([], r)
  | none => ([(t + 15000, .reportError)], t + 15000)

/-- `WaitForFinalStateWithRetries` (SystemController.cpp:202-231). -/
def wait (aborted : Bool) (final : Option Nat) (t : Nat) : List (Nat × Act) × Nat :=
  if aborted then waitAborted final t
  else match waitLoop final 3 t with
    | some r => ([], r)
    | none =>
      let (acts, r) := waitAborted final (t + 15000)
      ((t + 15000, .abort) :: acts, r)

/-- The handler (SystemController.cpp:134-145), called at time 0: what it does and when, and when it returns. -/
def handler (env : Env) : List (Nat × Act) × Nat :=
  let (acts, aborted) := stopOrAbort env.reads
  let (more, r) := wait aborted env.final 0
  (acts.map (fun a => (0, a)) ++ more, r)

/-- When `main` returns: `WaitForFinalState` blocks until the future is ready, then the worker is joined (SystemController.cpp:148-161,446-449). -/
def exitTime (env : Env) : Option Nat := env.final.map (fun f => max f (handler env).2)

/-! ## The option `--log` -/

/-- `ToLowerCase` of one character in the "C" locale (SystemController.cpp:263-267). -/
def lower (c : Char) : Char := if 'A' ≤ c ∧ c ≤ 'Z' then Char.ofNat (c.toNat + 32) else c

/-- `std::toupper` in the "C" locale. -/
def upper (c : Char) : Char := if 'a' ≤ c ∧ c ≤ 'z' then Char.ofNat (c.toNat - 32) else c

/-- `IsValidLogLevel` (SystemController.cpp:269-274). -/
def validLevel (s : List Char) : Bool :=
  ["trace".toList, "debug".toList, "warn".toList, "info".toList, "error".toList, "critical".toList, "off".toList].contains (s.map lower)

/-- The first character is made upper case (SystemController.cpp:396-400). -/
def configLevel : List Char → List Char
  | [] => []
  | c :: s => upper c :: s

/-- What the option `--log` leads to (SystemController.cpp:371-415): refused with -1, not understood by the configuration parser (-2), or a level. -/
def logOption (s : List Char) : Except Int Level :=
  if validLevel s = false then .error (-1)
  else match readLevel .info (.val (String.ofList (configLevel s))) with
    | .ok l => .ok l
    | _ => .error (-2)

end SilKit.StopSignal
