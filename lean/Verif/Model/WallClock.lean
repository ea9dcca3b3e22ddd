import Verif.Model.TimeSync
/-!
# Model of the coupling to the wall clock

`SilKit/source/services/orchestration/TimeSyncService.cpp`, `StartWallClockCouplingThread` and its thread, around the model of one participant
(`Verif.Model.TimeSync`), of which the sync point and the flag `_wallClockReachedBeforeCompletion` are variables.

The thread and the I/O thread are interleaved between the accesses of the thread to shared variables. The wall clock is an integer (nanoseconds). The animation
factor is a fraction `num / den` and products are exact; in the code they are a `double`. `HybridWait` waits at least as long as it is asked to, and arbitrarily
longer: the time it really waits is part of the schedule.
-/
namespace SilKit.WallClock
open SilKit.TimeSync

/-- Where the thread is, TimeSyncService.cpp:801-838. -/
inductive Phase
  /-- not started -/
  | off
  /-- created, 801 -/
  | created
  /-- in `HybridWait`, 812 -/
  | waiting
  /-- the sync point was moved, 819 -/
  | moved
  /-- a step was executing, 821 -/
  | late
deriving Repr, DecidableEq

/-- An output, and the wall clock at that moment. -/
structure Entry where
  out : Out
  wall : Int
deriving Repr, DecidableEq

/-- The participant, the thread and the clock. -/
structure World where
  part : Part
  /-- the animation factor -/
  num : Int
  den : Int
  /-- `steady_clock::now()` -/
  wall : Int := 0
  phase : Phase := .off
  /-- `startTime`, 804 -/
  start : Int := 0
  /-- `nextAnimatedWallClockSyncPoint`, 805, in units of `1 / den` nanoseconds -/
  due : Int := 0
  /-- calls of `RequestNextStep` that were deferred by the thread or at the start, and did not run yet -/
  requests : Nat := 0
  log : List Entry := []
deriving Repr

inductive Op
  /-- time passes -/
  | elapse (d : Nat)
  /-- the thread starts to run, 804-805 -/
  | launch
  /-- the thread has waited until the sync point, 812-819 -/
  | tick
  /-- the thread looks whether a step is executing, 821-833 -/
  | check
  /-- the thread sets the flag, 829 -/
  | mark
  /-- `StartTime` 701 or `Continue` (LifecycleService.cpp:236) ask for the next step -/
  | ask
  /-- a deferred call of `RequestNextStep` runs -/
  | request
  /-- everything else that can happen to the participant -/
  | event (e : Event)
deriving Repr, DecidableEq

/-- The outputs of the participant are observed. -/
def World.took (w : World) (r : Part × List Out) : World := { w with part := r.1, log := w.log ++ r.2.map (⟨·, w.wall⟩) }

/-- `StartWallClockCouplingThread` creates the thread, TimeSyncService.cpp:255-270, 797-801: it is called before the first step, unless the simulation is aborted. -/
def World.begin (w : World) (before : Part) (outs : List Out) : World :=
  if before.hopOnEvaluated = false ∧ w.part.hopOnEvaluated = true ∧ w.part.coupled = true ∧ Out.abort ∉ outs then { w with phase := .created } else w

/-- An event at the participant; the variables of the thread are changed by the thread alone, and `RequestNextStep` is a separate operation. -/
def World.event (w : World) (e : Event) : Option World :=
  match e with
  | .wallClock _ _ => none
  | .request => none
  | e => (w.part.on e).map fun r => (w.took r).begin w.part r.2

/-- The thread moves the sync point if the participant runs, TimeSyncService.cpp:814-819. Else it goes on waiting. -/
def World.move (w : World) : World :=
  if w.part.state = .running then
    { w with part := { w.part with wallClock := w.part.wallClock + w.part.cfg.next.dur }, due := w.due + w.part.cfg.next.dur * w.num, phase := .moved }
  else w

def World.step (w : World) : Op → Option World
  | .elapse d => some { w with wall := w.wall + d }
  | .launch => if w.phase = .created then some { w with phase := .waiting, start := w.wall, due := w.part.cfg.next.dur * w.num } else none
  | .tick => if w.phase = .waiting ∧ w.due ≤ w.den * (w.wall - w.start) then some w.move else none
  | .check =>
    if w.phase = .moved then
      if w.part.asyncExecuting then some { w with phase := .late } else some { w with phase := .waiting, requests := w.requests + 1 }
    else none
  | .mark => if w.phase = .late then some { w with phase := .waiting, part := { w.part with wallClockReached := true } } else none
  | .ask => some { w with requests := w.requests + 1 }
  | .request =>
    if w.requests = 0 then none
    else (w.part.on .request).map fun r => ({ w with requests := w.requests - 1 } : World).took r
  | .event e => w.event e

/-- Operations that cannot happen are skipped. -/
def World.run (w : World) (os : List Op) : World := os.foldl (fun w o => (w.step o).getD w) w

end SilKit.WallClock
