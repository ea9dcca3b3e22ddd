import Verif.Model.WallClock
import Verif.Spec.TimeSync
/-!
# Specification of the coupling to the wall clock (C50)
-/
namespace SilKit.WallClock.Spec
open SilKit.TimeSync

/-- A participant that is coupled to the wall clock, with animation factor `num / den` and step duration `d`, before the simulation starts. -/
def coupled (blocking coordinated : Bool) (num den d : Int) : World :=
  { part := { cfg := { blocking := blocking, next := ⟨0, d⟩ }, coordinated := coordinated, coupled := true }, num := num, den := den }

def stepOf (e : Entry) : Option (Int × Int) :=
  match e.out with
  | .step t _ => some (t, e.wall)
  | _ => none

/-- The steps that were started: virtual time and wall clock. -/
def started (log : List Entry) : List (Int × Int) := log.filterMap stepOf

def sendOf (e : Entry) : Option (Int × Int) :=
  match e.out with
  | .send t => some (t.tp, e.wall)
  | _ => none

/-- The steps that were announced to the others as the next ones: virtual time and wall clock. -/
def announced (log : List Entry) : List (Int × Int) := log.filterMap sendOf

/-- The log from the first step on. -/
def fromFirst (log : List Entry) : List Entry := log.dropWhile (fun e => (stepOf e).isNone)

/-- The durations the user asks for are in a range, and those announced by the others are not negative. -/
def Durations (lo hi : Int) (os : List Op) : Prop :=
  (∀ d, Op.event (.setStepDuration d) ∈ os → lo ≤ d ∧ d ≤ hi) ∧ ∀ q t, Op.event (.receive q t) ∈ os → 0 ≤ t.dur

/-- The simulation starts: the step at time 0 is executed without delay, and the thread is started. -/
def startup (blocking : Bool) : List Op :=
  [.event (.lifecycle .running false false), .ask, .request, .event .poll, .event (if blocking then .stepReturned else .complete), .launch]

/-- One period: the thread wakes up and the step is executed at once. -/
def round (blocking : Bool) (e : Nat) : List Op :=
  [.elapse e, .tick, .check, .request, .event .poll, .event (if blocking then .stepReturned else .complete)]

def rounds (blocking : Bool) (e : Nat) : Nat → List Op
  | 0 => []
  | n + 1 => rounds blocking e n ++ round blocking e

/-- The period passes while the step is still executing. -/
def latePeriod (e : Nat) : List Op := [.elapse e, .tick, .check, .mark]

def latePeriods (e : Nat) : Nat → List Op
  | 0 => []
  | n + 1 => latePeriods e n ++ latePeriod e

/-- Start, one prompt period, and then a step whose handler takes `k + 1` periods; after it the next step is executed at once. -/
def slow (e k : Nat) : List Op :=
  startup false ++ [.elapse e, .tick, .check, .request, .event .poll] ++ latePeriods e (k + 1) ++ [.event .complete, .event .poll, .event .complete]

/-- What goes on while the simulation runs: time passes, the thread wakes up, requests are executed, step handlers return and steps are completed. -/
def Ordinary (o : Op) : Prop :=
  (∃ n, o = .elapse n) ∨ o = .tick ∨ o = .check ∨ o = .mark ∨ o = .request ∨ o = .event .poll ∨ o = .event .stepReturned ∨ o = .event .complete

/-- Nothing is left to be done until the thread wakes up again. -/
def Idle (w : World) : Prop := w.requests = 0 ∧ w.part.polls = 0 ∧ w.part.wallClockReached = false ∧ w.phase ≠ .moved ∧ w.phase ≠ .late

/-- How far the next step is behind the wall clock, in virtual time. -/
def behind (w : World) : Int := w.part.wallClock - w.part.cfg.next.tp

end SilKit.WallClock.Spec
