import Verif.Model.TimeSyncNet
import Verif.Spec.TimeSync
/-!
# Specification of conservative time synchronization (C13, C14, C15)
-/
namespace SilKit.TimeSync.Spec

/-- Before the simulation: every participant is fresh, nothing is in flight. -/
def Initial (n : Net) : Prop :=
  (∀ p, ∃ blocking coordinated coupled, n.part p = start blocking coordinated coupled) ∧ ∀ q p, n.chan q p = []

/-- How participants are used: step durations are positive, and the next step is not requested while an asynchronous step has
not been completed – `Continue` is not called between the start and the completion of an asynchronous step, and asynchronous
steps are not combined with wall clock coupling. -/
def Disciplined (n : Net) : Act → Prop
  | .event _ (.setStepDuration d) => 0 < d
  | .event p .request => (n.part p).asyncExecuting = false
  | _ => True

/-- The simulation can be in state `n` having shown the observations `tr` (oldest first). -/
inductive Reachable : Net → List Obs → Prop
  | init {n} : Initial n → Reachable n []
  | step {n tr a n' obs} : Reachable n tr → Disciplined n a → n.act a = some (n', obs) → Reachable n' (tr ++ obs)

/-- State `n'` comes after state `n`. -/
inductive Later : Net → Net → Prop
  | refl {n} : Later n n
  | step {n n1 a n2 obs} : Later n n1 → Disciplined n1 a → n1.act a = some (n2, obs) → Later n n2

/-- `p` takes `q` into account: according to the observations, it has discovered it and not lost it since. -/
def knows (p q : String) (tr : List Obs) : Bool :=
  tr.foldl (fun k o => match o with
    | .did a (.discovered b) => if a = p ∧ b = q then true else k
    | .did a (.lost b) => if a = p ∧ b = q then false else k
    | _ => k) false

/-- The start of the step `p` is executing, according to the observations: it has been started, and neither has the blocking
handler returned nor the asynchronous step been completed. -/
def inStep (p : String) (tr : List Obs) : Option Int :=
  tr.foldl (fun s o => match o with
    | .out a (.step t _) => if a = p then some t else s
    | .did a .stepReturned => if a = p then none else s
    | .did a .complete => if a = p then none else s
    | _ => s) none

/-- `p` starts a step at time `t` by this action. -/
def Starts (p : String) (t : Int) (obs : List Obs) : Prop := ∃ d, Obs.out p (.step t d) ∈ obs

/-- The user data sent by `q`, in order, with the start of the step in which it was sent. -/
def sentBy (q : String) (tr : List Obs) : List (Nat × Int) :=
  tr.filterMap (fun o => match o with | .sent a x t => if a = q then some (x, t) else none | _ => none)

/-- The user data from `q` received by `p`, in order, with the start of the step in which it was sent. -/
def receivedBy (q p : String) (tr : List Obs) : List (Nat × Int) :=
  tr.filterMap (fun o => match o with | .received a b x t => if a = q ∧ b = p then some (x, t) else none | _ => none)

/-- Perform a list of actions (for concrete examples). -/
def run (n : Net) : List Act → Option (Net × List Obs)
  | [] => some (n, [])
  | a :: l => (n.act a).bind (fun r => (run r.1 l).map (fun r' => (r'.1, r.2 ++ r'.2)))

end SilKit.TimeSync.Spec
