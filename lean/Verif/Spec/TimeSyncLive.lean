import Verif.Spec.TimeSyncNet
/-!
# Specification of the progress of time synchronization (C14)

A simulation of the participants `ps` in which everybody takes part from the beginning and is `Running`; nobody pauses, stops,
leaves, or is coupled to the wall clock.
-/
namespace SilKit.TimeSync.Spec

/-- All participants know each other and are running, but none has started its time yet. Everybody has chosen the kind of
handler, the operation mode and a positive step duration. -/
structure Begin (ps : List String) (n : Net) : Prop where
  nodup : ps.Nodup
  part : ∀ p ∈ ps, ∃ blocking coordinated dyn d, 0 < d ∧ n.part p =
    { cfg := { blocking := blocking, dynamic := dyn, next := ⟨0, d⟩, others := (ps.filter (· ≠ p)).map (fun q => (q, ⟨-1, 0⟩)) }
      state := .running, coordinated := coordinated }
  rest : ∀ p, p ∉ ps → ∃ blocking coordinated coupled, n.part p = start blocking coordinated coupled
  chan : ∀ q p, n.chan q p = []

/-- What may happen: participants start their time (or request the next step again, but not during an asynchronous step), change
durations, send data, complete their steps; messages arrive and deferred work is done. -/
def Allowed (ps : List String) (n : Net) : Act → Prop
  | .event p (.setStepDuration d) => p ∈ ps ∧ 0 < d
  | .event p (.setDynamic _) => p ∈ ps
  | .event p .request => p ∈ ps ∧ (n.part p).asyncExecuting = false
  | .event p .poll => p ∈ ps
  | .event p .stepReturned => p ∈ ps
  | .event p .complete => p ∈ ps ∧ (n.part p).asyncExecuting = true
  | .deliver q p => q ∈ ps ∧ p ∈ ps
  | .data p _ => p ∈ ps
  | _ => False

/-- The simulation can be in state `n` having shown `tr`, and nobody aborted it. -/
inductive Live (ps : List String) : Net → List Obs → Prop
  | init {n} : Begin ps n → Live ps n []
  | step {n tr a n' obs} : Live ps n tr → Allowed ps n a → n.act a = some (n', obs) → (∀ p, .out p .abort ∉ obs) →
      Live ps n' (tr ++ obs)

/-- `p` has started its time. -/
def Started (p : String) (tr : List Obs) : Prop := .did p .request ∈ tr

/-- Work of the synchronization itself, which is done sooner or later: a message of the synchronization arrives, deferred work is
executed, a step of the user is finished. -/
def Work (n : Net) : Act → Prop
  | .event _ .poll => True
  | .event _ .stepReturned => True
  | .event _ .complete => True
  | .deliver q p => ∃ t rest, n.chan q p = .task t :: rest
  | _ => False

/-- The simulation goes on from `n` to `n'`, showing `obs`; `k` pieces of synchronization work are done on the way, besides any
number of duration changes and user data messages. -/
inductive Continues (ps : List String) : Net → Nat → Net → List Obs → Prop
  | refl {n} : Continues ps n 0 n []
  | work {n k n1 tr a n2 obs} : Continues ps n k n1 tr → Allowed ps n1 a → n1.act a = some (n2, obs) → (∀ p, .out p .abort ∉ obs) →
      Work n1 a → Continues ps n (k + 1) n2 (tr ++ obs)
  | other {n k n1 tr a n2 obs} : Continues ps n k n1 tr → Allowed ps n1 a → n1.act a = some (n2, obs) → (∀ p, .out p .abort ∉ obs) →
      ¬ Work n1 a → (∀ p, a ≠ .event p .request) → Continues ps n k n2 (tr ++ obs)

/-- No participant shortens its step duration by this action. -/
def NotShortened (n : Net) : Act → Prop
  | .event p (.setStepDuration d) => (n.part p).cfg.next.dur ≤ d
  | _ => True

/-- The simulation can be in state `n` having shown `tr`, and nobody has shortened its step duration. -/
inductive Steady (ps : List String) : Net → List Obs → Prop
  | init {n} : Begin ps n → Steady ps n []
  | step {n tr a n' obs} : Steady ps n tr → Allowed ps n a → NotShortened n a → n.act a = some (n', obs) → Steady ps n' (tr ++ obs)

end SilKit.TimeSync.Spec
