import Verif.Lemmas.TimeSyncProgress
import Verif.Props.TimeSyncNet
/-!
# C14: the time synchronization does not deadlock and virtual time grows without bound

`Live ps n tr` ranges over every schedule of any number of participants with blocking and asynchronous handlers, any positive (also
changing and dynamic) durations, and any delay of messages.

The full claim also covers participants that join, pause or leave on the way: see `Verif.Props.TimeSyncChanging`. The theorems of
this file (hence `_partial`) cover simulations in which all take part from the beginning and run. That nobody aborts needs one more
assumption, see `C14_never_aborts` and `C14_shortening_aborts`.
-/
namespace SilKit.Props
open TimeSync TimeSync.Spec

/-- **C14 (no deadlock).** As long as there is a participant and everybody has started, something can happen without any further
action of the users: a participant finishes its step, does deferred work (which may start its next step) or receives a message. -/
theorem C14_no_deadlock_partial {ps : List String} {n : Net} {tr : List Obs} (h : Live ps n tr) (hne : ps ≠ [])
    (hs : ∀ p ∈ ps, Started p tr) : ∃ a, Allowed ps n a ∧ (n.act a).isSome ∧ (Work n a ∨ ∃ q p, a = .deliver q p) :=
  no_deadlock (live_inv h) hne hs

/-- **C14 (when everything has been delivered, somebody can execute its next step).** If no message is in flight, no step is being
executed and no deferred work is left to any other participant, the deferred work of a participant with the lowest next time point
starts its step. -/
theorem C14_quiet_means_somebody_steps_partial {ps : List String} {n : Net} {tr : List Obs} (h : Live ps n tr) (hne : ps ≠ [])
    (hs : ∀ p ∈ ps, Started p tr) (hchan : ∀ q ∈ ps, ∀ p ∈ ps, n.chan q p = []) (hidle : ∀ p ∈ ps, (n.part p).busy = false) :
    ∃ p ∈ ps, ∃ n' obs, n.act (.event p .poll) = some (n', obs) ∧ ((∃ t d, .out p (.step t d) ∈ obs) ∨ .out p .abort ∈ obs) :=
  quiet_steps (live_inv h) hne hs hchan hidle

/-- **C14 (virtual time grows without bound).** For every time `T` (of the 64 bit range) there is a bound on the pieces of
synchronization work – messages delivered, deferred work done, steps finished, in whatever order – after which every participant
has executed a step that ends at `T` or later. -/
theorem C14_time_grows_partial {ps : List String} {n : Net} {tr : List Obs} (h : Live ps n tr) (T : Int) (h0 : 0 < T) (hT : T ≤ maxNs) :
    ∃ N, ∀ k n' obs, Continues ps n k n' obs → N ≤ k → ∀ p ∈ ps, ∃ t d, .out p (.step t d) ∈ tr ++ obs ∧ T ≤ t + d :=
  time_grows (live_inv h) T h0 hT

/-- **C14 (nobody gives up).** If nobody shortens its step duration, no participant aborts the simulation because of a supposedly
late start; so the simulation is `Live` and the theorems above apply. -/
theorem C14_never_aborts {ps : List String} {n : Net} {tr : List Obs} (h : Steady ps n tr) :
    (∀ p, .out p .abort ∉ tr) ∧ Live ps n tr := by
  refine ⟨?_, (steady_inv h).1⟩
  induction h with
  | init _ => simp
  | step hst hal _ ha ih =>
    intro p hp
    rcases List.mem_append.mp hp with hp | hp
    · exact ih p hp
    · exact steady_no_abort (steady_inv hst).2 hal ha p hp

/-- **C14.** Together: when everybody has started and nobody shortens its duration, the synchronization can go on for ever, and
therefore (`C14_time_grows_partial`) reaches every time of the 64 bit range in every participant, whatever the schedule. -/
theorem C14_synchronization_goes_on_forever_partial {ps : List String} {n : Net} {tr : List Obs} (h : Steady ps n tr) (hne : ps ≠ [])
    (hs : ∀ p ∈ ps, Started p tr) (T : Int) (h0 : 0 < T) (hT : T ≤ maxNs) :
    (∀ k, ∃ n' obs, Continues ps n k n' obs) ∧
    ∃ N, ∀ k n' obs, Continues ps n k n' obs → N ≤ k → ∀ p ∈ ps, ∃ t d, .out p (.step t d) ∈ tr ++ obs ∧ T ≤ t + d :=
  ⟨fun k => by obtain ⟨n', obs, h1, _⟩ := work_forever (noHop_calm ps) hne (live_inv (steady_inv h).1) (steady_inv h).2 hs k; exact ⟨n', obs, h1⟩, C14_time_grows_partial (steady_inv h).1 T h0 hT⟩

/-! ## Concrete simulations -/

/-- Coordinated participants with a step duration of 10 ns: `A` and `C` with blocking, `B` with asynchronous handlers. -/
def threeNet : Net where
  part := fun p => if p ∈ ["A", "B", "C"] then
    { cfg := { blocking := p != "B", next := ⟨0, 10⟩, others := (["A", "B", "C"].filter (· ≠ p)).map (fun q => (q, ⟨-1, 0⟩)) }
      state := .running, coordinated := true }
    else start true true false

theorem threeNet_begin : Begin ["A", "B", "C"] threeNet := by
  refine ⟨by decide, ?_, ?_, fun _ _ => rfl⟩
  · intro p hp
    exact ⟨p != "B", true, false, 10, by decide, if_pos hp⟩
  · intro p hp
    exact ⟨true, true, false, if_neg hp⟩

/-- Decidable form of `Allowed` and `NotShortened`. -/
def allowed (ps : List String) (n : Net) : Act → Bool
  | .event p (.setStepDuration d) => decide (p ∈ ps) && decide (0 < d)
  | .event p (.setDynamic _) => decide (p ∈ ps)
  | .event p .request => decide (p ∈ ps) && !(n.part p).asyncExecuting
  | .event p .poll => decide (p ∈ ps)
  | .event p .stepReturned => decide (p ∈ ps)
  | .event p .complete => decide (p ∈ ps) && (n.part p).asyncExecuting
  | .deliver q p => decide (q ∈ ps) && decide (p ∈ ps)
  | .data p _ => decide (p ∈ ps)
  | _ => false

theorem allowed_iff {ps n a} (h : allowed ps n a = true) : Allowed ps n a := by
  cases a with
  | event p e => cases e <;> simp_all [allowed, Allowed]
  | deliver q p => simpa [allowed, Allowed] using h
  | data p x => simpa [allowed, Allowed] using h

/-- All actions of a run are allowed and none aborts. -/
def runAllowed (ps : List String) (n : Net) : List Act → Bool
  | [] => true
  | a :: l => allowed ps n a && (match n.act a with
    | some r => r.2.all (fun o => match o with | .out _ .abort => false | _ => true) && runAllowed ps r.1 l
    | none => false)

theorem run_live {ps n tr} (hr : Live ps n tr) (l : List Act) {n' obs} (h : run n l = some (n', obs))
    (hd : runAllowed ps n l = true) : Live ps n' (tr ++ obs) := by
  induction l generalizing n tr obs with
  | nil => simp only [run, Option.some.injEq, Prod.mk.injEq] at h; obtain ⟨rfl, rfl⟩ := h; simpa using hr
  | cons a l ih =>
    simp only [run, Option.bind_eq_some_iff, Option.map_eq_some_iff] at h
    obtain ⟨⟨n1, o1⟩, ha, ⟨n2, o2⟩, h2, h3⟩ := h
    simp only [Prod.mk.injEq] at h3
    obtain ⟨rfl, rfl⟩ := h3
    simp only [runAllowed, ha, Bool.and_eq_true, List.all_eq_true] at hd
    rw [← List.append_assoc]
    refine ih (Live.step hr (allowed_iff hd.1) ha ?_) h2 hd.2.2
    intro p hp
    have := hd.2.1 _ hp
    simp at this

/-- A run with a property that can be computed. -/
theorem live_witness {ps n0} (hb : Begin ps n0) (l : List Act) (c : Net → List Obs → Bool)
    (h : (match run n0 l with | some (n, tr) => runAllowed ps n0 l && c n tr | none => false) = true) :
    ∃ n tr, Live ps n tr ∧ c n tr = true := by
  split at h
  · next n tr hr =>
    simp only [Bool.and_eq_true] at h
    exact ⟨n, tr, by simpa using run_live (Live.init hb) l hr h.1, h.2⟩
  · cases h

/-- Everybody starts; `A` executes its first step. -/
def firstStep : List Act :=
  [.event "A" .request, .event "B" .request, .event "C" .request, .deliver "B" "A", .deliver "C" "A"]

/-- The hypotheses of the theorems above are met in the middle of a simulation. -/
example : ∃ n tr, Live ["A", "B", "C"] n tr ∧ (∀ p ∈ ["A", "B", "C"], Started p tr) ∧ Obs.out "A" (.step 0 10) ∈ tr := by
  obtain ⟨n, tr, h1, h2⟩ := live_witness threeNet_begin firstStep
    (fun _ tr => decide (∀ p ∈ ["A", "B", "C"], Obs.did p .request ∈ tr) && decide (Obs.out "A" (.step 0 10) ∈ tr)) (by decide +kernel)
  simp only [Bool.and_eq_true, decide_eq_true_eq] at h2
  exact ⟨n, tr, h1, h2⟩

/-- A moment at which everything has been delivered and nobody executes a step: `A` and `C` (step duration 20) wait for `B`, which
has just completed its first step (of 10). -/
def quietActs : List Act :=
  [.event "A" (.setStepDuration 20), .event "C" (.setStepDuration 20), .event "A" .request, .event "B" .request, .event "C" .request,
   .deliver "A" "B", .deliver "C" "B", .deliver "B" "A", .deliver "C" "A", .event "A" .stepReturned, .deliver "B" "C", .deliver "A" "C",
   .event "C" .stepReturned, .deliver "A" "B", .deliver "C" "B", .deliver "C" "A", .deliver "A" "C", .event "B" .complete,
   .deliver "B" "A", .deliver "B" "C"]

example : ∃ n tr, Live ["A", "B", "C"] n tr ∧ (∀ p ∈ ["A", "B", "C"], Started p tr) ∧
    (∀ q ∈ ["A", "B", "C"], ∀ p ∈ ["A", "B", "C"], n.chan q p = []) ∧ (∀ p ∈ ["A", "B", "C"], (n.part p).busy = false) := by
  obtain ⟨n, tr, h1, h2⟩ := live_witness threeNet_begin quietActs
    (fun n tr => decide (∀ p ∈ ["A", "B", "C"], Obs.did p .request ∈ tr) &&
      decide (∀ q ∈ ["A", "B", "C"], ∀ p ∈ ["A", "B", "C"], n.chan q p = []) &&
      decide (∀ p ∈ ["A", "B", "C"], (n.part p).busy = false)) (by decide +kernel)
  simp only [Bool.and_eq_true, decide_eq_true_eq] at h2
  exact ⟨n, tr, h1, h2.1.1, h2.1.2, h2.2⟩

/-- All actions of a run are allowed and none shortens a duration. -/
def runSteady (ps : List String) (n : Net) : List Act → Bool
  | [] => true
  | a :: l => allowed ps n a && (match a with | .event p (.setStepDuration d) => decide ((n.part p).cfg.next.dur ≤ d) | _ => true) &&
    (match n.act a with | some r => runSteady ps r.1 l | none => false)

theorem run_steady {ps n tr} (hr : Steady ps n tr) (l : List Act) {n' obs} (h : run n l = some (n', obs))
    (hd : runSteady ps n l = true) : Steady ps n' (tr ++ obs) := by
  induction l generalizing n tr obs with
  | nil => simp only [run, Option.some.injEq, Prod.mk.injEq] at h; obtain ⟨rfl, rfl⟩ := h; simpa using hr
  | cons a l ih =>
    simp only [run, Option.bind_eq_some_iff, Option.map_eq_some_iff] at h
    obtain ⟨⟨n1, o1⟩, ha, ⟨n2, o2⟩, h2, h3⟩ := h
    simp only [Prod.mk.injEq] at h3
    obtain ⟨rfl, rfl⟩ := h3
    simp only [runSteady, ha, Bool.and_eq_true] at hd
    rw [← List.append_assoc]
    refine ih (Steady.step hr (allowed_iff hd.1.1) ?_ ha) h2 hd.2
    unfold NotShortened
    split
    · simpa using hd.1.2
    · trivial

/-- A simulation in which everybody has started, nobody has shortened its duration, and steps have been executed. -/
example : ∃ n tr, Steady ["A", "B", "C"] n tr ∧ (∀ p ∈ ["A", "B", "C"], Started p tr) ∧ Obs.out "A" (.step 0 20) ∈ tr := by
  have h : (match run threeNet quietActs with
    | some (_, tr) => runSteady ["A", "B", "C"] threeNet quietActs && decide (∀ p ∈ ["A", "B", "C"], Obs.did p .request ∈ tr) &&
        decide (Obs.out "A" (.step 0 20) ∈ tr)
    | none => false) = true := by decide +kernel
  split at h
  · next n tr hr =>
    simp only [Bool.and_eq_true, decide_eq_true_eq] at h
    exact ⟨n, tr, by simpa using run_steady (Steady.init threeNet_begin) quietActs hr h.1.1, h.1.2, h.2⟩
  · cases h

/-- Shortening a step duration makes another participant abort the simulation. `A` shortens its duration during its first step and
announces `(10, 5)`; `B`, which is still waiting for `C` to start, takes `A` for a participant of a running simulation that it
joins too late (it has advanced further than its duration) and, being coordinated, aborts the simulation. -/
theorem C14_shortening_aborts : ∃ n tr a n' obs, Live ["A", "B", "C"] n tr ∧ Allowed ["A", "B", "C"] n a ∧
    n.act a = some (n', obs) ∧ Obs.out "B" .abort ∈ obs ∧ ∀ t d, Obs.out "B" (.step t d) ∉ tr := by
  obtain ⟨n, tr, h1, h2⟩ := live_witness threeNet_begin
    (firstStep ++ [.event "A" (.setStepDuration 5), .event "A" .stepReturned, .deliver "A" "B", .deliver "A" "B"])
    (fun n tr => (match n.act (.deliver "C" "B") with | some r => decide (Obs.out "B" .abort ∈ r.2) | none => false) &&
      tr.all (fun o => match o with | .out "B" (.step _ _) => false | _ => true)) (by decide +kernel)
  simp only [Bool.and_eq_true] at h2
  obtain ⟨h2, h3⟩ := h2
  split at h2
  · next r hr =>
    refine ⟨n, tr, _, r.1, r.2, h1, by simp [Allowed], hr, by simpa using h2, ?_⟩
    intro t d hm
    have := List.all_eq_true.mp h3 _ hm
    simp at this
  · cases h2

end SilKit.Props
