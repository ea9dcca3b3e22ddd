import Verif.Lemmas.StartupLive
/-!
# The coordinated start of a simulation (C52)

`Net.run es (Net.init cfgs)` is any history of any number of participants with their lifecycles and system monitors, from the beginning: who joins, starts,
sends a workflow configuration or loses a connection when, and which message is received when, is arbitrary. `R` are participants that every workflow
configuration requires.
-/
namespace SilKit.Props
open SilKit.Startup SilKit.Startup.Spec
open SilKit.Lifecycle (Config)

/-- **C52**: A coordinated participant runs – reports Running, calls its starting handler or starts its time – only after every required participant has reported
ReadyToRun. -/
theorem c52_nobody_runs_too_early (cfgs : String → Config) (R : List String) (es : List Event) (hc : ∀ c names, Event.configure c names ∈ es → ∀ r ∈ R, r ∈ names)
    (p : String) (hp : (cfgs p).autonomous = false) (a : Trace) (x : Lifecycle.Out) (b : Trace) (h : (Net.run es (Net.init cfgs)).2 = a ++ (p, x) :: b) (hx : runs x = true) :
    AllReported R .readyToRun a := by
  have hg := GI_run es (GI_init cfgs R [] (.inl rfl)) hc
  exact (hg.safe.pre a p x b h hp).1 hx

/-- **C52**: The communication ready handler is called only after every required participant has reported CommunicationInitialized: all of their subscriptions are complete. -/
theorem c52_communication_ready_not_too_early (cfgs : String → Config) (R : List String) (es : List Event) (hc : ∀ c names, Event.configure c names ∈ es → ∀ r ∈ R, r ∈ names)
    (p : String) (hp : (cfgs p).autonomous = false) (a b : Trace) (h : (Net.run es (Net.init cfgs)).2 = a ++ (p, .called .commReady) :: b) :
    AllReported R .communicationInitialized a := by
  have hg := GI_run es (GI_init cfgs R [] (.inl rfl)) hc
  exact (hg.safe.pre a p _ b h hp).2.1 rfl

/-- **C52**: A coordinated participant reports CommunicationInitializing only after every required participant has reported ServicesCreated. -/
theorem c52_initializing_not_too_early (cfgs : String → Config) (R : List String) (es : List Event) (hc : ∀ c names, Event.configure c names ∈ es → ∀ r ∈ R, r ∈ names)
    (p : String) (hp : (cfgs p).autonomous = false) (a b : Trace) (h : (Net.run es (Net.init cfgs)).2 = a ++ (p, .published .communicationInitializing) :: b) :
    AllReported R .servicesCreated a := by
  have hg := GI_run es (GI_init cfgs R [] (.inl rfl)) hc
  exact (hg.safe.pre a p _ b h hp).2.2 rfl

/-- **C52**: Whatever anybody, coordinated or not, has reported on the way to Running, it has reported the state before. -/
theorem c52_reported_in_order (cfgs : String → Config) (es : List Event) (q : String) :
    ((q, Lifecycle.Out.published .running) ∈ (Net.run es (Net.init cfgs)).2 → (q, Lifecycle.Out.published .readyToRun) ∈ (Net.run es (Net.init cfgs)).2) ∧
      ((q, Lifecycle.Out.published .readyToRun) ∈ (Net.run es (Net.init cfgs)).2 → (q, Lifecycle.Out.published .communicationInitialized) ∈ (Net.run es (Net.init cfgs)).2) ∧
      ((q, Lifecycle.Out.published .communicationInitialized) ∈ (Net.run es (Net.init cfgs)).2 → (q, Lifecycle.Out.published .servicesCreated) ∈ (Net.run es (Net.init cfgs)).2) := by
  have hg := GI_run (R := []) es (GI_init cfgs [] [] (.inl rfl)) (fun _ _ _ r hr => by cases hr)
  exact ⟨hg.safe.run q, hg.safe.rtr q, hg.safe.ci q⟩

/-- **C52** (the start completes; *partial*: only if every required participant has received the workflow configuration before its lifecycle is started, see
`c52_late_workflow_stuck`): however the messages, the answers of the others, the acknowledgements and the completion of asynchronous handlers are interleaved, and whatever
the participants that are not required do, as soon as nothing is left to do every required participant is running. -/
theorem c52_start_completes_partial (cfgs : String → Config) (R : List String) (hR : R ≠ []) (hco : ∀ p ∈ R, (cfgs p).autonomous = false) (es : List Event) (hcalm : ∀ e ∈ es, calm R e)
    (htime : InTime R es (Net.init cfgs)) (hq : Quiet R (Net.run es (Net.init cfgs)).1) : ∀ p ∈ R, ((Net.run es (Net.init cfgs)).1.nodes p).life.state = .running :=
  lv_quiet_running (lv_run hco es (lv_init cfgs hR) hcalm htime) hq

/-- **C52** (and it does not go wrong on the way): in such a history no required participant ever leaves the states of the start. -/
theorem c52_start_undisturbed_partial (cfgs : String → Config) (R : List String) (hR : R ≠ []) (hco : ∀ p ∈ R, (cfgs p).autonomous = false) (es : List Event) (hcalm : ∀ e ∈ es, calm R e)
    (htime : InTime R es (Net.init cfgs)) (p : String) (hp : p ∈ R) : ((Net.run es (Net.init cfgs)).1.nodes p).life.state ∈
      [.invalid, .servicesCreated, .communicationInitializing, .communicationInitialized, .readyToRun, .running] := by
  have h := (lv_run hco es (lv_init cfgs hR) hcalm htime).loc p hp
  have := shape_state h.shape
  have hr := rank_le ((Net.run es (Net.init cfgs)).1.nodes p).life.state
  generalize ((Net.run es (Net.init cfgs)).1.nodes p).life.state = s at *
  rw [← this]
  cases s <;> simp [rank, ofRank]

/-! ### Examples -/

namespace StartupExample

def R : List String := ["Q", "P"]

/-- Two participants join after the controller has sent the workflow configuration; `P` has an asynchronous communication ready handler and a virtual time. -/
def cfgs : String → Config
  | "P" => { commReady := some true, timeSync := true }
  | _ => { commReady := some false, starting := true }

def all : List Event := [.deliver "C" "P" {}, .deliver "C" "Q" {}, .deliver "P" "P" {}, .deliver "P" "Q" {}, .deliver "Q" "P" {}, .deliver "Q" "Q" {}]

def barrier (p : String) : List Event := [.life p (.barrierStart false) {}, .life p .barrierDone {}]

def regular : List Event :=
  [.join "C", .configure "C" R, .join "P", .join "Q", .life "P" .subscriptionsAdded {}] ++ all ++ [.start "P" {}, .start "Q" {}, .life "P" .init {}, .life "Q" .init {}] ++ all ++ barrier "P" ++ barrier "Q" ++
    [.life "P" .subscriptionsCompleted {}] ++ all ++ all ++ [.life "P" .completeAsync {}, .life "P" .completeCommReady {}] ++ all ++ all ++ all

/-- The workflow configuration is sent after both have reported ServicesCreated; `Q` receives it first, and what it then reports overtakes the configuration on the way to `P`. -/
def late : List Event :=
  [.join "C", .join "P", .join "Q", .start "P" {}, .start "Q" {}, .life "P" .init {}, .life "Q" .init {}] ++ all ++ [.configure "C" R, .deliver "C" "Q" {}] ++ barrier "Q" ++
    [.deliver "Q" "P" {}, .deliver "Q" "P" {}, .deliver "C" "P" {}] ++ all ++ all ++ all

instance (x : Node) : Decidable (Idle x) := by unfold Idle; infer_instance
instance (R : List String) (n : Net) : Decidable (Quiet R n) := by unfold Quiet; infer_instance
instance (R : List String) (n : Net) (e : Event) : Decidable (informed R n e) := by unfold informed; split <;> infer_instance
instance (R : List String) (s : ParticipantState) (t : Trace) : Decidable (AllReported R s t) := by unfold AllReported; infer_instance

def decInTime (R : List String) : (es : List Event) → (n : Net) → Decidable (InTime R es n)
  | [], _ => isTrue trivial
  | e :: es, n => @instDecidableAnd _ _ (inferInstanceAs (Decidable (informed R n e))) (decInTime R es (n.step e).1)

instance (R : List String) (es : List Event) (n : Net) : Decidable (InTime R es n) := decInTime R es n

theorem regular_calm : ∀ e ∈ regular, calm R e := by
  simp [regular, all, barrier, calm, undisturbed]

theorem late_calm : ∀ e ∈ late, calm R e := by
  simp [late, all, barrier, calm, undisturbed]

end StartupExample

open StartupExample in
/-- **C52** (deviation): the simulation is stuck. Everything is delivered, nobody has anything left to do, but `P` is still in ServicesCreated and `Q` waits for it in
CommunicationInitialized: the system state computed when the workflow configuration arrives considers only the state of the first required participant, which is ahead of the others. -/
theorem c52_late_workflow_stuck :
    ∃ (cfgs : String → Config) (R : List String) (es : List Event), (∀ p, (cfgs p).autonomous = false) ∧ (∀ e ∈ es, calm R e) ∧ Quiet R (Net.run es (Net.init cfgs)).1 ∧
      ((Net.run es (Net.init cfgs)).1.nodes "P").life.state = .servicesCreated ∧ ((Net.run es (Net.init cfgs)).1.nodes "Q").life.state = .communicationInitialized ∧
      ((Net.run es (Net.init cfgs)).1.nodes "P").monitor.tracker.system = .invalid ∧ "P" ∈ R ∧ "Q" ∈ R :=
  ⟨fun _ => {}, R, late, fun _ => rfl, late_calm, by decide +kernel, by decide +kernel, by decide +kernel, by decide +kernel, by decide, by decide⟩

open StartupExample in
/-- The hypotheses of `c52_start_completes_partial` and `c52_start_undisturbed_partial` are met. -/
example : R ≠ [] ∧ (∀ p ∈ R, (cfgs p).autonomous = false) ∧ (∀ e ∈ regular, calm R e) ∧ InTime R regular (Net.init cfgs) ∧ Quiet R (Net.run regular (Net.init cfgs)).1 :=
  ⟨by decide, by decide, regular_calm, by decide +kernel, by decide +kernel⟩

open StartupExample in
/-- The history of the example contains everything the safety theorems speak about, by a coordinated participant. -/
example : (∀ c names, Event.configure c names ∈ regular → ∀ r ∈ R, r ∈ names) ∧ ("P", Lifecycle.Out.published .running) ∈ (Net.run regular (Net.init cfgs)).2 ∧
    ("Q", Lifecycle.Out.called .starting) ∈ (Net.run regular (Net.init cfgs)).2 ∧ ("P", Lifecycle.Out.startTime) ∈ (Net.run regular (Net.init cfgs)).2 ∧
    ("P", Lifecycle.Out.called .commReady) ∈ (Net.run regular (Net.init cfgs)).2 ∧ ("Q", Lifecycle.Out.published .communicationInitializing) ∈ (Net.run regular (Net.init cfgs)).2 ∧
    (cfgs "P").autonomous = false ∧ (cfgs "Q").autonomous = false := by
  refine ⟨?_, by decide +kernel, by decide +kernel, by decide +kernel, by decide +kernel, by decide +kernel, by decide, by decide⟩
  simp [regular, all, barrier, R]

end SilKit.Props
