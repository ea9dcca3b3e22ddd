import Verif.Lemmas.AutonomousCheck
/-!
# Autonomous participants with virtual time do not run with those that do not support them (C81)

`run own ops` is what the participant `own` does in the schedule `ops` of the user's calls and the events of its I/O thread. `cap q` says whether participant `q` supports
autonomous participants with virtual time.
-/
namespace SilKit.Props
open SilKit.AutonomousCheck SilKit.AutonomousCheck.Spec

/-- An autonomous participant with virtual time that has begun to run has aborted the simulation if a synchronized participant is or was there that does not support
it, whether this one was discovered before or after the settings, in all interleavings. -/
theorem C81_unsupported_participant_stops_the_simulation (own : String) (cap : String → Bool) (ops : List Op) (hu : Usual true ops) (hc : Capable cap ops)
    (hr : .requested ∈ (run own ops).2) (q : String) (hp : Present (run own ops).2 q) (hq : cap q = false) : ∃ r, .aborted r ∈ (run own ops).2 := by
  have h := inv_run own true cap ops hu hc
  rcases h.safe rfl hr with h1 | h1
  · exact h1
  · rcases h.present q hp with h2 | h2 | h2
    · rw [h1 q (.inl h2)] at hq; cases hq
    · rw [h1 q (.inr h2)] at hq; cases hq
    · exact h2

/-- The settings are made between the check of B and its addition. -/
private def acOps : List Op := [.peer "B" (some false), .discover "B" true, .configure true, .createTimeSync, .finish, .startLifecycle, .startTime]

private def acCap : String → Bool := fun q => q ≠ "B"

example : Usual true acOps ∧ Capable acCap acOps ∧ .requested ∈ (run "A" acOps).2 ∧ Present (run "A" acOps).2 "B" ∧ (run "A" acOps).2 = [.seen "B", .aborted "B", .requested] :=
  ⟨⟨[], by decide +kernel⟩, by simp [acOps, Capable, acCap], by decide +kernel, ⟨[], [.aborted "B", .requested], by decide +kernel, by decide +kernel⟩, by decide +kernel⟩

/-- … and if it is discovered later. -/
example : (run "A" [.configure true, .createTimeSync, .peer "C" (some true), .discover "C" true, .finish, .startLifecycle, .startTime, .peer "B" (some false), .discover "B" true]).2 =
    [.seen "C", .requested, .seen "B", .aborted "B"] := by decide +kernel

/-- The simulation is aborted only because of a synchronized participant that has been discovered and does not support autonomous participants with virtual time, and only if
the user has asked for both: whatever the schedule and the order of the calls. -/
theorem C81_no_abort_without_cause (own : String) (cap : String → Bool) (ops : List Op) (hc : Capable cap ops) (hk : Connected ops) {r : String}
    (h : .aborted r ∈ (run own ops).2) : cap r = false ∧ .seen r ∈ (run own ops).2 ∧ .configure true ∈ ops ∧ .createTimeSync ∈ ops :=
  (cause_run own cap ops hc hk).aborted r h

private theorem ac_connected : Connected acOps := by
  intro a b q x e
  have hl : a.length < 7 := by have := congrArg List.length e; simp [acOps] at this; omega
  have h1 : a = acOps.take a.length := by rw [e]; simp
  have h2 : acOps[a.length]? = some (.discover q x) := by rw [e]; simp
  generalize a.length = n at *
  rcases n with _ | _ | _ | _ | _ | _ | _ | n
  all_goals simp [acOps] at h2
  · exact ⟨some false, by rw [h1, ← h2.1]; decide +kernel⟩

example : Capable acCap acOps ∧ Connected acOps ∧ .aborted "B" ∈ (run "A" acOps).2 := ⟨by simp [acOps, Capable, acCap], ac_connected, by decide +kernel⟩

/-- In particular, participants with a coordinated lifecycle, and those without virtual time, do not abort. -/
theorem C81_others_do_not_abort (own : String) (cap : String → Bool) (ops : List Op) (hc : Capable cap ops) (hk : Connected ops) (h : .configure true ∉ ops ∨ .createTimeSync ∉ ops) (r : String) :
    .aborted r ∉ (run own ops).2 := fun hr => by
  obtain ⟨_, _, h1, h2⟩ := C81_no_abort_without_cause own cap ops hc hk hr
  rcases h with h | h
  · exact h h1
  · exact h h2

/-- … although one that lacks the capability is there. -/
example : (run "A" ([.configure false, .createTimeSync, .startLifecycle, .peer "B" (some false), .discover "B" true, .finish, .startTime])).2 = [.seen "B", .requested] := by decide +kernel

/-- What "discovered" means here: another participant that has announced that it synchronizes its time. -/
theorem C81_only_synchronized_participants_count (own : String) (ops : List Op) {q : String} (h : .seen q ∈ (run own ops).2) : q ≠ own ∧ .discover q true ∈ ops := seen_run own ops q h

example : Out.seen "B" ∈ (run "A" acOps).2 ∧ (run "A" [.configure true, .createTimeSync, .peer "B" (some false), .discover "B" false, .discover "A" true]).2 = [] := by decide +kernel

/-! ## Counterexample: what the code does instead -/

/-- `CreateTimeSyncService` is not rejected after `StartLifecycle`. The participant does not synchronize its time then (`syncing` is not set), and still aborts the whole simulation
because of a participant it does not depend on. -/
theorem C81_counterexample_unsynchronized_participant_aborts :
    let r := run "A" [.configure true, .startLifecycle, .startTime, .createTimeSync, .peer "B" (some false), .discover "B" true]
    r.1.syncing = false ∧ r.2 = [.requested, .seen "B", .aborted "B"] := by decide +kernel

end SilKit.Props
