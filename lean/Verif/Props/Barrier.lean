import Verif.Lemmas.Barrier
/-!
# The replies barrier (C22)

Any number of participants connect, lose connections, send messages to their peers, process what they have received and request the
barrier, in any order (`Event`). `Spec.trace` is what can be observed.
-/
namespace SilKit.Props
open SilKit.Barrier SilKit.Barrier.Spec

/-- C22. A completion is invoked exactly for a barrier that is pending: the last thing that happened to the participant's barriers before
was the start of this one. Hence no completion is invoked twice or for a barrier that was not started. -/
theorem C22_completed_once (h : List Event) (a c : List Out) (p : String) (k : Nat) (ht : trace h = a ++ .completed p k :: c) :
    pending a p = some k := ((trace_reason h).1 a c p k ht).1

/-- C22. A barrier is started only when none is pending. -/
theorem C22_one_at_a_time (h : List Event) (a c : List Out) (p : String) (k : Nat) (ht : trace h = a ++ .started p k :: c) :
    pending a p = none := (trace_reason h).2 a c p k ht

/-- C22. When a completion is invoked, every participant that was connected when the barrier was started has processed every message
sent to it before the start over that connection, or has disconnected since. -/
theorem C22_all_have_processed (h : List Event) (a c : List Out) (p : String) (k : Nat) (ht : trace h = a ++ .completed p k :: c) :
    ∃ t1 t2, a = t1 ++ .started p k :: t2 ∧ (∀ j, Out.started p j ∉ t2) ∧
      ∀ q, connectedTo t1 p q = true → Out.lost p q ∈ t2 ∨ ∀ d, Sent t1 p q d → Out.processed q p d ∈ a :=
  ((trace_reason h).1 a c p k ht).2

/-- C22. No barrier is forgotten: when everything sent has been processed and every lost connection has been noticed by both sides, no
barrier is pending. -/
theorem C22_barrier_completes (h : List Event) (hq : Quiet (run h).1) (p : String) : pending (trace h) p = none := by
  have inv := inv_run h
  rw [trace, inv.pend p]
  split
  · rename_i ha
    exfalso
    obtain ⟨q, l, he⟩ := List.exists_cons_of_ne_nil ((inv.ok p).ne ha)
    have hw : ((run h).1.node p).waiting q := ⟨ha, by rw [he]; simp⟩
    have h1 := inv.sub p q hw
    have h2 := ((hq p q).1).mp h1
    rcases (inv.pair p q h1).2.1 hw h2 with k | k
    · rw [(hq p q).2 h1] at k; exact absurd k.1 (by simp [callsOf])
    · rw [(hq q p).2 h2] at k; exact absurd k.2 (by simp [repliesOf])
  · rfl

/-- Three participants; `B` answers, `C` crashes. -/
private def example22 : List Event :=
  [.connect "A" "B", .connect "A" "C", .send "A", .request "A" 1, .send "A", .request "B" 7, .deliver "A" "B", .deliver "A" "B",
   .request "A" 2, .deliver "B" "A", .deliver "B" "A", .lose "A" "C", .lose "C" "A", .deliver "A" "B", .deliver "A" "B"]

example : trace example22 = [.connected "A" "B", .connected "B" "A", .connected "A" "C", .connected "C" "A", .sent "A" "C" 0,
    .sent "A" "B" 0, .started "A" 1, .sent "A" "C" 1, .sent "A" "B" 1, .started "B" 7, .processed "B" "A" 0, .refused "A" 2,
    .lost "A" "C", .completed "A" 1, .lost "C" "A", .processed "B" "A" 1, .completed "B" 7] := by decide +kernel

/-- A complete barrier of two participants. -/
private def example22' : List Event := [.connect "A" "B", .send "A", .request "A" 1, .deliver "A" "B", .deliver "A" "B", .deliver "B" "A"]
example : Quiet (run example22').1 ∧ Out.completed "A" 1 ∈ trace example22' := by
  refine ⟨?_, by decide +kernel⟩
  have hp : ∀ p, (run example22').1.peers p = if p = "A" then ["B"] else if p = "B" then ["A"] else [] := by
    intro p
    rfl
  intro p q
  rw [hp, hp]
  constructor
  · grind
  · intro h
    have : (p = "A" ∧ q = "B") ∨ (p = "B" ∧ q = "A") := by grind
    rcases this with ⟨rfl, rfl⟩ | ⟨rfl, rfl⟩ <;> decide +kernel

/-- C22, disagreement: a request made while a barrier is pending is dropped; its completion is never invoked. -/
theorem C22_second_request_is_dropped : ∃ h : List Event, Out.refused "A" 2 ∈ trace h ∧
    pending (trace h) "A" = none ∧ Out.completed "A" 1 ∈ trace h ∧ Out.started "A" 2 ∉ trace h ∧ Out.completed "A" 2 ∉ trace h :=
  ⟨example22, by decide +kernel⟩

end SilKit.Props
