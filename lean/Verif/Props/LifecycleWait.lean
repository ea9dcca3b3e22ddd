import Verif.Lemmas.LifecycleWaitCheck
/-!
# C71: starting lifecycles and waiting for their ends through the C interface
-/
namespace SilKit.Props
open SilKit.LifecycleWait SilKit.LifecycleWait.Spec

/-- Two participants in two threads, one with the C interface and one with the C++ API; the second one's address is used again while the first one
still waits. -/
def waitExample : List Op :=
  [.create 0, .create 5, .start 1 0 true none, .start 2 5 true (some 3), .go 2, .go 1, .wait 1 0, .go 3, .go 1, .go 3, .go 1, .go 3, .finish 5 8, .go 1,
   .go 3, .go 3, .destroy 5, .create 5, .wait 2 5, .go 2, .finish 0 7, .go 1, .go 1]

theorem waitExample_careful : AllCareful waitExample := carefulFrom_sound (by decide +kernel)

/-- **C71.** Whatever the interleaving of any number of threads, participants, starts and waits, with addresses that are used again for other services: a
wait that reports success reports the state in which the lifecycle of the very service has ended, which had been started. (Partial: for users that start
each lifecycle once, do not call two functions about one service at the same time, and do not destroy participants before the end has been waited for;
see the deviations below.) -/
theorem C71_wait_tells_the_final_state_partial (ops : List Op) (hc : AllCareful ops) (t a o s : Nat)
    (h : Event.returned t a o (.success s) ∈ (run ops).events) :
    ((run ops).services o).outcome = some (.ended s) ∧ Event.started a o ∈ (run ops).events := by
  rcases (Inv.run hc).result t a o _ h with ⟨s', hs, ho, he⟩ | hx
  · cases hs
    exact ⟨ho, he⟩
  · cases hx

example : (run waitExample).events
    = [.started 5 1, .started 0 0, .returned 3 5 1 (.success 8), .returned 2 5 2 .unknown, .returned 1 0 0 (.success 7)] := by decide +kernel

/-- **C71.** A wait reports nothing but success or an unknown service; the latter only if the service's start had not yet returned, or if it has been
waited for before. -/
theorem C71_errors_have_reasons_partial (ops : List Op) (hc : AllCareful ops) (pre post : List Event) (t a o : Nat) (c : Code)
    (h : (run ops).events = pre ++ .returned t a o c :: post) :
    (∃ s, c = .success s) ∨ (c = .unknown ∧ ((∀ b, Event.started b o ∉ pre) ∨ Waited pre o)) := by
  rcases (Inv.run hc).result t a o c (by rw [h]; simp) with ⟨s, hs, -⟩ | hx
  · exact Or.inl ⟨s, hs⟩
  · subst hx
    exact Or.inr ⟨rfl, unknown_justified hc pre t a o post h⟩

example : AllCareful waitExample ∧ ∃ pre post, (run waitExample).events = pre ++ .returned 2 5 2 .unknown :: post :=
  ⟨waitExample_careful, [.started 5 1, .started 0 0, .returned 3 5 1 (.success 8)], [.returned 1 0 0 (.success 7)], by decide +kernel⟩

/-- **C71.** Nothing is undefined: no use of a removed entry, no two uses of one `std::future` at the same time, no `get` of an invalid one. -/
theorem C71_no_undefined_behaviour_partial (ops : List Op) (hc : AllCareful ops) : (run ops).ub = false := (Inv.run hc).noUb

example : AllCareful waitExample := waitExample_careful

/-- **C71.** Nobody waits in vain: once a started lifecycle has ended, the thread that waits for it gets its final state by its own next five steps,
whatever all others are doing. -/
theorem C71_waiting_ends_partial (ops : List Op) (hc : AllCareful ops) (t o s : Nat) (hw : WaitingFor ((run ops).threads t) o)
    (hs : ∃ b, Event.started b o ∈ (run ops).events) (hn : ¬ Waited (run ops).events o) (ho : ((run ops).services o).outcome = some (.ended s)) :
    ∃ a, Event.returned t a o (.success s) ∈ (goes t 5 (run ops)).events :=
  through (Inv.run hc) hw hs hn ho

example : let w := run (waitExample.take 21)
    w.threads 1 = .getting 0 1 0 0 ∧ Event.started 0 0 ∈ w.events ∧ (w.services 0).outcome = some (.ended 7) := by decide +kernel

/-- **C71.** The C++ API's `StartLifecycle` leaves exactly one thread that waits for the lifecycle, so that its future gets the final state (by the
theorem above). -/
theorem C71_cpp_start_leaves_a_waiter (ops : List Op) (hc : AllCareful ops) (t v a o : Nat) (hl : (run ops).live a = some o) (ht : (run ops).threads t = .idle)
    (hne : v ≠ t) (hcs : Careful (run ops) (.start t a true (some v))) :
    let w := run (ops ++ [.start t a true (some v), .go t])
    WaitingFor (w.threads v) o ∧ Event.started a o ∈ w.events ∧ ¬ Waited w.events o ∧ ∀ u, u ≠ v → about (w.threads u) ≠ some a := by
  obtain ⟨hq, htk, hv⟩ := hcs
  have hv := hv v rfl
  have hinv := Inv.run hc
  have h1 : Inv (run (ops ++ [.start t a true (some v)])) := by
    rw [run_snoc]
    exact hinv.step _ ⟨hq, htk, fun u hu => by cases hu; exact hv⟩
  have htk' : ((run ops).services o).taken = false := htk o hl
  have e1 : (run (ops ++ [.start t a true (some v)])).threads = upd (run ops).threads t (.adding a o (some o) (some v)) := by
    rw [run_snoc]
    simp [LifecycleWait.step, hl, ht, htk']
  obtain ⟨x1, x2, x3, x4, x5, x6⟩ := h1.adding t a o (some o) (some v) (by rw [e1]; simp [upd])
  have h2 : Inv (LifecycleWait.step (run (ops ++ [.start t a true (some v)])) (.go t)) := h1.step _ trivial
  have e : ops ++ [.start t a true (some v), .go t] = (ops ++ [.start t a true (some v)]) ++ [.go t] := by simp
  simp only [e]
  rw [run_snoc]
  have e2 : (LifecycleWait.step (run (ops ++ [.start t a true (some v)])) (.go t)).threads v = .calling a o := by
    have ea : (run (ops ++ [.start t a true (some v)])).threads t = .adding a o (some o) (some v) := by rw [e1]; simp [upd]
    have ev : (run (ops ++ [.start t a true (some v)])).threads v = .idle := by rw [e1]; simp [upd, hne, hv]
    simp only [LifecycleWait.step, ea]
    simp [upd, hne, ev]
  have e3 : (LifecycleWait.step (run (ops ++ [.start t a true (some v)])) (.go t)).events = (run (ops ++ [.start t a true (some v)])).events ++ [.started a o] := by
    have ea : (run (ops ++ [.start t a true (some v)])).threads t = .adding a o (some o) (some v) := by rw [e1]; simp [upd]
    simp only [LifecycleWait.step, ea]
  refine ⟨Or.inl ⟨a, e2⟩, by rw [e3]; simp, ?_, ?_⟩
  · rw [e3]
    rintro ⟨t2, a2, s2, h2'⟩
    simp at h2'
    exact x6 ⟨t2, a2, s2, h2'⟩
  · intro u hu hx
    exact hu (h2.one u v a hx (by rw [e2]; rfl))

example : AllCareful [.create 5] ∧ (run [.create 5]).live 5 = some 0 ∧ Careful (run [.create 5]) (.start 2 5 true (some 3)) :=
  ⟨carefulFrom_sound (by decide +kernel), by decide +kernel, carefulB_sound (by intro t h; exact absurd rfl h) (by decide +kernel)⟩

/-! ### Deviations -/

/-- Deviation: two threads that wait for the same lifecycle, which is not forbidden, are in `get` of the same `std::future` at the same time, or use it
after it has been removed. -/
theorem C71_two_waiters_are_dangerous :
    (run [.create 0, .start 1 0 true none, .go 1, .wait 1 0, .wait 2 0, .go 1, .go 2, .go 1, .go 2, .go 1, .go 2]).ub = true
    ∧ ∀ s, (run [.create 0, .start 1 0 true none, .go 1, .finish 0 s, .wait 1 0, .wait 2 0, .go 2, .go 1, .go 1, .go 1, .go 1, .go 1, .go 2]).ub = true := by
  refine ⟨by decide +kernel, ?_⟩
  intro s
  rfl

/-- Deviation: the entry of a lifecycle that nobody has waited for stays for ever. A new service at the same address inherits it: a wait for it, although
it has never been started, reports success and the final state of the other participant. -/
theorem C71_wait_can_tell_the_state_of_another_participant (s : Nat) :
    (run [.create 0, .start 1 0 true none, .go 1, .finish 0 s, .destroy 0, .create 0, .wait 1 0, .go 1, .go 1, .go 1, .go 1, .go 1]).events
      = [.started 0 0, .returned 1 0 1 (.success s)] := rfl

/-- Deviation: with the C++ API, a participant that is destroyed right after its lifecycle has ended can get the state of the next one: the waiting thread
has not yet looked up the entry, which the next start replaces. The state reported for service 0, which ended with 7, is that of service 1. -/
theorem C71_cpp_future_can_get_the_state_of_another_participant :
    (run [.create 0, .start 1 0 true (some 9), .go 1, .finish 0 7, .destroy 0, .create 0, .start 1 0 true (some 10), .go 1, .go 9, .go 9, .go 9,
      .finish 0 8, .go 9, .go 9, .go 10]).events
      = [.started 0 0, .started 0 1, .returned 9 0 0 (.success 8), .returned 10 0 1 .unknown] := by decide +kernel

/-- Deviation: starting a lifecycle twice is not refused (`_finalStatePromise` is never null) but reported as success, and makes the future invalid: the
lifecycle ends, and neither of the two waiting threads is told. -/
theorem C71_second_start_spoils_the_first (s : Nat) :
    (run [.create 0, .start 1 0 true (some 9), .go 1, .start 1 0 true (some 10), .go 1, .finish 0 s, .go 9, .go 9, .go 10, .go 10]).events
      = [.started 0 0, .started 0 0, .returned 9 0 0 .noAccess, .returned 10 0 0 .noAccess] := rfl

/-- Deviation: if the first waiting thread is already in `get`, a second start replaces the future under its feet. -/
theorem C71_second_start_is_dangerous :
    (run [.create 0, .start 1 0 true (some 9), .go 1, .go 9, .go 9, .go 9, .start 1 0 true (some 10), .go 1]).ub = true := rfl

/-- Deviation: the entry of a lifecycle that was destroyed while somebody was waiting stays, too: a wait for the next service at the address, which has
not been started, does not report that it is unknown. -/
theorem C71_broken_entry_stays :
    (run [.create 0, .start 1 0 true none, .go 1, .wait 1 0, .go 1, .go 1, .go 1, .destroy 0, .go 1, .create 0, .wait 1 0, .go 1, .go 1]).events
      = [.started 0 0, .returned 1 0 0 .failed, .returned 1 0 1 .noAccess] := rfl

end SilKit.Props
