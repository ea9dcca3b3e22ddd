import Verif.Lemmas.Registration
/-!
# C23: registering a service

The trace `trace h` of a history `h` contains the calls, the subscriptions sent, the acknowledges received, and the returns.
-/
namespace SilKit.Props
open SilKit.Registration SilKit.Registration.Spec

/-- **C23.** When services are registered by one thread, a registration returns only after the new receivers of the service have been
subscribed at all peers, and every peer that was connected at that time has acknowledged each of them or is gone; and it returns only
once. Missing from the full claim: services registered by several threads at the same time, see `C23_concurrent_call_returns_early`. -/
theorem C23_returns_after_all_acknowledges_partial (h : List Event) (ho : OneThread h) (a b : List Out) (k : Nat)
    (e : trace h = a ++ .returned k :: b) : MayReturn a k :=
  (one_run h ho).ret a k b e

/-- **C23.** A return always belongs to a call that was made and that has not returned before. -/
theorem C23_returns_once_partial (h : List Event) (ho : OneThread h) (a b : List Out) (k : Nat)
    (e : trace h = a ++ .returned k :: b) : outstanding a = some k := by
  obtain ⟨t1, rs, t2, subs, t3, rfl, hn, -, -⟩ := (one_run h ho).ret a k b e
  have h2 : ∀ o ∈ t2, Dull o := fun o ho => hn o (by simp [ho])
  have h3 : ∀ o ∈ t3, Dull o := fun o ho => hn o (by simp [ho])
  rw [outstanding_append, List.foldl_cons, List.foldl_append, List.foldl_cons, out_dull t2 _ h2]
  exact out_dull t3 _ h3

/-- **C23.** The call does return: once all registrations have been carried out by the I/O thread and every subscription sent for them has
been acknowledged by the peers connected at that time, or these are gone, no call is waiting. -/
theorem C23_returns_eventually_partial (h : List Event) (ho : OneThread h)
    (hexec : ∀ a b k rs, trace h = a ++ .called true k rs :: b → ∃ subs, Out.subscribed true k subs ∈ b)
    (hall : AllSettled true (trace h)) : outstanding (trace h) = none := by
  have j := one_run h ho
  have i := inv_run h
  show outstanding (run h).2 = none
  rw [j.out]
  cases hp : (run h).1.promise with
  | none => rfl
  | some k =>
      exfalso
      rcases j.busy k hp with ⟨rs, -, -, t1, t2, e, hn⟩ | ⟨hne, -, -⟩
      · obtain ⟨subs, hm⟩ := hexec t1 t2 k rs e
        exact hn _ hm trivial
      · cases hl : (run h).1.pendingSync with
        | nil => exact hne hl
        | cons x l =>
            obtain ⟨t1, t2, k, subs, e, hc, hs, hn⟩ := i.stuck x.1 x.2 (by rw [hl]; simp)
            exact hn (hall t1 t2 k subs e x.1 hc x.2 hs)

/-- **C23.** No exception is thrown: neither the assertion of the call, nor by completing a promise twice. -/
theorem C23_no_exception_partial (h : List Event) (ho : OneThread h) : Out.exception ∉ trace h := (one_run h ho).exc

/-- **C23.** A handler that has to wait for asynchronous registrations is called only when every subscription sent for these has been
acknowledged by every peer connected at that time, or the peer is gone. For handlers that need not wait, see
`C23_async_handler_called_early`. -/
theorem C23_async_handlers_partial (h : List Event) (a b : List Out) (j : Nat) (e : trace h = a ++ .handlerCalled j :: b)
    (hw : ∀ a', a ≠ a' ++ [.handlerAdded j]) : AllSettled false a := by
  rcases asy_run h a j b e with ⟨a', h'⟩ | h'
  · exact absurd h' (hw a')
  · exact h'

/-- The scenario of the following examples: two peers, a service with two receivers, one of which was registered before. -/
def registrationExample : List Event :=
  [.join 1, .register true 7 [10], .execute, .join 2, .ack 1 10, .register true 8 [10, 11, 12], .ack 2 11, .execute,
   .ack 1 11, .ack 2 12, .leave 1, .ack 2 11]

/-- C23 is not vacuous: the two calls return, the first before peer 2 has anything to acknowledge. -/
example : trace registrationExample =
    [.joined 1, .called true 7 [10], .subscribed true 7 [10], .joined 2, .acked 1 10, .returned 7, .called true 8 [10, 11, 12],
     .acked 2 11, .subscribed true 8 [11, 12], .acked 1 11, .acked 2 12, .gone 1, .acked 2 11, .returned 8] := by decide +kernel

def oneThreadB (h : List Event) : Bool :=
  (List.range h.length).all fun n => match h[n]? with
    | some (.register true _ _) => outstanding (trace (h.take n)) == none
    | _ => true

theorem oneThread_of_check (h : List Event) (hb : oneThreadB h = true) : OneThread h := by
  intro a b k rs e
  simp only [oneThreadB, List.all_eq_true, List.mem_range] at hb
  have := hb a.length (by rw [e]; simp)
  rw [e] at this
  simpa using this

example : OneThread registrationExample := oneThread_of_check _ (by decide +kernel)

/-- A call that returns at once, because there are no peers, and one that is still waiting. -/
example : trace [.register true 1 [10], .execute, .join 5, .register true 2 [11], .execute] =
    [.called true 1 [10], .subscribed true 1 [10], .returned 1, .joined 5, .called true 2 [11], .subscribed true 2 [11]] ∧
    OneThread [.register true 1 [10], .execute, .join 5, .register true 2 [11], .execute] :=
  ⟨by decide +kernel, oneThread_of_check _ (by decide +kernel)⟩

/-- A handler that waits for the acknowledge of an asynchronous registration. -/
example : trace [.join 1, .register false 1 [10], .addHandler 3, .execute, .ack 1 10] =
    [.joined 1, .called false 1 [10], .handlerAdded 3, .subscribed false 1 [10], .acked 1 10, .handlerCalled 3] := by decide +kernel

/-- **C23, disagreement.** When two threads register services at the same time, the second call replaces the promise the first one is
waiting for. The first call returns although nothing has been subscribed yet. -/
theorem C23_concurrent_call_returns_early :
    ∃ h a b, trace h = a ++ .returned 1 :: b ∧ ¬ MayReturn a 1 := by
  refine ⟨[.join 5, .register true 1 [10], .register true 2 [11]], [.joined 5, .called true 1 [10]], [.called true 2 [11]],
    by decide +kernel, ?_⟩
  rintro ⟨t1, rs, t2, subs, t3, e, -, -, -⟩
  have : Out.subscribed true 1 subs ∈ [.joined 5, .called true 1 [10]] := by rw [e]; simp
  simp at this

/-- **C23, disagreement.** Or the second call fails with the assertion, although the first one is only waiting for a peer. -/
theorem C23_concurrent_call_fails :
    ∃ h, trace h = [.joined 5, .called true 1 [10], .subscribed true 1 [10], .called true 2 [11], .exception] :=
  ⟨[.join 5, .register true 1 [10], .execute, .register true 2 [11]], by decide +kernel⟩

/-- **C23, disagreement.** Or the second call returns together with the first, before its own service is even subscribed; completing it
then throws an exception on the I/O thread. -/
theorem C23_concurrent_call_completes_twice :
    ∃ h, trace h = [.joined 5, .called true 1 [10], .returned 1, .called true 2 [11], .subscribed true 1 [10], .acked 5 10, .returned 2,
      .subscribed true 2 [11], .acked 5 11, .exception] :=
  ⟨[.join 5, .register true 1 [10], .register true 2 [11], .execute, .ack 5 10, .execute, .ack 5 11], by decide +kernel⟩

/-- **C23, disagreement.** A registration does not wait for a receiver that an earlier asynchronous registration has subscribed but that
has not been acknowledged. -/
theorem C23_does_not_wait_for_shared_receiver :
    ∃ h, OneThread h ∧ trace h = [.joined 5, .called false 1 [10], .subscribed false 1 [10], .called true 2 [10], .subscribed true 2 [],
      .returned 2, .acked 5 10] :=
  ⟨[.join 5, .register false 1 [10], .execute, .register true 2 [10], .execute, .ack 5 10],
    oneThread_of_check _ (by decide +kernel), by decide +kernel⟩

/-- **C23, disagreement.** The flag for pending asynchronous registrations is cleared when the first of two is complete although the second
has been posted already: a handler added afterwards is called although the second registration has not been acknowledged. -/
theorem C23_async_handler_called_early :
    ∃ h a, trace h = a ++ [.handlerCalled 3] ∧ ¬ AllSettled false a := by
  refine ⟨[.join 5, .register false 1 [10], .execute, .register false 2 [11], .ack 5 10, .execute, .addHandler 3],
    [.joined 5, .called false 1 [10], .subscribed false 1 [10], .called false 2 [11], .acked 5 10, .subscribed false 2 [11],
     .handlerAdded 3], by decide +kernel, ?_⟩
  intro hall
  have := hall [.joined 5, .called false 1 [10], .subscribed false 1 [10], .called false 2 [11], .acked 5 10] [.handlerAdded 3] 2 [11]
    rfl 5 (by decide +kernel) 11 (by simp)
  rcases this with h | h <;> simp at h

end SilKit.Props
