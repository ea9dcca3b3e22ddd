import Verif.Lemmas.Hourglass
import Verif.Props.Handlers
/-!
# Handlers given to the C++ API (C42)

`h` is an arbitrary history: the calls of the C++ API that add and remove handlers, each in two steps between which anything may happen, the events of
the services, and what the handlers do while they are being called. `seenBy k h` lists what happens to the handlers of kind `k`; a call of an
object that is gone, or that is no handler, is `undefined`. `requests k h` is what has been asked of the handlers of this kind.
-/
namespace SilKit.Props
open SilKit.Hourglass SilKit.Hourglass.Spec
open SilKit.Handlers (Out)

/-- The handlers of each kind behave as one container of handlers (C36) that holds the handlers themselves. Missing: histories that remove LIN slave
configuration handlers, see `C42_removing_a_slave_configuration_handler_frees_a_wakeup_handler`. -/
theorem C42_handlers_behave_as_one_container_partial (h : List Event) (hf : FewHandlers h) (hk : KnownIdentifiers h)
    (hn : NoSlaveConfigurationRemoval h) (k : Kind) : seenBy k h = Handlers.Spec.trace (requests k h) := seenBy_eq h hf hk hn k

/-- A call goes to the handler that was given to the API with the identifier, and that has not been removed since. -/
theorem C42_the_given_handler_is_called_partial (h : List Event) (hf : FewHandlers h) (hk : KnownIdentifiers h)
    (hn : NoSlaveConfigurationRemoval h) (k : Kind) (a b : List Out) (n id p : Nat) (e : seenBy k h = a ++ .called n id p :: b) :
    Out.added id p ∈ a ∧ id ∈ Handlers.Spec.registered a := by
  rw [seenBy_eq h hf hk hn k] at e
  exact (C36_only_registered_handlers_are_called _ (hf k) a b n id p e).symm

/-- The identifiers of one kind are unique, and a removed handler is not called again. -/
theorem C42_removed_handlers_are_not_called_partial (h : List Event) (hf : FewHandlers h) (hk : KnownIdentifiers h)
    (hn : NoSlaveConfigurationRemoval h) (k : Kind) :
    (Handlers.Spec.addedIds (seenBy k h)).Pairwise (· < ·) ∧
    ∀ a b id, seenBy k h = a ++ .removed id :: b → id ∈ Handlers.Spec.addedIds a → ∀ n p, Out.called n id p ∉ b := by
  rw [seenBy_eq h hf hk hn k]
  exact ⟨C36_identifiers_are_unique _ (hf k), fun a b id e hid => C36_removed_handler_is_not_called _ (hf k) a b id e hid⟩

/-- An event calls all the handlers of its kind that are registered, in the order in which they were added. -/
theorem C42_every_handler_is_called_partial (h : List Event) (hf : FewHandlers h) (hk : KnownIdentifiers h)
    (hn : NoSlaveConfigurationRemoval h) (k : Kind) (a b c : List Out) (n : Nat)
    (e : seenBy k h = a ++ .began n :: (b ++ .ended n :: c)) (hplain : ∀ o ∈ b, ∃ id p, o = .called n id p) :
    Handlers.Spec.calls n (seenBy k h) = Handlers.Spec.registered a ∧ b.length = (Handlers.Spec.registered a).length := by
  rw [seenBy_eq h hf hk hn k] at e ⊢
  exact C36_plain_invocation _ (hf k) a b c n e hplain

/-- No handler is called after it has been destroyed, as long as none is removed while it is being executed. -/
theorem C42_no_undefined_behaviour_partial (h : List Event) (hf : FewHandlers h) (hk : KnownIdentifiers h)
    (hn : NoSlaveConfigurationRemoval h) (k : Kind) (hs : Handlers.Spec.SafeRemovals (seenBy k h)) : Out.undefined ∉ seenBy k h := by
  rw [seenBy_eq h hf hk hn k] at hs ⊢
  exact C36_no_undefined_behaviour_partial _ hs

/-- An event for which one handler can be set calls the handler that was set last; setting a handler calls nothing. Missing: `SetCallHandler` of
an RPC server, see `C42_setting_the_handler_of_a_server_is_undefined_behaviour`. -/
theorem C42_the_handler_set_last_is_called_partial (h : List SlotEvent) (ho : OneAtATime h) (hn : NoSetCallHandler h) (st : Setter) :
    called (h ++ [.event st]) = called h ++ [dueAt st h] ∧
    (∀ p, called (h ++ [.setBegin st p]) = called h) ∧ called (h ++ [.setEnd st]) = called h := by
  refine ⟨?_, fun p => ?_, ?_⟩
  · unfold called
    rw [slotRun_append]
    show (slotRun h).2 ++ (onSlot (slotRun h).1 (.event st)).2 = _
    rw [event_due h ho hn st]
  · unfold called; rw [slotRun_append]; simp [onSlot]
  · unfold called; rw [slotRun_append]; simp [onSlot]

/-- A handler that was set last is called by the event. -/
theorem C42_dueAt (h : List SlotEvent) (st : Setter) (p : Nat) (m : List SlotEvent) (hm : ∀ t q, replaces t st → SlotEvent.setBegin t q ∉ m) :
    dueAt st (h ++ .setBegin st p :: m) = .handler st p := by
  have hl : lastSet st (h ++ .setBegin st p :: m) = some p := by
    unfold lastSet
    rw [List.filterMap_append, List.filterMap_cons]
    have hr : replaces st st = true := by rw [replaces_iff]; simp
    simp only [hr, if_true]
    rw [List.getLast?_append, List.getLast?_cons, List.filterMap_eq_nil_iff.2]
    · rfl
    · intro e he
      cases e with
      | setBegin t q =>
          by_cases hr : replaces t st
          · exact absurd he (hm t q hr)
          · simp [hr]
      | _ => rfl
  unfold dueAt
  rw [hl]

/-! ## What does not hold -/

/-- Removing a LIN slave configuration handler destroys the wakeup handler with the same number; the next wakeup calls it nevertheless. -/
theorem C42_removing_a_slave_configuration_handler_frees_a_wakeup_handler :
    let h := [Event.addBegin .linWakeup 7, .addEnd .linWakeup 0, .addBegin .linSlaveConfiguration 8, .addEnd .linSlaveConfiguration 0,
      .removeBegin .linSlaveConfiguration 0, .removeEnd .linSlaveConfiguration 0, .invoke .linWakeup]
    seenBy .linWakeup h = [.added 0 7, .began 0, .undefined] ∧ Handlers.Spec.trace (requests .linWakeup h) = [.added 0 7, .began 0, .called 0 0 7] := by
  decide +kernel

/-- After `SetCallHandler`, every call of the function of an RPC server is undefined behaviour, whatever happened before. -/
theorem C42_setting_the_handler_of_a_server_is_undefined_behaviour (h : List SlotEvent) (p : Nat) :
    called (h ++ [.setBegin .rpcCall p, .setEnd .rpcCall, .event .rpcCall]) = called h ++ [.undefined] := by
  have e : h ++ [.setBegin .rpcCall p, .setEnd .rpcCall, .event .rpcCall] =
      ((h ++ [.setBegin .rpcCall p]) ++ [.setEnd .rpcCall]) ++ [.event .rpcCall] := by simp
  unfold called
  rw [e, slotRun_append, slotRun_append, slotRun_append]
  have hc : ∀ s : Slots, (setEnd (setBegin s .rpcCall p) .rpcCall).core .rpcCall = some .self := by
    intro s
    unfold setEnd
    split <;> rfl
  simp only [onSlot, slot, List.append_nil]
  rw [hc]; rfl

/-- While the claim demands the handler that was set. -/
example (h : List SlotEvent) (p : Nat) : dueAt .rpcCall (h ++ [.setBegin .rpcCall p, .setEnd .rpcCall]) = .handler .rpcCall p :=
  C42_dueAt h .rpcCall p [.setEnd .rpcCall] (by simp)

/-! ## Non-vacuity -/

/-- Two wakeup handlers; the second one is removed by another thread while the first is being stored; a wakeup follows in between. -/
def wakeups : List Event :=
  [.addBegin .linWakeup 7, .addBegin .linWakeup 8, .invoke .linWakeup, .ret .linWakeup, .addEnd .linWakeup 1, .ret .linWakeup,
   .addBegin .canFrame 9, .removeBegin .linWakeup 1, .invoke .linWakeup, .addEnd .linWakeup 0, .removeEnd .linWakeup 1, .ret .linWakeup, .invoke .canFrame]

example : seenBy .linWakeup wakeups = [.added 0 7, .added 1 8, .began 0, .called 0 0 7, .called 0 1 8, .ended 0, .removed 1, .began 1, .called 1 0 7,
    .ended 1] ∧ seenBy .canFrame wakeups = [.added 0 9, .began 0, .called 0 0 9] := by decide +kernel

def knownAt (h : List Event) (n : Nat) : Bool :=
  match h[n]? with
  | some (.removeBegin k id) => decide (id < adds k (h.take n))
  | _ => true

theorem known_of_check {h : List Event} (hc : ∀ n < h.length, knownAt h n = true) : KnownIdentifiers h := by
  intro a b k id e
  have hn := hc a.length (by rw [e]; simp)
  unfold knownAt at hn
  rw [e] at hn
  simpa using hn

example : FewHandlers wakeups ∧ KnownIdentifiers wakeups ∧ NoSlaveConfigurationRemoval wakeups := by
  refine ⟨?_, known_of_check (by decide +kernel), ?_⟩
  · intro k; rw [few_iff]; cases k <;> decide +kernel
  · intro id c; simp [wakeups] at c

/-- The removals of `wakeups` are safe. -/
example : Handlers.Spec.SafeRemovals (seenBy .canFrame wakeups) := by
  have e : seenBy .canFrame wakeups = [.added 0 9, .began 0, .called 0 0 9] := by decide +kernel
  rw [e]
  constructor
  · intro a id b e2
    have hm : Out.removed id ∈ [Out.added 0 9, .began 0, .called 0 0 9] := by rw [e2]; simp
    simp at hm
  · intro a b e2
    have hm : Out.cleared ∈ [Out.added 0 9, .began 0, .called 0 0 9] := by rw [e2]; simp
    simp at hm

/-- The handlers of a lifecycle, of the simulation steps, and of a server that keeps its first handler. -/
def setters : List SlotEvent :=
  [.setBegin .rpcCallInitial 1, .setEnd .rpcCallInitial, .event .rpcCall, .setBegin .simulationStep 2, .event .simulationStep, .setEnd .simulationStep,
   .setBegin .simulationStepAsync 3, .setEnd .simulationStepAsync, .event .simulationStep, .setBegin .simulationStep 4, .setEnd .simulationStep,
   .event .simulationStep, .event .stop]

example : called setters = [.handler .rpcCall 1, .handler .simulationStep 2, .handler .simulationStep 3, .handler .simulationStep 4, .nobody .stop] := by
  decide +kernel

example : NoSetCallHandler setters := by intro p c; simp [setters] at c

example : OneAtATime setters := by
  intro a m b st p q e
  -- two calls of one setter: the one of the simulation steps
  have key : ∀ n < 13, ∀ j < 13, n < j → (match setters[n]?, setters[j]? with
      | some (SlotEvent.setBegin t _), some (SlotEvent.setBegin t' _) => decide (t = t' → SlotEvent.setEnd t ∈ (setters.drop (n + 1)).take (j - n - 1))
      | _, _ => true) = true := by decide +kernel
  have hlen : setters.length = 13 := rfl
  have hl := congrArg List.length e
  rw [hlen] at hl
  simp at hl
  have := key a.length (by omega) (a.length + 1 + m.length) (by omega) (by omega)
  rw [e] at this
  have e1 : (a ++ SlotEvent.setBegin st p :: (m ++ SlotEvent.setBegin st q :: b))[a.length + 1 + m.length]? = some (.setBegin st q) := by
    rw [List.getElem?_append_right (by omega), show a.length + 1 + m.length - a.length = m.length + 1 by omega]; simp
  have e2 : (a ++ SlotEvent.setBegin st p :: (m ++ SlotEvent.setBegin st q :: b)).drop (a.length + 1) = m ++ .setBegin st q :: b := by
    rw [List.drop_append]; simp
  rw [e1, e2, show a.length + 1 + m.length - a.length - 1 = m.length by omega] at this
  simpa using this

end SilKit.Props
