import Verif.Lemmas.Lifecycle
/-!
# Lemmas on waiting for subscriptions during the startup (C17)
-/
namespace SilKit.Lifecycle
open SilKit.Lifecycle.Spec

/-- Nothing changes about the subscriptions, and the state CommunicationInitializing is not entered. -/
def Keep (l l' : Life) : Prop :=
  l'.subsPending = l.subsPending ∧ l'.subsWaiting = l.subsWaiting ∧ (l'.state = .communicationInitializing → l.state = .communicationInitializing)

theorem Keep.refl (l : Life) : Keep l l := ⟨rfl, rfl, id⟩

theorem Keep.trans {a b c : Life} (h : Keep a b) (h' : Keep b c) : Keep a c :=
  ⟨h'.1.trans h.1, h'.2.1.trans h.2.1, fun e => h.2.2 (h'.2.2 e)⟩

theorem keep_setState (l : Life) {s : ParticipantState} (hs : s ≠ .communicationInitializing) : Keep l (setState l s).1 := ⟨rfl, rfl, fun e => absurd e hs⟩

theorem keep_error (l : Life) : Keep l (error l).1 := by
  unfold error; split
  · exact .refl l
  · exact keep_setState l (by decide)

theorem keep_shutdownIn (cfg : Config) (l : Life) : Keep l (shutdownInShuttingDown cfg l).1 := ⟨rfl, rfl, fun e => by cases e⟩

theorem keep_shutdown (cfg : Config) (l : Life) : Keep l (shutdown cfg l).1 := by
  unfold shutdown; split
  · exact ⟨rfl, rfl, fun e => by cases e⟩
  · exact ⟨rfl, rfl, fun e => by cases e⟩
  · exact keep_shutdownIn cfg l
  · exact ⟨rfl, rfl, id⟩
  · exact ⟨rfl, rfl, fun e => by cases e⟩
  · exact keep_error l

theorem keep_abort (cfg : Config) (l : Life) : Keep l (abort cfg l).1 := by
  unfold abort; split
  all_goals first | exact .refl l | exact ⟨rfl, rfl, fun e => by cases e⟩

theorem keep_stopIn (cfg : Config) (o : Throws) (l : Life) : Keep l (stopInStopping cfg o l).1 := by
  unfold stopInStopping andThen
  dsimp only
  split <;> exact ⟨rfl, rfl, fun e => by cases e⟩

theorem keep_stop (cfg : Config) (o : Throws) (l : Life) : Keep l (stop cfg o l).1 := by
  unfold stop; split
  · exact (keep_setState l (s := .stopping) (by decide)).trans (keep_stopIn cfg o _)
  · exact (keep_setState l (s := .stopping) (by decide)).trans (keep_stopIn cfg o _)
  · exact keep_stopIn cfg o l
  · exact ⟨rfl, rfl, id⟩
  · exact keep_shutdown cfg l
  · exact .refl l

theorem keep_readyIn (cfg : Config) (o : Throws) (l : Life) : Keep l (readyToRunInReadyToRun cfg o l).1 := by
  unfold readyToRunInReadyToRun andThen
  dsimp only
  split
  · exact ⟨rfl, rfl, fun e => by cases e⟩
  · split <;> exact ⟨rfl, rfl, fun e => by cases e⟩

theorem keep_readyToRun (cfg : Config) (o : Throws) (l : Life) : Keep l (readyToRun cfg o l).1 := by
  unfold readyToRun; split
  · exact keep_readyIn cfg o l
  · exact .refl l
  · exact .refl l
  · exact keep_error l

theorem keep_completeIn (cfg : Config) (o : Throws) (l : Life) : Keep l (completeCommReadyInInitialized cfg o l).1 := by
  unfold completeCommReadyInInitialized andThen
  dsimp only
  refine (keep_setState l (s := .readyToRun) (by decide)).trans ?_
  split
  · exact keep_readyIn cfg o _
  · exact .refl _

theorem keep_commIn (cfg : Config) (o : Throws) (l : Life) : Keep l (commInitializedInInitialized cfg o l).1 := by
  unfold commInitializedInInitialized; split
  · exact keep_completeIn cfg o l
  · split
    · exact .refl l
    · unfold andThen
      dsimp only
      split
      · exact ⟨rfl, rfl, fun e => by cases e⟩
      · exact ⟨rfl, rfl, id⟩
  · unfold andThen
    dsimp only
    split
    · exact ⟨rfl, rfl, fun e => by cases e⟩
    · exact keep_completeIn cfg o l

theorem keep_commInitialized (cfg : Config) (o : Throws) (l : Life) : Keep l (commInitialized cfg o l).1 := by
  unfold commInitialized; split
  · exact keep_commIn cfg o l
  · split
    · exact keep_readyIn cfg o l
    · exact .refl l
  · exact .refl l
  · exact .refl l
  · exact keep_error l

theorem keep_subscriptionsDone (cfg : Config) (o : Throws) (l : Life) :
    Keep l (subscriptionsDone cfg o l).1 ∧ (subscriptionsDone cfg o l).1.state ≠ .communicationInitializing := by
  have h : Keep (setState l .communicationInitialized).1 (subscriptionsDone cfg o l).1 := by
    unfold subscriptionsDone andThen
    dsimp only
    split
    · exact keep_commIn cfg o _
    · exact .refl _
  exact ⟨(keep_setState l (by decide)).trans h, fun e => by cases h.2.2 e⟩

/-- Subscriptions are pending as told, and the participant is in the state CommunicationInitializing only to wait for them. -/
def Waits (p : Bool) (l : Life) : Prop := l.subsPending = p ∧ (l.state = .communicationInitializing → p = true ∧ 0 < l.subsWaiting)

theorem Waits.keep {p : Bool} {l l' : Life} (h : Waits p l) (k : Keep l l') : Waits p l' :=
  ⟨k.1.trans h.1, fun e => by rw [k.2.1]; exact h.2 (k.2.2 e)⟩

theorem Waits.await {p : Bool} {l : Life} (h : l.subsPending = p) (cfg : Config) (o : Throws) : Waits p (awaitSubscriptions cfg o l).1 := by
  unfold awaitSubscriptions; split
  · rename_i hp
    exact ⟨h, fun _ => ⟨h.symm.trans hp, Nat.succ_pos _⟩⟩
  · have hk := keep_subscriptionsDone cfg o l
    exact ⟨hk.1.1.trans h, fun e => absurd e hk.2⟩

theorem Waits.complete {p : Bool} {l : Life} (h : Waits p l) (cfg : Config) (o : Throws) (c : Completion) : Waits p (complete cfg o c l).1 := by
  cases c with
  | servicesCreated => exact Waits.await (l := (setState l .communicationInitializing).1) h.1 cfg o
  | stopped => exact h.keep (keep_shutdown cfg l)
  | final =>
    dsimp only [SilKit.Lifecycle.complete]
    split
    · exact h
    · unfold andThen setFinalStatePromise
      dsimp only
      split
      · exact h
      · exact h.keep ⟨rfl, rfl, id⟩

theorem Waits.servicesCreated {p : Bool} {l : Life} (h : Waits p l) (cfg : Config) (o : Throws) : Waits p (servicesCreated cfg o l).1 := by
  unfold SilKit.Lifecycle.servicesCreated; split
  · exact h.keep ⟨rfl, rfl, id⟩
  · exact Waits.await h.1 cfg o
  · exact h.keep (keep_error l)

theorem all_done (cfg : Config) (o : Throws) (n : Nat) (l : Life) (h : l.state = .communicationInitializing → 0 < n) :
    Waits false (allSubscriptionsDone cfg o n l).1 := by
  induction n generalizing l with
  | zero => exact ⟨rfl, fun e => absurd (h e) (by omega)⟩
  | succ n ih => exact ih _ (fun e => absurd e (keep_subscriptionsDone cfg o l).2)

theorem Waits.on {p : Bool} {l : Life} (h : Waits p l) (cfg : Config) (e : Event) (o : Throws) :
    Waits (match e with | .subscriptionsAdded => true | .subscriptionsCompleted => false | _ => p) (on cfg l e o).1 := by
  cases e with
  | init =>
    dsimp only [SilKit.Lifecycle.on]
    unfold initState; split
    · exact h.keep (keep_setState l (by decide))
    all_goals first | exact h | exact h.keep (keep_error l)
  | startAutonomous =>
    dsimp only [SilKit.Lifecycle.on]
    split
    · exact h.servicesCreated cfg o
    · exact h
  | systemState s =>
    dsimp only [SilKit.Lifecycle.on]
    unfold newSystemState; split
    · exact h
    · split
      · exact h.servicesCreated cfg o
      · exact h.keep (keep_commInitialized cfg o l)
      · exact h.keep (keep_readyToRun cfg o l)
      · split
        · exact (h.keep (l' := { l with stopDueToSystem := true }) ⟨rfl, rfl, id⟩).keep (keep_stop cfg o _)
        · exact h
      · split
        · exact (h.keep (l' := { l with stopDueToSystem := true }) ⟨rfl, rfl, id⟩).keep (keep_stop cfg o _)
        · exact h
      · exact h
  | completeAsync =>
    dsimp only [SilKit.Lifecycle.on]
    split
    · exact h.keep ⟨rfl, rfl, id⟩
    · exact h
  | completeCommReady =>
    dsimp only [SilKit.Lifecycle.on]
    split
    · exact h
    · rename_i n _
      have h' : Waits p { l with completing := n } := h.keep ⟨rfl, rfl, id⟩
      unfold completeCommReady; split
      · exact h'.keep (keep_completeIn cfg o _)
      · exact h'.keep (keep_error _)
  | reportError =>
    dsimp only [SilKit.Lifecycle.on]
    unfold reportError; split
    · exact h
    · exact h.keep (keep_error l)
  | pause =>
    dsimp only [SilKit.Lifecycle.on]
    unfold pause; split
    · exact h.keep (keep_setState l (by decide))
    · exact h
  | resume =>
    dsimp only [SilKit.Lifecycle.on]
    unfold resume; split
    · exact h.keep (keep_setState l (by decide))
    · exact h
  | stop => exact h.keep (keep_stop cfg o l)
  | abort => exact h.keep (keep_abort cfg l)
  | barrierStart alone =>
    dsimp only [SilKit.Lifecycle.on]
    unfold barrierStart; split
    · exact h
    · split
      · exact h.keep ⟨rfl, rfl, id⟩
      · split
        · refine Waits.complete ?_ cfg o _; exact h.keep ⟨rfl, rfl, id⟩
        · exact h.keep ⟨rfl, rfl, id⟩
  | barrierDone =>
    dsimp only [SilKit.Lifecycle.on]
    unfold barrierDone; split
    · exact h
    · refine Waits.complete ?_ cfg o _; exact h.keep ⟨rfl, rfl, id⟩
  | subscriptionsAdded => exact ⟨rfl, fun e => ⟨rfl, (h.2 e).2⟩⟩
  | subscriptionsCompleted => exact all_done cfg o _ l (fun e => (h.2 e).2)

end SilKit.Lifecycle
