import Verif.Lemmas.Lifecycle
import Verif.Lemmas.LifecycleSubscriptions
/-!
# C17 – the lifecycle graph, C18 – Shutdown is final, C19 – order of the handlers
-/
namespace SilKit.Props
open Lifecycle Lifecycle.Spec

/-- **C17.** Whatever the user, the network and the handlers do, in whatever order: consecutive published states are connected in the
documented graph – provided that no step the participant waits for while starting up comes after it has been interrupted. Partial:
the interrupted startup is missing, see `C17_interrupted_startup_leaves_graph`. -/
theorem C17_transitions_follow_graph_partial (cfg : Config) (h : History) (ht : Timely cfg h) (a b : ParticipantState)
    (hab : Adjacent (.invalid :: published (run cfg h).2) a b) : Edge a b :=
  accepts_adjacent (m := {}) (run_good cfg h ht) hab

/-- **C17 (every history).** The only transitions ever published that are not in the graph are those into CommunicationInitializing
and CommunicationInitialized. -/
theorem C17_only_startup_steps_leave_graph (cfg : Config) (h : History) (a b : ParticipantState)
    (hab : Adjacent (.invalid :: published (run cfg h).2) a b) :
    Edge a b ∨ b = .communicationInitializing ∨ b = .communicationInitialized :=
  accepts_adjacent (m := {}) (run_good_loose cfg h).1 hab

/-- What `State` reports is what was published last, and the participant never rests in a state that it only passes through. -/
theorem C17_state_is_published (cfg : Config) (h : History) :
    (run cfg h).1.state = lastPublished (run cfg h).2 ∧
    (run cfg h).1.state ≠ .stopping ∧ (run cfg h).1.state ≠ .shuttingDown ∧ (run cfg h).1.state ≠ .aborting := by
  obtain ⟨-, h2, h3⟩ := run_good_loose cfg h
  refine ⟨?_, h3⟩
  rw [← h2.1, after_cur]
  rfl

/-- A participant rests in the state CommunicationInitializing only while some of its subscriptions are not acknowledged; it leaves this state in the moment the last one is. -/
theorem C17_waits_for_subscriptions_only (cfg : Config) (h : History) (hs : lastPublished (run cfg h).2 = .communicationInitializing) : unacknowledged h = true := by
  rw [← (C17_state_is_published cfg h).1] at hs
  have hw : ∀ h : History, Waits (unacknowledged h.reverse) (run cfg h.reverse).1 := by
    intro h
    induction h with
    | nil => exact ⟨rfl, fun e => by cases e⟩
    | cons e h ih =>
      have h2 := ih.on cfg e.1 e.2
      rw [List.reverse_cons]
      have e1 : (run cfg (h.reverse ++ [e])).1 = (on cfg (run cfg h.reverse).1 e.1 e.2).1 := by simp [run, List.foldl_append, andThen]
      have e2 : unacknowledged (h.reverse ++ [e]) = (match e.1 with | .subscriptionsAdded => true | .subscriptionsCompleted => false | _ => unacknowledged h.reverse) := by
        unfold unacknowledged; rw [List.foldl_append]; rfl
      rw [e1, e2]; exact h2
  have := hw h.reverse
  rw [List.reverse_reverse] at this
  exact (this.2 hs).1

/-- Non-vacuity: it does wait, and goes on. If the subscriptions are acknowledged earlier, it does not wait. -/
example : lastPublished (run {} [(.init, {}), (.subscriptionsAdded, {}), (.systemState .servicesCreated, {}), (.barrierStart true, {})]).2 = .communicationInitializing := by decide +kernel
example : lastPublished (run {} [(.init, {}), (.subscriptionsAdded, {}), (.systemState .servicesCreated, {}), (.barrierStart true, {}), (.subscriptionsCompleted, {})]).2 =
    .communicationInitialized := by decide +kernel
example : lastPublished (run {} [(.init, {}), (.subscriptionsAdded, {}), (.subscriptionsCompleted, {}), (.systemState .servicesCreated, {}), (.barrierStart true, {})]).2 =
    .communicationInitialized := by decide +kernel

/-- An abort while the participant waits, in ServicesCreated, for the replies of the others. -/
def interruptedStartup : History :=
  [(.init, {}), (.systemState .servicesCreated, {}), (.barrierStart false, {}), (.abort, {}), (.barrierStart false, {}),
   (.barrierDone, {})]

/-- **C17 fails.** When the startup is interrupted by an abort, the replies of the others bring the participant back to life: it
publishes CommunicationInitializing after Shutdown. -/
theorem C17_interrupted_startup_leaves_graph :
    published (run {} interruptedStartup).2 =
      [.servicesCreated, .aborting, .shutdown, .communicationInitializing, .communicationInitialized] ∧
    ¬ Edge .shutdown .communicationInitializing := by
  refine ⟨by decide +kernel, fun h => h⟩

/-- The same after an error: a participant in Error continues to start up, and runs. -/
theorem C17_error_during_startup_is_forgotten :
    published (run { autonomous := true } [(.init, {}), (.startAutonomous, {}), (.barrierStart false, {}), (.reportError, {}),
      (.barrierDone, {})]).2 =
      [.servicesCreated, .error, .communicationInitializing, .communicationInitialized, .readyToRun, .running] := by
  decide +kernel

/-- A complete coordinated history meeting the hypothesis of C17–C19: asynchronous communication ready handler, pause, an error in
between ignored, stop by the system state. -/
def regular : Config := { timeSync := false, commReady := some true, starting := true, stop := true, shutdown := true, abort := true }

def regularHistory : History :=
  [(.init, {}), (.subscriptionsAdded, {}), (.systemState .servicesCreated, {}), (.barrierStart false, {}), (.barrierDone, {}),
   (.subscriptionsCompleted, {}), (.systemState .communicationInitialized, {}), (.completeAsync, {}), (.completeCommReady, {}),
   (.systemState .readyToRun, {}), (.pause, {}), (.resume, {}), (.systemState .stopping, {}), (.barrierStart false, {}),
   (.barrierDone, {}), (.barrierStart false, {}), (.barrierDone, {}), (.reportError, {}), (.abort, {})]

/-- Deciding whether a history is timely. -/
theorem timely_of_check (cfg : Config) (h : History)
    (hc : (List.range h.length).all (fun i => match h[i]? with
      | none => true
      | some e =>
        let l := (run cfg (h.take i)).1
        (match e.1 with
        | .barrierStart alone => !(l.active == none && alone && l.pending.head? == some .servicesCreated && l.state != .servicesCreated)
        | .barrierDone => !(l.active == some .servicesCreated && l.state != .servicesCreated)
        | .subscriptionsCompleted => !(l.subsWaiting != 0 && (l.state != .communicationInitializing || l.subsWaiting != 1))
        | _ => true)) = true) : Timely cfg h := by
  intro pre e o post heq
  have hi := List.all_eq_true.mp hc pre.length (List.mem_range.mpr (by simp [heq]))
  have h1 : h[pre.length]? = some (e, o) := by simp [heq]
  have h2 : h.take pre.length = pre := by simp [heq]
  rw [h1, h2] at hi
  dsimp only at hi
  generalize (run cfg pre).1 = l at hi
  cases e with
  | barrierStart alone =>
    refine ⟨?_, fun h => h⟩
    rintro ⟨a1, a2, a3, a4⟩
    simp [a1, a2, a3, a4] at hi
  | barrierDone =>
    refine ⟨?_, fun h => h⟩
    rintro ⟨a1, a2⟩
    simp [a1, a2] at hi
  | subscriptionsCompleted =>
    refine ⟨fun h => h, ?_⟩
    rintro ⟨a1, a2⟩
    rcases a2 with a2 | a2
    · simp [a1, a2] at hi
    · simp [a1, a2] at hi
  | _ => exact ⟨fun h => h, fun h => h⟩

theorem regular_timely : Timely regular regularHistory := timely_of_check _ _ (by decide +kernel)

example : Timely regular regularHistory ∧
    (run regular regularHistory).2.filter (fun o => match o with | .published _ | .called _ | .future _ => true | _ => false) =
    [.published .servicesCreated, .published .communicationInitializing, .published .communicationInitialized, .called .commReady,
     .published .readyToRun, .called .starting, .published .running, .published .paused, .published .running, .published .stopping,
     .called .stop, .published .stopped, .published .shuttingDown, .called .shutdown, .published .shutdown, .future .shutdown] :=
  ⟨regular_timely, by decide +kernel⟩

/-- Interrupting a startup at another moment is harmless: an abort in ReadyToRun. -/
example : Timely { commReady := some false, abort := true } [(.init, {}), (.systemState .servicesCreated, {}), (.barrierStart true, {}),
      (.systemState .communicationInitialized, {}), (.abort, {}), (.barrierStart true, {})] ∧
    (run { commReady := some false, abort := true } [(.init, {}), (.systemState .servicesCreated, {}), (.barrierStart true, {}),
      (.systemState .communicationInitialized, {}), (.abort, {}), (.barrierStart true, {})]).2 =
    [.published .servicesCreated, .published .communicationInitializing, .published .communicationInitialized, .called .commReady,
     .published .readyToRun, .published .aborting, .called (.abort .readyToRun), .published .shutdown, .notifyShutdown,
     .future .shutdown] :=
  ⟨timely_of_check _ _ (by decide +kernel), by decide +kernel⟩

/-- **C18 (final).** After Shutdown nothing is published any more (under the hypothesis of C17). -/
theorem C18_nothing_after_shutdown_partial (cfg : Config) (h : History) (ht : Timely cfg h) (pre post : List Out)
    (heq : (run cfg h).2 = pre ++ .published .shutdown :: post) (s : ParticipantState) : .published s ∉ post := by
  intro hs
  have hne : published post ≠ [] := by
    intro h0
    have : s ∈ published post := List.mem_filterMap.mpr ⟨_, hs, rfl⟩
    rw [h0] at this
    cases this
  obtain ⟨b, rest, hb⟩ := List.exists_cons_of_ne_nil hne
  have := C17_transitions_follow_graph_partial cfg h ht .shutdown b
    ⟨.invalid :: published pre, rest, by
      rw [heq, published_append, show published (Out.published .shutdown :: post) = .shutdown :: published post from rfl, hb]; rfl⟩
  cases b <;> simp [Edge] at this

/-- **C18 (value).** The future is completed at most once, in every history; and if it is completed, then with Shutdown and after
Shutdown was published (under the hypothesis of C17). -/
theorem C18_future_completed_once (cfg : Config) (h : History) (pre post : List Out) (s : ParticipantState)
    (heq : (run cfg h).2 = pre ++ .future s :: post) (s' : ParticipantState) : .future s' ∉ post ∧ .future s' ∉ pre := by
  have h1 := run_counted cfg h
  rw [heq, futures_append, show futures (Out.future s :: post) = s :: futures post from rfl] at h1
  have h2 : (run cfg h).1.finalSet.toNat ≤ 1 := by cases (run cfg h).1.finalSet <;> decide
  simp only [List.length_append, List.length_cons] at h1
  constructor
  · intro hm
    have : s' ∈ futures post := List.mem_filterMap.mpr ⟨_, hm, rfl⟩
    have := List.length_pos_of_mem this
    omega
  · intro hm
    have : s' ∈ futures pre := List.mem_filterMap.mpr ⟨_, hm, rfl⟩
    have := List.length_pos_of_mem this
    omega

/-- **C18 (completion).** When Shutdown was published and nothing is outstanding, the future is completed (under the hypothesis of
C17). -/
theorem C18_future_is_completed_partial (cfg : Config) (h : History) (ht : Timely cfg h)
    (hs : .published .shutdown ∈ (run cfg h).2) (hi : Idle (run cfg h).1) : ∃ s, .future s ∈ (run cfg h).2 := by
  have hst : (run cfg h).1.state = .shutdown := by
    rw [(C17_state_is_published cfg h).1]
    obtain ⟨pre, post, heq⟩ := List.append_of_mem hs
    have hp : published post = [] := by
      rw [List.eq_nil_iff_forall_not_mem]
      intro s hs'
      obtain ⟨o, ho, hos⟩ := List.mem_filterMap.mp hs'
      cases o <;> simp at hos
      exact C18_nothing_after_shutdown_partial cfg h ht pre post heq _ ho
    rw [heq, lastPublished, published_append, show published (Out.published .shutdown :: post) = .shutdown :: published post from rfl, hp]
    simp
  have hf : (run cfg h).1.finalSet = true := by
    rcases run_onItsWay cfg h ht hst with h1 | h1 | h1
    · exact h1
    · rw [hi.1] at h1; cases h1
    · exact absurd hi.2 h1
  have := run_counted cfg h
  rw [hf] at this
  obtain ⟨s, hs⟩ := List.exists_mem_of_length_pos (by rw [this]; decide : 0 < (futures (run cfg h).2).length)
  obtain ⟨o, ho, hos⟩ := List.mem_filterMap.mp hs
  cases o <;> simp at hos
  exact ⟨_, ho⟩

/-- The value of the future is the state published last when it is completed, in every history. -/
theorem C18_future_is_last_state (cfg : Config) (h : History) (pre post : List Out) (s : ParticipantState)
    (heq : (run cfg h).2 = pre ++ .future s :: post) : s = lastPublished pre := by
  have h1 := (run_good_loose cfg h).1
  rw [heq] at h1
  have := accepts_split h1
  rw [Obs.Ok, after_cur] at this
  exact this

/-- **C18 fails.** In the interrupted startup the request to complete the future is dropped: nothing is outstanding, Shutdown was
published, but the future is never completed. -/
theorem C18_interrupted_startup_never_completes :
    .published .shutdown ∈ (run {} interruptedStartup).2 ∧ Idle (run {} interruptedStartup).1 ∧
    .dropped ∈ (run {} interruptedStartup).2 ∧ ∀ s, .future s ∉ (run {} interruptedStartup).2 := by
  have h : (run {} interruptedStartup).2 = [.published .servicesCreated, .published .aborting, .published .shutdown, .dropped,
      .published .communicationInitializing, .published .communicationInitialized] := by decide +kernel
  rw [h]
  refine ⟨by simp, ⟨by decide +kernel, by decide +kernel⟩, by simp, by simp⟩

/-- A history meeting the hypotheses of C18. -/
example : Timely regular regularHistory ∧ .published .shutdown ∈ (run regular regularHistory).2 ∧ Idle (run regular regularHistory).1 :=
  ⟨regular_timely, by decide +kernel, by decide +kernel, by decide +kernel⟩

/-- **C19 (order).** The communication ready, starting, stop, and shutdown or abort handlers are called at most once each and in this
order (under the hypothesis of C17). -/
theorem C19_handlers_in_order_partial (cfg : Config) (h : History) (ht : Timely cfg h) :
    (called (run cfg h).2).Pairwise (fun a b => order a < order b) :=
  (accepts_order (run_good cfg h ht)).1

/-- **C19 (every history).** Each handler is called in its own state: that is the state published last. -/
theorem C19_handlers_in_their_state (cfg : Config) (h : History) (pre post : List Out) (c : Handler)
    (heq : (run cfg h).2 = pre ++ .called c :: post) :
    lastPublished pre = stateOf c := by
  have h1 := (run_good_loose cfg h).1
  rw [heq] at h1
  have := (accepts_split h1).1
  rw [after_cur] at this
  exact this

/-- **C19 (abort handler, every history).** The abort handler is told the state the participant was in when it was aborted. -/
theorem C19_abort_handler_is_told (cfg : Config) (h : History) (pre post : List Out) (x : ParticipantState)
    (heq : (run cfg h).2 = pre ++ .called (.abort x) :: post) : ∃ p, .invalid :: published pre = p ++ [x, .aborting] := by
  have h1 := (run_good_loose cfg h).1
  rw [heq] at h1
  obtain ⟨h2, -, h3⟩ := accepts_split h1
  obtain ⟨p, hp⟩ := after_last_two {} pre
  rw [h2, ← h3 x rfl] at hp
  cases p with
  | nil => simp [stateOf] at hp
  | cons a p => exact ⟨p, by simp at hp; simpa [stateOf] using hp.2⟩

theorem running_before {tr : List Out} (h : Obs.Accepts LooseEdge {} tr)
    (hs : lastPublished tr = .running ∨ lastPublished tr = .paused ∨ lastPublished tr = .stopping) : .published .running ∈ tr := by
  rw [← List.reverse_reverse tr] at h hs ⊢
  generalize tr.reverse = tr at h hs ⊢
  induction tr with
  | nil => simp [lastPublished, published] at hs
  | cons o tr ih =>
    rw [List.reverse_cons] at h hs ⊢
    obtain ⟨h1, h2, -⟩ := (Obs.accepts_append ..).mp h
    cases o with
    | published s =>
      have hl : lastPublished (tr.reverse ++ [.published s]) = s := by
        rw [lastPublished, published_append, show published [Out.published s] = [s] from rfl]; simp
      rw [hl] at hs
      rw [Obs.Ok, after_cur] at h2
      change LooseEdge (lastPublished tr.reverse) s at h2
      rcases hs with rfl | rfl | rfl
      · simp
      · refine List.mem_append_left _ (ih h1 ?_)
        rcases h2 with h2 | h2 | h2
        · revert h2
          cases lastPublished tr.reverse <;> simp [Edge]
        · cases h2
        · cases h2
      · refine List.mem_append_left _ (ih h1 ?_)
        rcases h2 with h2 | h2 | h2
        · revert h2
          cases lastPublished tr.reverse <;> simp [Edge]
        · cases h2
        · cases h2
    | _ =>
      refine List.mem_append_left _ (ih h1 ?_)
      rw [lastPublished, published_append] at hs
      simpa [published, lastPublished] using hs

/-- **C19 (stop handler, every history).** The stop handler is only called after the participant was running. -/
theorem C19_stop_handler_after_running (cfg : Config) (h : History) (pre post : List Out)
    (heq : (run cfg h).2 = pre ++ .called .stop :: post) : .published .running ∈ pre := by
  have h1 := (run_good_loose cfg h).1
  rw [heq] at h1
  exact running_before ((Obs.accepts_append ..).mp h1).1 (Or.inr (Or.inr (C19_handlers_in_their_state cfg h pre post _ heq)))

/-- **C19 fails** in a startup interrupted by an error, when a stop was requested meanwhile: handlers of earlier phases are called
after the shutdown handler. -/
theorem C19_interrupted_startup_repeats_handlers :
    let cfg : Config := { autonomous := true, commReady := some false, starting := true, shutdown := true }
    called (run cfg [(.init, {}), (.startAutonomous, {}), (.barrierStart false, {}), (.reportError, {}), (.stop, {}),
      (.barrierDone, {})]).2 = [.shutdown, .commReady, .starting] := by
  decide +kernel

/-- A history meeting the hypotheses of C19, with all handlers called. -/
example : Timely regular regularHistory ∧ called (run regular regularHistory).2 = [.commReady, .starting, .stop, .shutdown] :=
  ⟨regular_timely, by decide +kernel⟩

end SilKit.Props
