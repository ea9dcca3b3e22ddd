import Verif.Lemmas.TimeProvider
/-!
# C67: the time of a participant and the calls of its time handlers
-/
namespace SilKit.Props
open SilKit.TimeProvider SilKit.TimeProvider.Spec

section
variable {h : List Event} {s s' : State} {os o : List Out}

/-- **C67, synchronized time.** Once synchronized time is configured, every new simulation time is told to every registered handler exactly once, with
the time and the duration of the step, and `Now()` is that time from then on. -/
theorem C67_steps_reach_all_handlers {t t' : Thread} {now duration clock : Int} {s'' : State} {o' : List Out} (hr : run init h = some (s, os))
    (hm : (view h).mode = some .syncTime) (he : step s (.setTime t now duration) = some (s', o)) (hn : step s' (.now t' clock) = some (s'', o')) :
    o = (view h).registered.map (fun x => .called x now duration) ∧ (view h).registered.Nodup ∧ o' = [.isNow (some now)] := by
  have hd := step_alive he
  have i := inv_of_run hr hd
  obtain ⟨hk, ha⟩ := i.mode _ hm
  have hnod : (view h).registered.Nodup := i.handlers ▸ i.nodup
  have hd' := step_alive hn
  unfold step at he
  rw [hd] at he
  dsimp only at he
  split at he
  · cases he
  · split at he
    · simp only [setTime, hk, ha, if_true] at he
      cases he
      refine ⟨by simp [invokeAll, i.handlers], hnod, ?_⟩
      unfold step at hn
      rw [hd'] at hn
      dsimp only at hn
      split at hn
      · cases hn
      · split at hn
        · cases hn
          simp [nowOf, TimeProvider.set, hk]
        · cases hn
    · cases he

/-- **C67, unsynchronized time.** Without synchronized time, a simulation time is told to no handler. -/
theorem C67_no_steps_unsynchronized {t : Thread} {now duration : Int} (hr : run init h = some (s, os))
    (hm : (view h).mode ≠ some .syncTime) (he : step s (.setTime t now duration) = some (s', o)) : o = [] := by
  have i := inv_of_run hr (step_alive he)
  cases ho : o with
  | nil => rfl
  | cons x l =>
    exfalso
    unfold step at he
    split at he
    · cases he
    · dsimp only at he
      split at he
      · have hk : (s.impl s.cur).kind ≠ .syncTime := fun hk => hm (mode_kind i (by intro h; cases h) hk)
        simp only [setTime, if_neg hk] at he
        cases he; cases ho
      · cases he

/-- **C67, Now.** `Now()` is the last simulation time that was set since synchronized time was configured, and otherwise the value that stands for no
time (or, with the wall clock, the time of the computer). -/
theorem C67_now {t : Thread} {clock : Int} (hr : run init h = some (s, os)) (he : step s (.now t clock) = some (s', o)) :
    o = [.isNow (expectedNow (view h) clock)] := by
  have i := inv_of_run hr (step_alive he)
  unfold step at he
  split at he
  · cases he
  · dsimp only at he
    split at he
    · cases he
      congr 2
      unfold nowOf expectedNow
      cases hm : (view h).mode with
      | none => rw [(i.mode0 hm).1]
      | some k =>
        rw [(i.mode k hm).1]
        cases k with
        | noSync => rfl
        | wallClock => rfl
        | syncTime => exact i.time hm
    · cases he

/-- **C67, no other calls.** A handler is called only while it is registered, and only for one of two reasons: a new simulation time, with its values,
while the time is synchronized; or a tick of a timer that was started while the time was not synchronized, with the time at which the timer expired and
its period. -/
theorem C67_calls_have_a_reason {e : Event} {x : Nat} {now duration : Int} (hr : run init h = some (s, os)) (he : step s e = some (s', o))
    (hx : Out.called x now duration ∈ o) :
    x ∈ (view h).registered ∧
    ((∃ t, e = .setTime t now duration ∧ (view h).mode = some .syncTime) ∨
     (∃ p k, e = .enter p ∧ Event.tick p now ∈ h ∧ (view h).kinds[p]? = some k ∧
        (k = .noSync ∧ duration = 100000 ∨ k = .wallClock ∧ duration = 1000000))) := by
  have i := inv_of_run hr (step_alive he)
  obtain ⟨h1, h2⟩ := step_calls i he hx
  refine ⟨h1, h2.imp id ?_⟩
  rintro ⟨p, rfl, hp, hd⟩
  obtain ⟨_, o2, o3⟩ := origins_init hr
  have hpk := o2 p (pending_le hr hp)
  refine ⟨p, _, rfl, o3 p now hp, hpk, ?_⟩
  have hns : (s.impl p).kind ≠ .syncTime := sync_silent h hr p now hp
  cases hk : (s.impl p).kind with
  | noSync => left; rw [hk] at hd; exact ⟨rfl, hd⟩
  | wallClock => right; rw [hk] at hd; exact ⟨rfl, hd⟩
  | syncTime => exact absurd hk hns

/-- **C67, ticks.** A tick that reaches the handlers calls every registered handler exactly once. -/
theorem C67_tick_reaches_all_handlers {p : Nat} (hr : run init h = some (s, os)) (he : step s (.enter p) = some (s', o)) :
    ∃ now duration, Event.tick p now ∈ h ∧ o = (view h).registered.map (fun x => .called x now duration) ∧ (view h).registered.Nodup := by
  have i := inv_of_run hr (step_alive he)
  have hnod : (view h).registered.Nodup := i.handlers ▸ i.nodup
  unfold step at he
  split at he
  · cases he
  · dsimp only at he
    split at he
    · rename_i clock hp
      split at he
      · cases he
        exact ⟨clock, _, (origins_init hr).2.2 p clock hp, by rw [← i.handlers]; rfl, hnod⟩
      · cases he
    · cases he

/-- **C67, synchronized time only (part).** If no tick of a timer was on its way whenever a kind of time was configured, then with synchronized time
handlers are called with simulation times only. Missing: ticks that are on their way, for which this is false (`C67_stale_tick`). -/
theorem C67_synchronized_calls_partial {e : Event} {x : Nat} {now duration : Int} (hr : run init h = some (s, os))
    (hm : (view h).mode = some .syncTime) (hc : (view h).calm = true) (he : step s e = some (s', o)) (hx : Out.called x now duration ∈ o) :
    ∃ t, e = .setTime t now duration := by
  have i := inv_of_run hr (step_alive he)
  obtain ⟨_, h2⟩ := step_calls i he hx
  rcases h2 with ⟨t, ht, _⟩ | ⟨p, rfl, hp, _⟩
  · exact ⟨t, ht⟩
  · exfalso
    by_cases hpc : p = s.cur
    · subst hpc
      have := i.sync (i.mode _ hm).1
      rw [hp] at this; cases this
    · have := i.calm p now hpc hp
      rw [hc] at this; cases this

/-- **C67, ticks go on (part).** With a timer-driven kind of time, if a handler was added since it was configured, then in every reachable state at most
four further events, none of which changes handlers or the kind of time, lead to a call of every registered handler with the period of the timer; unless a
handler is being added while a tick is on its way. Missing: these states, in which no handler is ever called again (`C67_add_deadlocks`), and handlers that
were added before the configuration only (`C67_handlers_forgotten`). -/
theorem C67_ticks_go_on_partial {k : Kind} (hr : run init h = some (s, os)) (hd : s.dead = false) (hm : (view h).mode = some k) (hk : k ≠ .syncTime)
    (ha : (view h).addedSince = true) (hs : s.joining = none ∨ (view h).inFlight = false) :
    ∃ es s' o now, es.length ≤ 4 ∧ (∀ e ∈ es, steadyEvent e = true) ∧ run s es = some (s', o) ∧
      ∀ x ∈ (view h).registered, Out.called x now (period k) ∈ o := by
  have i := inv_of_run hr hd
  have fin : ∀ c, ∀ x ∈ (view h).registered, Out.called x c (period k) ∈ invokeAll s c (period k) := by
    intro c x hx
    exact List.mem_map.mpr ⟨x, i.handlers ▸ hx, rfl⟩
  cases hj : s.joining with
  | none =>
    obtain ⟨es, s', c, h1, h2, h3⟩ := unjoined_ticks i hd hm hk ha hj
    exact ⟨es, s', _, c, by omega, h2, h3, fin c⟩
  | some y =>
    have hfl : (view h).inFlight = false := by
      rcases hs with hs | hs
      · rw [hj] at hs; cases hs
      · exact hs
    obtain ⟨j1, j2, j3, j4⟩ := i.joinPhase (by rw [hj]; intro h; cases h)
    have hp : (s.impl s.cur).phase = .idle := by
      cases hp : (s.impl s.cur).phase with
      | none => exact absurd hp j3
      | idle => rfl
      | inside => exact absurd hp j4
      | pending c =>
        have := i.flight.mpr ⟨c, hp⟩
        rw [hfl] at this; cases this
    have hl : ∃ s1 o1, step s (.exit s.cur) = some (s1, o1) ∧ s1.joining = none := by
      simp [step, hd, hp, j2, hj]
    obtain ⟨s1, o1, hl, hj1⟩ := hl
    have hs1 := step_handlers hl ⟨_, Or.inr rfl⟩
    have i1 := inv_step i hl (hs1.2.trans hd)
    obtain ⟨es, s', c, h1, h2, h3⟩ := unjoined_ticks i1 (hs1.2.trans hd) (k := k) hm hk ha hj1
    refine ⟨.exit s.cur :: es, s', _, c, by simp; omega, ?_, run_cons hl h3, ?_⟩
    · intro e he
      rcases List.mem_cons.mp he with rfl | he
      · rfl
      · exact h2 e he
    · intro x hx
      refine List.mem_append.mpr (Or.inr ?_)
      have := fin c x hx
      unfold invokeAll at this ⊢
      rw [hs1.1]; exact this

/-- **C67 fails: adding a handler blocks for ever.** A handler is added (the first call with a timeout of another RPC client) while a tick is on its way:
the thread holds the mutex and waits for the timer thread, which waits for the mutex. In every continuation, `AddNextSimStepHandler` does not return, no
handler is called, and no other use of the time (`Now()`, which every message needs) returns. -/
theorem C67_add_deadlocks {n : Nat} {es : List Event} {s'' : State} {o' : List Out} (hr : run init h = some (s, os))
    (hf : (view h).inFlight = true) (he : step s (.add (.app n)) = some (s', o)) (hc : run s' es = some (s'', o')) :
    o = [] ∧ (∀ x ∈ o', ∃ p, x = .exited p) := by
  have hd := step_alive he
  have i := inv_of_run hr hd
  obtain ⟨c, hp⟩ := i.flight.mp hf
  have hk : (s.impl s.cur).kind ≠ .syncTime := by
    intro hk
    have := i.sync hk
    rw [hp] at this; cases this
  unfold step at he
  split at he
  · cases he
  · dsimp only at he
    split at he
    · simp [add, if_neg hk, hp] at he
      obtain ⟨e1, e2⟩ := he
      subst e1
      refine ⟨e2, (stuck_run es (s := _) ⟨?_, ?_, ?_, ?_⟩ hc).2.2⟩
      · intro h; cases h
      · intro h; cases h
      · exact ⟨c, by simp [TimeProvider.set]⟩
      · intro p hpc
        have hpc : p ≠ s.cur := hpc
        simpa [TimeProvider.set, hpc] using (i.old p hpc).1
    · cases he

/-- **C67 fails: adding a handler in a handler ends the process.** In a handler that is called by the current timer (for instance on a timeout), the first
call with a timeout of another RPC client joins the timer thread from itself. -/
theorem C67_add_in_handler_terminates {p : Nat} {t : Thread} {s1 : State} {o1 : List Out} (hr : run init h = some (s, os))
    (hp : p = (view h).configured) (he : step s (.enter p) = some (s1, o1)) (ht : t = .timer p) (ha : step s1 (.add t) = some (s', o)) :
    o = [.terminated] ∧ ∀ e, step s' e = none := by
  have hd := step_alive he
  have i := inv_of_run hr hd
  have i1 := inv_step i he (step_alive ha)
  have hc1 : s1.cur = p := by rw [i1.cur, hp]; simp [View.next, hp]
  subst ht
  have hph : (s1.impl s1.cur).phase = .inside := by
    rw [hc1]
    unfold step at he
    split at he
    · cases he
    · dsimp only at he
      split at he
      · split at he
        · cases he; simp [TimeProvider.set]
        · cases he
      · cases he
  have hk : (s1.impl s1.cur).kind ≠ .syncTime := by
    intro hk
    have := i1.sync hk
    rw [hph] at this; cases this
  unfold step at ha
  split at ha
  · cases ha
  · dsimp only at ha
    split at ha
    · rw [hc1] at hk hph
      simp [add, hc1, hk, hph] at ha
      obtain ⟨e1, e2⟩ := ha
      subst e1
      exact ⟨e2.symm, fun e => by simp [step]⟩
    · cases ha

/-- **C67 fails: handlers are forgotten.** When a kind of time driven by a timer is configured (again, by starting the lifecycle without synchronized
time), its timer is started with the next handler added only. Handlers that were added before are not called, in any continuation, until then: the timeouts
of their RPC clients do not occur. -/
theorem C67_handlers_forgotten {es : List Event} {t : Thread} {k : Kind} {o' : List Out} (hr : run init (h ++ [.configure t k]) = some (s, os))
    (hc : (view (h ++ [.configure t k])).calm = true) (hk : k ≠ .syncTime) (hes : ∀ e ∈ es, ∀ t, e ≠ .add t)
    (hes' : ∀ e ∈ es, ∀ t k, e ≠ .configure t k) (he : run s es = some (s', o')) : ∀ x ∈ o', isCall x = false :=
  forgotten hr hc hk hes hes' he

end

/-- An RPC client with a timeout before the lifecycle is started, without and with time synchronization. -/
def exTicks : List Event := [.configure (.app 0) .noSync, .add (.app 0), .tick 1 500, .enter 1, .leave 1]

/-- What a schedule shows, if all of its events are possible. -/
def shows (h : List Event) : Option (List Out) := (run init h).map (·.2)

example : shows (exTicks ++ [.configure (.app 0) .syncTime, .exit 1, .add (.app 1), .now (.app 2) 7, .setTime (.app 3) 0 1000, .setTime (.app 3) 1000 1000,
      .now (.app 2) 7])
    = some [.added 0, .called 0 500 100000, .exited 1, .added 1, .isNow none, .called 0 0 1000, .called 1 0 1000, .called 0 1000 1000,
        .called 1 1000 1000, .isNow (some 1000)]
    ∧ (view (exTicks ++ [.configure (.app 0) .syncTime])).calm = true := by decide +kernel

/-- A second handler, added while the timer waits. -/
example : shows (exTicks ++ [.add (.app 1), .exit 1, .tick 1 900, .enter 1])
    = some [.added 0, .called 0 500 100000, .exited 1, .added 1, .called 0 900 100000, .called 1 900 100000] := by decide +kernel

/-- The premises of `C67_add_deadlocks` and of `C67_add_in_handler_terminates` are met. -/
example : (view [.configure (.app 0) .noSync, .add (.app 0), .tick 1 500]).inFlight = true
    ∧ shows [.configure (.app 0) .noSync, .add (.app 0), .tick 1 500, .add (.app 1)] = some [.added 0]
    ∧ shows [.configure (.app 0) .noSync, .add (.app 0), .tick 1 500, .add (.app 1), .now (.app 2) 0] = none
    ∧ shows [.configure (.app 0) .noSync, .add (.app 0), .tick 1 500, .enter 1, .add (.timer 1)]
      = some [.added 0, .called 0 500 100000, .terminated] := by decide +kernel

/-- The premises of `C67_handlers_forgotten` are met: the client was told about ticks before, and is not told afterwards. -/
example : (view (exTicks ++ [.configure (.app 0) .noSync])).calm = true
    ∧ shows (exTicks ++ [.configure (.app 0) .noSync, .exit 1, .setTime (.app 0) 1 1]) = some [.added 0, .called 0 500 100000, .exited 1]
    ∧ shows (exTicks ++ [.configure (.app 0) .noSync, .exit 1, .tick 2 900]) = none := by decide +kernel

/-- **C67 fails: a tick of the time of the computer in synchronized time.** A tick that is on its way when synchronized time is configured calls the
handlers afterwards, with the time of the computer and the period of the timer instead of those of the simulation. -/
theorem C67_stale_tick :
    (view [.configure (.app 0) .noSync, .add (.app 0), .tick 1 1700000000, .configure (.app 0) .syncTime, .setTime (.app 1) 0 1000]).mode = some .syncTime
    ∧ shows [.configure (.app 0) .noSync, .add (.app 0), .tick 1 1700000000, .configure (.app 0) .syncTime, .setTime (.app 1) 0 1000, .enter 1]
      = some [.added 0, .called 0 0 1000, .called 0 1700000000 100000] := by decide +kernel

/-- **C67 fails: durations are not the time that has passed.** Two ticks between which ten seconds have passed on the clock of the computer are told as
100 µs each: timeouts occur late. -/
theorem C67_durations_drift :
    shows [.configure (.app 0) .noSync, .add (.app 0), .tick 1 0, .enter 1, .leave 1, .tick 1 10000000000, .enter 1]
      = some [.added 0, .called 0 0 100000, .called 0 10000000000 100000] := by decide +kernel

end SilKit.Props
