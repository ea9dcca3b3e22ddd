import Verif.Lemmas.JoiningWait
/-!
# Joining: connecting to the known participants (C26)

The registry names the participants `known` (any list; repetitions do not matter). `h` is an arbitrary schedule of the two threads
that work on joining - the user's thread, which starts the attempts and then looks at the stages once, and the I/O thread, which handles
successes and failures of attempts, timeouts, answers to requests for a remote connection, and handshake replies - interleaved at every
access to a shared variable. `trace known h` lists what happens; `result b` is the completion of the outcome that joining waits for.
-/
namespace SilKit.Props
open SilKit.Joining SilKit.Joining.Spec

/-- Joining is reported as successful only if a handshake reply of every known participant was received, each of them before
the report. -/
theorem C26_success_means_all_replied (known : List String) (h : List Event) :
    (Out.result true ∈ trace known h → ∀ n ∈ known, Event.reply n ∈ h) ∧
    (∀ a b, trace known h = a ++ .notified true :: b → ∀ n ∈ known, Out.replied n ∈ a) := by
  have i := all_run known h
  refine ⟨?_, ?_⟩
  · intro hr n hn
    have ha := i.inv.succ (i.inv.resN true hr)
    obtain ⟨st, hst⟩ := (i.inv.names n).1 hn
    have : st = .replyReceived := ha _ hst
    subst this
    exact i.rep n ((i.inv.rep n).1 hst)
  · intro a b e n hn
    have := i.inv.order a true b e
    simp only [if_true] at this
    exact this n hn

/-- Joining is reported as failed only if the attempts to reach some known participant were given up. -/
theorem C26_failure_means_one_given_up (known : List String) (h : List Event) :
    Out.result false ∈ trace known h → ∃ n ∈ known, ∃ e ∈ h, GivesUp n e := by
  intro hr
  have i := all_run known h
  obtain ⟨⟨n, st⟩, hx, e⟩ := i.inv.notF (i.inv.resN false hr)
  have : st = .failure := e
  subst this
  exact ⟨n, (i.inv.names n).2 ⟨_, hx⟩, i.fail n ((i.inv.fail n).1 hx)⟩

/-- The outcome is reported at most once: never two successes, never two failures, never a failure and a success. -/
theorem C26_reported_at_most_once (known : List String) (h : List Event) : ((trace known h).filter isResult).length ≤ 1 := by
  have i := all_run known h
  cases hc : (run known h).1.completed
  · rw [show (trace known h).filter isResult = [] from i.inv.res0 hc]; simp
  · obtain ⟨r, e⟩ := i.inv.res1 hc
    rw [show (trace known h).filter isResult = _ from e]; simp

theorem notified_result {known : List String} {h : List Event} {r : Bool} (hn : Out.notified r ∈ trace known h) : Out.result r ∈ trace known h := by
  have i := all_run known h
  obtain ⟨r', e⟩ := i.inv.res1 (i.inv.resC r hn)
  have hm : Out.result r' ∈ (run known h).2 := (List.mem_filter.1 (show Out.result r' ∈ (run known h).2.filter isResult by rw [e]; simp)).1
  have hn' := i.inv.resN r' hm
  cases r <;> cases r'
  · exact hm
  · exact absurd (i.inv.notF hn) (not_someF_of_allR (i.inv.succ hn'))
  · exact absurd (i.inv.notF hn') (not_someF_of_allR (i.inv.succ hn))
  · exact hm

/-- The two threads never disagree: not even the attempts to report (all but the first are ignored) contradict each other. -/
theorem C26_threads_agree (known : List String) (h : List Event) :
    ¬ (Out.notified true ∈ trace known h ∧ Out.notified false ∈ trace known h) := by
  rintro ⟨h1, h2⟩
  have i := all_run known h
  exact not_someF_of_allR (i.inv.succ h1) (i.inv.notF h2)

/-- Once every known participant has replied and neither thread has anything left to do, success has been reported - whatever the
interleaving of the two threads was. -/
theorem C26_success_is_reported (known : List String) (h : List Event) (hq : Quiet known h)
    (ha : ∀ n ∈ known, Out.replied n ∈ trace known h) : (trace known h).filter isResult = [.result true] := by
  have i := all_run known h
  have hall : AllR (run known h).1.peers := by
    rintro ⟨n, st⟩ hx
    exact i.inv.uniq.eq hx ((i.inv.rep n).2 (ha n ((i.inv.names n).2 ⟨_, hx⟩)))
  have hn : Out.notified true ∈ trace known h := by
    rcases i.inv.live hall with h | h | h
    · exact h
    · exact absurd hq.1 h
    · exact absurd hq.2 h
  obtain ⟨r, e⟩ := i.inv.res1 (i.inv.resC true hn)
  have : Out.result true ∈ (trace known h).filter isResult := List.mem_filter.2 ⟨notified_result hn, rfl⟩
  rw [show (trace known h).filter isResult = _ from e] at this ⊢
  simp at this
  rw [this]

/-- If some known participant could not be reached and neither thread has anything left to do, failure has been reported. -/
theorem C26_failure_is_reported (known : List String) (h : List Event) (hq : Quiet known h)
    (hf : ∃ n, Out.failed n ∈ trace known h) : (trace known h).filter isResult = [.result false] := by
  have i := all_run known h
  obtain ⟨n, hf⟩ := hf
  have hn : Out.notified false ∈ trace known h := by
    rcases i.inv.liveF ⟨_, (i.inv.fail n).2 hf, rfl⟩ with h | h | h
    · exact h
    · rw [hq.1] at h; exact absurd h id
    · rw [hq.2] at h; exact absurd h id
  obtain ⟨r, e⟩ := i.inv.res1 (i.inv.resC false hn)
  have : Out.result false ∈ (trace known h).filter isResult := List.mem_filter.2 ⟨notified_result hn, rfl⟩
  rw [show (trace known h).filter isResult = _ from e] at this ⊢
  simp at this
  rw [this]

/-- The user's thread starts `n` attempts and looks at the stages. -/
def userStarts (n : Nat) : List Event := List.replicate (n + 12) .user
/-- The I/O thread handles an event to its end. -/
def ioDoes (e : Event) : List Event := e :: List.replicate 12 .io

/-- Two participants: one is reached directly, the other one connects back on request; both reply. -/
example : Quiet ["a", "b"] (userStarts 2 ++ ioDoes (.connected "a") ++ ioDoes (.connectFailed "b" true false) ++ ioDoes (.reply "a")
      ++ ioDoes (.remoteIsConnecting "b") ++ ioDoes (.remoteAnnouncement "b") ++ ioDoes (.reply "b")) ∧
    (∀ n ∈ ["a", "b"], Out.replied n ∈ trace ["a", "b"] (userStarts 2 ++ ioDoes (.connected "a") ++ ioDoes (.connectFailed "b" true false)
      ++ ioDoes (.reply "a") ++ ioDoes (.remoteIsConnecting "b") ++ ioDoes (.remoteAnnouncement "b") ++ ioDoes (.reply "b"))) := by
  unfold Quiet
  decide +kernel

/-- Nobody to connect to: success at once. -/
example : Quiet [] (userStarts 0) ∧ (trace [] (userStarts 0)).filter isResult = [.result true] := by unfold Quiet; decide +kernel

/-- One participant cannot be reached in any way. -/
example : Quiet ["a", "b"] (userStarts 2 ++ ioDoes (.connected "a") ++ ioDoes (.connectFailed "b" true false) ++ ioDoes (.timer "b" false)) ∧
    Out.failed "b" ∈ trace ["a", "b"] (userStarts 2 ++ ioDoes (.connected "a") ++ ioDoes (.connectFailed "b" true false)
      ++ ioDoes (.timer "b" false)) := by
  unfold Quiet
  decide +kernel

/-- Observation: both threads can find at the same time that all replies are there; both try to report. The second attempt is absorbed by the
promise, which throws and whose exception is swallowed. -/
theorem C26_both_threads_report : ∃ h : List Event, (trace ["a"] h).count (.notified true) = 2 ∧
    (trace ["a"] h).filter isResult = [.result true] := by
  refine ⟨[.user, .connected "a"] ++ List.replicate 12 .io ++ [.user, .user, .user, .reply "a", .io, .io, .io, .io, .io,
    .user, .user, .user, .user, .user, .user, .io, .io, .user, .user, .io, .io, .user, .io], ?_⟩
  decide +kernel

/-- The code disagrees with the expectation that joining ends: a participant that has answered "I am connecting" to our request and
then never does is waited for forever, since the timeout is ignored in that stage; and the first part of joining has no timeout of
its own. Nothing is left to do, and no outcome and no start of the (time-limited) wait for replies is reported. -/
theorem C26_silent_remote_is_not_noticed : ∃ h : List Event, Quiet ["a"] h ∧
    (∀ e ∈ [Event.timer "a" false, .connected "a", .connectFailed "a" true false, .reply "a", .remoteIsConnecting "a"],
      on (run ["a"] h).1 e = ((run ["a"] h).1, [])) ∧
    ∀ b, Out.result b ∉ trace ["a"] h ∧ Out.startWaiting b ∉ trace ["a"] h := by
  refine ⟨userStarts 1 ++ ioDoes (.connectFailed "a" true false) ++ ioDoes (.remoteIsConnecting "a"), ?_⟩
  unfold Quiet
  decide +kernel

/-- The user's thread, which waits for the end of the attempts first and for the outcome then, is told at most once to go on, and not forgotten: if the outcome has been reported and
neither thread has anything left to do, it has been told. -/
theorem C26_user_is_woken_once (known : List String) (h : List Event) :
    ((trace known h).filter isStartWaiting).length ≤ 1 ∧ (Quiet known h → ∀ r, .result r ∈ trace known h → ∃ ok, .startWaiting ok ∈ trace known h) := by
  have w := waits_run known h
  refine ⟨by rw [show trace known h = (run known h).2 from rfl, w.count]; cases (run known h).1.started <;> decide, fun hq r hr => ?_⟩
  have hs : (run known h).1.started = true := by
    rcases w.done (w.result r hr) with e | e | e
    · exact e
    · rw [hq.1] at e; cases e
    · rw [hq.2] at e; cases e
  have hc := w.count
  rw [hs] at hc
  have hne : (run known h).2.filter isStartWaiting ≠ [] := fun e => by rw [e] at hc; cases hc
  obtain ⟨o, ho⟩ := List.exists_mem_of_ne_nil _ hne
  have ho := List.mem_filter.1 ho
  cases o with
  | startWaiting ok => exact ⟨ok, ho.1⟩
  | _ => cases ho.2

/-- A participant cannot be reached after all others have been: the user's thread is told about the failure, once. -/
example : (trace ["a", "b"] (userStarts 2 ++ ioDoes (.connected "a") ++ ioDoes (.connectFailed "b" true false) ++ ioDoes (.timer "b" false))).filter isStartWaiting = [.startWaiting false] ∧
    (trace ["a"] (userStarts 1 ++ ioDoes (.connected "a") ++ ioDoes (.reply "a"))).filter isStartWaiting = [.startWaiting true] := by decide +kernel

end SilKit.Props
