import Verif.Lemmas.RawStream
/-!
# C55: the byte stream of a connection

For all interleavings of any threads that use the stream with the I/O thread, all portions and errors of the socket, and all points at which the stream
is shut down.
-/
namespace SilKit.Props.RawStream
open SilKit.RawStream

/-- Two portions are requested, written and read; then the peer closes the connection. -/
def exampleOps : List Op :=
  [.asyncRead 4, .asyncWrite [1, 2, 3], .receive [7, 8, 9, 10, 11, 12], .readComplete .again 0, .writeComplete .success 2, .readComplete .success 3,
    .call, .asyncWrite [3], .readComplete .success 3, .call, .asyncRead 4, .shutdown, .writeComplete .success 1, .call,
    .readComplete .failure 0, .runPosted, .call, .asyncRead 3]

example : (run exampleOps).log =
    [.readRequest 4, .writeRequest [1, 2, 3], .called (.writeDone [1, 2]), .writeRequest [3], .called (.readDone [7, 8, 9]), .readRequest 4,
      .called .shutdown] := by decide +kernel

/-! ## Completions -/

/-- Full claim: requests and completions take turns, a completion fits its request, and a second request while one is open is refused. Proved for users
that do not make a second request before the completion of the first one was reported; missing is the refusal in the short time between
the completion and its report (`second_request_is_accepted_before_the_report`). -/
theorem requests_and_completions_take_turns_partial (ops : List Op) (h : Orderly ops) :
    ReadsTakeTurns none (run ops).log ∧ WritesTakeTurns none (run ops).log :=
  ⟨(turns_run ops h).readTurns, (turns_run ops h).writeTurns⟩

example : ReadsTakeTurns none (run [.asyncRead 4, .receive [7, 8, 9], .readComplete .success 2, .call, .asyncRead 1]).log := by
  refine (requests_and_completions_take_turns_partial _ ⟨?_, ?_⟩).1
  · intro l n r e
    match l, e with
    | [], e => decide
    | [a, b, c, d], e =>
      simp only [List.cons_append, List.nil_append, List.cons.injEq] at e
      obtain ⟨rfl, rfl, rfl, rfl, _⟩ := e
      decide +kernel
    | [a], e => simp at e
    | [a, b], e => simp at e
    | [a, b, c], e => simp at e
    | a :: b :: c :: d :: x :: l, e => simp at e
  · intro l d r e
    have : Op.asyncWrite d ∈ [Op.asyncRead 4, .receive [7, 8, 9], .readComplete .success 2, .call, .asyncRead 1] := by rw [e]; simp
    simp at this

/-- While the stream does not shut down, a request is not lost: as long as its completion was not reported, the operation is going on or the I/O thread
is about to report it. -/
theorem request_is_not_lost (ops : List Op) (h : Orderly ops) (hs : (run ops).shutdownPending = false) :
    (openRead none (run ops).log ≠ none → (run ops).readStarted = true ∨ ∃ d, (run ops).inCall = some (.readDone d)) ∧
      (openWrite none (run ops).log ≠ none → (run ops).writeStarted = true ∨ ∃ d, (run ops).inCall = some (.writeDone d)) := by
  have t := turns_run ops h
  have i := inv_run ops
  constructor
  · intro ho
    rw [i.readStarted]
    rcases Bool.eq_false_or_eq_true (run ops).reading with hr | hr
    · exact .inl hr
    · exact .inr (Classical.byContradiction fun hn => ho (t.readFree hs hr fun d hd => hn ⟨d, hd⟩))
  · intro ho
    rw [i.writeStarted]
    rcases Bool.eq_false_or_eq_true (run ops).writing with hr | hr
    · exact .inl hr
    · exact .inr (Classical.byContradiction fun hn => ho (t.writeFree hs hr fun d hd => hn ⟨d, hd⟩))

example : (run [.asyncRead 4]).shutdownPending = false ∧ openRead none (run [.asyncRead 4]).log = some 4 := by decide +kernel

/-- DEVIATION: between the completion of a read and its report, another read is accepted; its buffers replace those that the listener is told about. -/
theorem second_request_is_accepted_before_the_report :
    ¬ ReadsTakeTurns none (run [.receive [7], .asyncRead 4, .readComplete .success 1, .asyncRead 2]).log ∧
      (asyncRead (run [.receive [7], .asyncRead 4, .readComplete .success 1]) 2).2 = false := by
  constructor
  · have e : (run [.receive [7], .asyncRead 4, .readComplete .success 1, .asyncRead 2]).log = [.readRequest 4, .readRequest 2] := by decide +kernel
    rw [e]
    simp [ReadsTakeTurns]
  · decide +kernel

/-- At all other times it is refused with an exception, and changes nothing. -/
theorem second_request_is_refused (ops : List Op) (hs : (run ops).shutdownPending = false) (hr : (run ops).readStarted = true) (n : Nat) :
    asyncRead (run ops) n = (run ops, true) := by
  unfold asyncRead
  rw [if_neg (by simp [hs]), if_pos (by rw [← (inv_run ops).readStarted]; exact hr)]

example : asyncRead (run [.asyncRead 4]) 2 = (run [.asyncRead 4], true) := by decide +kernel

theorem second_write_is_refused (ops : List Op) (hs : (run ops).shutdownPending = false) (hr : (run ops).writeStarted = true) (d : Bytes) :
    asyncWrite (run ops) d = (run ops, true) := by
  unfold asyncWrite
  rw [if_neg (by simp [hs]), if_pos (by rw [← (inv_run ops).writeStarted]; exact hr)]

example : asyncWrite (run [.asyncWrite [4]]) [2] = (run [.asyncWrite [4]], true) := by decide +kernel

/-! ## The bytes -/

/-- The listener gets what the peer sent, from the beginning on, in order, nothing twice and nothing else. -/
theorem listener_gets_what_was_sent (ops : List Op) : readData (run ops).log <+: receivedBy ops := by
  obtain ⟨rest, h, _⟩ := (inv_run ops).readBytes
  exact ⟨callRead (run ops).inCall ++ rest, by rw [h]; simp⟩

example : readData (run exampleOps).log = [7, 8, 9] ∧ receivedBy exampleOps = [7, 8, 9, 10, 11, 12] := by decide +kernel

/-- While the stream does not shut down, what the listener does not have yet is about to be reported or still waits for a read. -/
theorem nothing_received_is_lost (ops : List Op) (hs : (run ops).shutdownPending = false) :
    receivedBy ops = readData (run ops).log ++ (match (run ops).inCall with | some (.readDone d) => d | _ => []) ++ (run ops).incoming := by
  obtain ⟨rest, h, h'⟩ := (inv_run ops).readBytes
  rw [h, h' hs]
  cases hc : (run ops).inCall with
  | none => rfl
  | some c => cases c <;> rfl

/-- What is reported as written was handed over to the peer, in order, nothing twice; and nothing else was handed over while the stream does not shut
down, except for what is about to be reported. -/
theorem written_is_handed_over (ops : List Op) :
    writtenData (run ops).log <+: (run ops).outgoing ∧
      ((run ops).shutdownPending = false →
        (run ops).outgoing = writtenData (run ops).log ++ (match (run ops).inCall with | some (.writeDone d) => d | _ => [])) := by
  obtain ⟨rest, h, h'⟩ := (inv_run ops).writeBytes
  refine ⟨⟨callWrite (run ops).inCall ++ rest, by rw [h]; simp⟩, fun hs => ?_⟩
  rw [h, h' hs, List.append_nil]
  cases hc : (run ops).inCall with
  | none => rfl
  | some c => cases c <;> rfl

example : writtenData (run exampleOps).log = [1, 2] ∧ (run exampleOps).outgoing = [1, 2, 3] := by decide +kernel
example : (run (exampleOps.take 10)).shutdownPending = false ∧ (run (exampleOps.take 10)).outgoing = [1, 2] := by decide +kernel

/-! ## The end -/

/-- The end is reported at most once, and it is the last thing that happens. -/
theorem end_is_reported_once_and_last (ops : List Op) : EndsOnce (run ops).log := (inv_run ops).ends

/-- It is not reported without a reason. -/
theorem end_has_a_reason (ops : List Op) (h : .called .shutdown ∈ (run ops).log) : ∃ o ∈ ops, isEnd o = true := by
  apply Classical.byContradiction
  intro hn
  have hp := not_pending_run ops (fun o ho => by
    cases e : isEnd o with
    | false => rfl
    | true => exact absurd ⟨o, ho, e⟩ hn)
  rw [(quiet_of_ended (inv_run ops) h).2] at hp
  cases hp

example : .called .shutdown ∈ (run exampleOps).log := by decide +kernel

/-- After a shutdown was requested, whatever happens before and after it, the end is reported as soon as the I/O thread has no more work to do. -/
theorem end_is_reported_when_idle (ops ops' : List Op) (hq : Quiet (run (ops ++ .shutdown :: ops'))) :
    .called .shutdown ∈ (run (ops ++ .shutdown :: ops')).log := by
  refine ended_of_quiet (inv_run _) ?_ hq
  rw [run_append]
  exact pending_foldl (pending_handle _) _

/-- And the I/O thread gets there with one round of steps: the socket may end the operations in any way. -/
theorem end_is_reported_after_one_round (ops ops' : List Op) (c c' : Code) (n n' : Nat) :
    .called .shutdown ∈
      (run (ops ++ .shutdown :: ops' ++ [.call, .readComplete c n, .writeComplete c' n', .runPosted, .call])).log := by
  rw [run_append]
  exact drain (inv_run _) (by rw [run_append]; exact pending_foldl (pending_handle _) _) c c' n n'

/-- The same after an operation failed. -/
theorem end_is_reported_after_a_failure (ops ops' : List Op) (k : Nat) (hi : (run ops).inCall = none) (hs : (run ops).readStarted = true)
    (c c' : Code) (n n' : Nat) :
    .called .shutdown ∈
      (run (ops ++ .readComplete .failure k :: ops' ++ [.call, .readComplete c n, .writeComplete c' n', .runPosted, .call])).log := by
  rw [run_append]
  refine drain (inv_run _) ?_ c c' n n'
  rw [run_append]
  refine pending_foldl ?_ ops'
  rcases pending_of_end (inv_run ops) (o := .readComplete .failure k) rfl with h | h
  · exact h
  · have e := h.1
    unfold step at e
    simp only [hi, hs, and_self, if_true] at e
    have hr : (run ops).reading = true := by rw [← (inv_run ops).readStarted]; exact hs
    have : (socketRead (run ops) .failure 0).shutdownPending = true := by
      unfold socketRead onRead afterRead
      simp only [hr, or_true, if_true]
      exact pending_handle _
    unfold step
    simp only [hi, hs, and_self, if_true]
    exact this

theorem end_is_reported_after_a_failed_write (ops ops' : List Op) (k : Nat) (hi : (run ops).inCall = none) (hs : (run ops).writeStarted = true)
    (c c' : Code) (n n' : Nat) :
    .called .shutdown ∈
      (run (ops ++ .writeComplete .failure k :: ops' ++ [.call, .readComplete c n, .writeComplete c' n', .runPosted, .call])).log := by
  rw [run_append]
  refine drain (inv_run _) ?_ c c' n n'
  rw [run_append]
  refine pending_foldl ?_ ops'
  have hr : (run ops).writing = true := by rw [← (inv_run ops).writeStarted]; exact hs
  unfold step
  simp only [hi, hs, and_self, if_true]
  unfold socketWrite onWrite afterWrite
  simp only [hr, or_true, if_true]
  exact pending_handle _

example : (run [.asyncRead 4, .asyncWrite [1]]).readStarted = true ∧ (run [.asyncRead 4, .asyncWrite [1]]).writeStarted = true ∧
    (run [.asyncRead 4, .asyncWrite [1]]).inCall = none := by decide +kernel

/-- When the end is reported, no operation, no posted call and no other report is left, and there never will be again: the stream can be destroyed. -/
theorem nothing_is_left_after_the_end (ops ops' : List Op) (h : .called .shutdown ∈ (run ops).log) :
    (run (ops ++ ops')).readStarted = false ∧ (run (ops ++ ops')).writeStarted = false ∧ (run (ops ++ ops')).posted = 0 ∧
      (run (ops ++ ops')).inCall = none := by
  have hm : .called .shutdown ∈ (run (ops ++ ops')).log := by
    suffices g : ∀ l : List Op, .called .shutdown ∈ (run (ops ++ l.reverse)).log by simpa using g ops'.reverse
    intro l
    induction l with
    | nil => simpa using h
    | cons o l ih =>
      rw [List.reverse_cons, ← List.append_assoc, run_concat]
      obtain ⟨⟨h1, h2, h3, h4⟩, h5⟩ := quiet_of_ended (inv_run _) ih
      cases o with
      | asyncRead size => show _ ∈ (asyncRead _ size).1.log; rw [asyncRead, if_pos h5]; exact ih
      | asyncWrite data => show _ ∈ (asyncWrite _ data).1.log; rw [asyncWrite, if_pos h5]; exact ih
      | shutdown => show _ ∈ (handleShutdown _).log; rw [(log_handle _).1]; exact ih
      | receive data => exact ih
      | readComplete code n => unfold step; simp only [h2, Bool.false_eq_true, and_false, if_false]; exact ih
      | writeComplete code n => unfold step; simp only [h3, Bool.false_eq_true, and_false, if_false]; exact ih
      | runPosted => unfold step; simp only [h4, ne_eq, not_true_eq_false, and_false, if_false]; exact ih
      | call => unfold step; rw [h1]; exact ih
  obtain ⟨⟨h1, h2, h3, h4⟩, _⟩ := quiet_of_ended (inv_run _) hm
  exact ⟨h2, h3, h4, h1⟩

/-- The completions never find the stream in a state that they do not expect: no exception is thrown on the I/O thread. -/
theorem completions_do_not_throw (ops : List Op) : (run ops).invalid = false := (inv_run ops).valid

/-! ## What a shutdown loses -/

/-- DEVIATION (or a limit that a user has to know): once the stream shuts down, for whatever reason, nothing more is delivered of what the peer has sent
before, not even if a read is going on. -/
theorem nothing_is_delivered_after_shutdown (ops ops' : List Op) (h : (run ops).inCall = none) :
    readData (run (ops ++ .shutdown :: ops')).log = readData (run ops).log ∧
      writtenData (run (ops ++ .shutdown :: ops')).log = writtenData (run ops).log := by
  rw [run_append]
  obtain ⟨l1, _, _, l4, _⟩ := log_handle (run ops)
  have := frozen_foldl (inv_step (inv_run ops) .shutdown) (pending_handle (run ops)) (.inl (l4.trans h)) ops'
  rw [show (step (run ops) .shutdown).log = (run ops).log from l1] at this
  exact this

/-- In particular, a write that fails because the peer has closed the connection discards what the peer sent before it did so. -/
theorem failed_write_discards_received_data (ops ops' : List Op) (k : Nat) (h : (run ops).inCall = none) (hw : (run ops).writeStarted = true) :
    readData (run (ops ++ .writeComplete .failure k :: ops')).log = readData (run ops).log := by
  rw [run_append]
  have hr : (run ops).writing = true := by rw [← (inv_run ops).writeStarted]; exact hw
  have e : step (run ops) (.writeComplete .failure k) =
      handleShutdown { run ops with writeStarted := false, writing := false, outgoing := (run ops).outgoing ++ (run ops).writeBuffer.take 0 } := by
    unfold step
    simp only [h, hw, and_self, if_true]
    unfold socketWrite onWrite afterWrite
    simp only [hr, h, or_true, if_true]
  obtain ⟨l1, _, _, l4, _⟩ :=
    log_handle { run ops with writeStarted := false, writing := false, outgoing := (run ops).outgoing ++ (run ops).writeBuffer.take 0 }
  have hi := inv_step (inv_run ops) (.writeComplete .failure k)
  have hp : (step (run ops) (.writeComplete .failure k)).shutdownPending = true := by rw [e]; exact pending_handle _
  have := (frozen_foldl hi hp (.inl (by rw [e]; exact l4.trans h)) ops').1
  rw [show (step (run ops) (.writeComplete .failure k)).log = (run ops).log from by rw [e]; exact l1] at this
  exact this

example : (run [.asyncRead 4, .asyncWrite [1], .receive [7, 8]]).incoming = [7, 8] ∧ (run [.asyncRead 4, .asyncWrite [1], .receive [7, 8]]).writeStarted = true ∧
    (run [.asyncRead 4, .asyncWrite [1], .receive [7, 8]]).inCall = none := by decide +kernel

end SilKit.Props.RawStream
