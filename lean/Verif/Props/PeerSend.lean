import Verif.Lemmas.PeerSend
/-!
# C04, C05 – outgoing messages of a connection

A history is an arbitrary list of events: messages being sent, runs of the posted write functor, write completions of
arbitrary size, expiries of the aggregation timer, enabling of aggregation, shutdown.
-/
namespace SilKit.Props
open Spec PeerSend

/-- **C04 (order, no loss).** Without message aggregation and until the connection is shut down, the bytes accepted by
the socket followed by the bytes still to be written are exactly the messages sent, in order. -/
theorem C04_outgoing_bytes_faithful (es : List Event) (hs : .shutdown ∉ es) (ha : .enableAgg ∉ es) :
    ∃ rest, (run {} es).wire ++ rest = bytesOf (sent es) ∧
      rest = (run {} es).current ++ (run {} es).sendingQueue.flatten := by
  obtain ⟨o, hd, h⟩ := run_open es hs (init_open false)
  have hu := run_useAgg es ha { useAggregation := false } rfl
  obtain ⟨rfl, _⟩ := h.noAgg hu
  refine ⟨_, ?_, rfl⟩
  have := h.bytes
  simpa [handed] using this

/-- **C04 (with shutdown).** In every history without aggregation, shut down at any point, the bytes on the wire are a
prefix of the concatenation of the messages sent. -/
theorem C04_wire_is_prefix (es : List Event) (ha : .enableAgg ∉ es) :
    (run {} es).wire <+: bytesOf (sent es) := by
  have hu := run_useAgg es ha { useAggregation := false } rfl
  have h := run_inv es (base := []) (Or.inl ⟨[], [], init_open false⟩)
  simp only [List.nil_append] at h
  have hw : (run {} es).wire <+: handed (run {} es) := by simp [handed]
  rcases h with ⟨o, hd, h⟩ | ⟨o, h⟩
  · obtain ⟨rfl, _⟩ := h.noAgg hu
    have := h.bytes
    simp only [List.nil_append] at this
    exact this ▸ hw
  · have h2 := h.noAgg hu
    obtain ⟨t, ht⟩ := h2
    refine hw.trans (h.bytes.trans ?_)
    rw [← ht]; simp

/-- **C04 (idle means done).** In every history without shutdown (aggregation on or off): when the I/O thread has nothing
left to do for this connection, everything handed to the socket layer has been written – only data still held back by
the aggregation can be missing. -/
theorem C04_idle_means_written (b : Bool) (es : List Event) (hs : .shutdown ∉ es)
    (hp : (run { useAggregation := b } es).pendingStarts = 0)
    (hw : (run { useAggregation := b } es).sending = false) :
    ∃ out held, (run { useAggregation := b } es).wire = bytesOf out ∧
      (run { useAggregation := b } es).aggregated = bytesOf held ∧
      SameUpToControl (sent es) (out ++ held) := by
  obtain ⟨o, hd, h⟩ := run_open es hs (init_open b)
  refine ⟨o, hd, ?_, h.agg, ⟨by simpa using h.timed, by simpa using h.control⟩⟩
  have hc := h.sched.idle hw
  have hq : (run { useAggregation := b } es).sendingQueue = [] := by
    cases hq : (run { useAggregation := b } es).sendingQueue with
    | nil => rfl
    | cons x q =>
      rcases h.sched.work (by simp [hq]) with h1 | h1
      · rw [hw] at h1; simp at h1
      · omega
  have := h.bytes
  simpa [handed, hc, hq] using this

/-- **C04 (progress).** Every I/O event that can happen (running a posted functor, completing an outstanding write with
at least one byte) strictly decreases the outstanding work, so the I/O thread becomes idle after finitely many of
them. -/
theorem C04_io_progress (b : Bool) (es : List Event) (hs : .shutdown ∉ es) (n : Nat) (hn : 0 < n) :
    (0 < (run { useAggregation := b } es).pendingStarts →
      work (run { useAggregation := b } (es ++ [.runStart])) < work (run { useAggregation := b } es)) ∧
    ((run { useAggregation := b } es).sending = true →
      work (run { useAggregation := b } (es ++ [.writeDone n])) < work (run { useAggregation := b } es)) := by
  obtain ⟨o, hd, h⟩ := run_open es hs (init_open b)
  generalize hst : run { useAggregation := b } es = s at *
  have hrun : ∀ e, run { useAggregation := b } (es ++ [e]) = step s e := by
    intro e; simp only [run, List.foldl_append, List.foldl_cons, List.foldl_nil]; rw [← hst]; rfl
  constructor
  · intro hp
    rw [hrun]
    simp only [step]
    rw [if_neg (by omega)]
    have := work_startAsyncWrite { s with pendingStarts := s.pendingStarts - 1 } h.sched.idle
    refine Nat.lt_of_le_of_lt this ?_
    simp only [work]; omega
  · intro hw
    rw [hrun]
    simp only [step, onAsyncWriteSomeDone, hw, if_true]
    split
    · simp [work, hw]; omega
    · have := work_startAsyncWrite { s with wire := s.wire ++ s.current, sending := false, current := [] } (fun _ => rfl)
      refine Nat.lt_of_le_of_lt this ?_
      simp [work, hw]
      omega

/-- **C05 (nothing lost, duplicated or reordered).** In every history without shutdown, the data that left the
aggregation (on the wire or queued for it) are whole messages `out`, the data held back are whole user-data-class
messages `held`, and `out` followed by `held` contains exactly the messages sent, user data and
step-completion/status messages in the order they were sent, control messages in the order they were sent. -/
theorem C05_aggregation_order (b : Bool) (es : List Event) (hs : .shutdown ∉ es) :
    ∃ out held,
      (run { useAggregation := b } es).wire ++ (run { useAggregation := b } es).current ++
        (run { useAggregation := b } es).sendingQueue.flatten = bytesOf out ∧
      (run { useAggregation := b } es).aggregated = bytesOf held ∧
      (∀ m ∈ held, m.kind ≠ .other) ∧
      SameUpToControl (sent es) (out ++ held) := by
  obtain ⟨o, hd, h⟩ := run_open es hs (init_open b)
  exact ⟨o, hd, by simpa [handed] using h.bytes, h.agg, h.heldKind,
    ⟨by simpa using h.timed, by simpa using h.control⟩⟩

/-- **C05 (flush).** With aggregation enabled, right after a step-completion/status message `m` nothing is held back, and
whatever happens later, on the wire all messages sent up to and including `m` come before all messages sent after `m`. -/
theorem C05_flush_message_is_a_barrier (es es' : List Event) (m : Msg) (hm : m.kind = .flush)
    (hs : .shutdown ∉ es) (hs' : .shutdown ∉ es') (ha : (run {} es).useAggregation = true) :
    (run {} (es ++ [.send m])).aggregated = [] ∧
    ∃ out1 out2 held,
      (run {} (es ++ [.send m] ++ es')).wire ++ (run {} (es ++ [.send m] ++ es')).current ++
        (run {} (es ++ [.send m] ++ es')).sendingQueue.flatten = bytesOf out1 ++ bytesOf out2 ∧
      SameUpToControl (sent es ++ [m]) out1 ∧ SameUpToControl (sent es') (out2 ++ held) := by
  obtain ⟨o, hd, h⟩ := run_open es hs (init_open false)
  obtain ⟨o1, h1⟩ := open_send_flush m h ha hm
  have e1 : run {} (es ++ [.send m]) = sendSilKitMsg (run {} es) m := by
    simp [run, List.foldl_append, step]
  have e2 : run {} (es ++ [.send m] ++ es') = run (sendSilKitMsg (run {} es) m) es' := by
    rw [← e1]; simp [run, List.foldl_append]
  have hagg : (sendSilKitMsg (run {} es) m).aggregated = [] := h1.agg
  refine ⟨by rw [e1]; exact hagg, ?_⟩
  have hu : (sendSilKitMsg (run {} es) m).useAggregation = true := by
    cases hu : (sendSilKitMsg (run {} es) m).useAggregation with
    | true => rfl
    | false =>
      exfalso
      obtain ⟨_, _, _, h4⟩ := open_aggregate m h ha (by simp [hm])
      unfold sendSilKitMsg at hu
      rw [if_neg (by simp [hm]), if_pos ⟨ha, hm⟩] at hu
      have : ∀ t : State, (flush t).useAggregation = t.useAggregation := by
        intro t; simp [flush, sendInternal]; split <;> rfl
      rw [this, h4] at hu
      simp at hu
  have h2 : Open (bytesOf o1) [] (sendSilKitMsg (run {} es) m) [] [] :=
    ⟨h1.sched, by simpa using h1.bytes, h1.agg, rfl, rfl, by simp, by simp, h1.isOpen⟩
  obtain ⟨o2, hd2, h3⟩ := run_open es' hs' h2
  refine ⟨o1, o2, hd2, ?_, ⟨?_, ?_⟩, ⟨?_, ?_⟩⟩
  · rw [e2]; simpa [handed] using h3.bytes
  · simpa using h1.timed
  · simpa using h1.control
  · simpa using h3.timed
  · simpa using h3.control

/-- **C05 (timer).** Whenever the flush timer fires while it is running, nothing is held back afterwards and what was
held back has been queued behind everything handed over before. -/
theorem C05_timer_releases_held_data (b : Bool) (es : List Event) (hs : .shutdown ∉ es)
    (ht : (run { useAggregation := b } es).timerArmed = true) :
    let s := run { useAggregation := b } es
    let s' := run { useAggregation := b } (es ++ [.timer])
    s'.aggregated = [] ∧
    s'.wire ++ s'.current ++ s'.sendingQueue.flatten = s.wire ++ s.current ++ s.sendingQueue.flatten ++ s.aggregated := by
  obtain ⟨o, hd, h⟩ := run_open es hs (init_open b)
  have hrun : run { useAggregation := b } (es ++ [.timer]) = onTimerExpired (run { useAggregation := b } es) := by
    simp [run, List.foldl_append, step]
  have hopen := h.isOpen
  generalize run { useAggregation := b } es = s at *
  simp only [hrun, onTimerExpired, ht, if_true]
  by_cases ha : s.aggregated = []
  · simp [ha]
  · simp [ha, flush, sendInternal, hopen]

/-- **C05 (bounded hold-back).** In every history whatsoever at most 100000 bytes are held back by the aggregation. -/
theorem C05_held_data_is_bounded (b : Bool) (es : List Event) :
    (run { useAggregation := b } es).aggregated.length ≤ 100000 := by
  have hflush : ∀ s : State, (flush s).aggregated = [] := by
    intro s; simp only [flush, sendInternal]; split <;> rfl
  have hagg : ∀ (s : State) bl, (aggregate s bl).aggregated.length ≤ 100000 := by
    intro s bl
    unfold aggregate
    split
    · rw [hflush]; simp
    · rename_i h; simp only [aggregationBufferThreshold] at h; omega
  have hsi : ∀ (s : State) bl, (sendInternal s bl).aggregated = s.aggregated := by
    intro s bl; unfold sendInternal; split <;> rfl
  have hst : ∀ s : State, (startAsyncWrite s).aggregated = s.aggregated := by
    intro s; unfold startAsyncWrite; split
    · rfl
    · split <;> rfl
  suffices h : ∀ s : State, s.aggregated.length ≤ 100000 → (run s es).aggregated.length ≤ 100000 from h _ (by simp)
  induction es with
  | nil => intro s h; exact h
  | cons e es ih =>
    intro s h
    refine ih (step s e) ?_
    cases e with
    | send m =>
      simp only [step, sendSilKitMsg]
      split
      · exact hagg _ _
      · split
        · rw [hflush]; simp
        · rw [hsi]; exact h
    | runStart => simp only [step]; split; exact h; rw [hst]; exact h
    | writeDone n =>
      simp only [step, onAsyncWriteSomeDone]
      split
      · split
        · exact h
        · rw [hst]; exact h
      · exact h
    | timer =>
      simp only [step, onTimerExpired]
      split
      · split
        · rw [hflush]; simp
        · exact h
      · exact h
    | enableAgg => exact h
    | shutdown => exact h

/-- Non-vacuity: with aggregation enabled, two user-data messages and a step completion, a partial write. -/
example : run {} [.enableAgg, .send ⟨.userData, [1, 2]⟩, .send ⟨.other, [9]⟩, .send ⟨.userData, [3]⟩,
      .send ⟨.flush, [4]⟩, .runStart, .writeDone 1, .writeDone 2] =
    { wire := [9, 1, 2], current := [3, 4], sending := true, pendingStarts := 1, useAggregation := true,
      initialTimerStarted := true, timerArmed := true } := by decide +kernel

/-- Disagreement (DESIGN.md §5): control messages are *not* ordered with user data. A control message sent after a
user-data message reaches the wire before it. -/
theorem C05_control_overtakes_user_data :
    (run {} [.enableAgg, .send ⟨.userData, [1]⟩, .send ⟨.other, [9]⟩, .send ⟨.flush, [2]⟩,
      .runStart, .writeDone 1, .runStart, .writeDone 2]).wire = [9, 1, 2] := by decide +kernel

/-- Disagreement (DESIGN.md §5): the flush timer does not guarantee delivery. After the timer has expired once with an
empty buffer it is not running, and the next user-data message is held back with no timer running and no I/O pending,
that is until some later step-completion message. -/
theorem C05_timer_can_be_off_while_data_is_held :
    let s := run {} [.enableAgg, .send ⟨.flush, [1]⟩, .runStart, .writeDone 1, .timer, .send ⟨.userData, [2]⟩]
    s.aggregated = [2] ∧ s.timerArmed = false ∧ s.pendingStarts = 0 ∧ s.sending = false ∧ s.wire = [1] := by
  decide +kernel

end SilKit.Props
