import Verif.Spec.SendOrder
/-! Helper lemmas for the send path. -/
namespace SilKit.PeerSend
open Spec

@[simp] theorem bytesOf_append (a b : List Msg) : bytesOf (a ++ b) = bytesOf a ++ bytesOf b := by simp [bytesOf]
@[simp] theorem bytesOf_single (m : Msg) : bytesOf [m] = m.bytes := by simp [bytesOf]
@[simp] theorem bytesOf_nil : bytesOf [] = [] := rfl
@[simp] theorem timed_append (a b : List Msg) : timed (a ++ b) = timed a ++ timed b := by simp [Spec.timed]
@[simp] theorem control_append (a b : List Msg) : control (a ++ b) = control a ++ control b := by simp [Spec.control]

/-- Bytes that have left the aggregation buffer. -/
def handed (s : State) : List UInt8 := s.wire ++ s.current ++ s.sendingQueue.flatten

/-- Scheduling part of the invariant. -/
structure Sched (s : State) : Prop where
  idle : s.sending = false → s.current = []
  work : s.sendingQueue ≠ [] → s.sending = true ∨ 0 < s.pendingStarts

/-- While not shut down: what was handed over is `base` followed by whole messages `out`, `held` is aggregated. -/
structure Open (base : List UInt8) (msgs : List Msg) (s : State) (out held : List Msg) : Prop where
  sched : Sched s
  bytes : handed s = base ++ bytesOf out
  agg : s.aggregated = bytesOf held
  timed : Spec.timed (out ++ held) = Spec.timed msgs
  control : Spec.control (out ++ held) = Spec.control msgs
  heldKind : ∀ m ∈ held, m.kind ≠ .other
  noAgg : s.useAggregation = false → out = msgs ∧ held = []
  isOpen : s.isShuttingDown = false

/-- After shutdown. -/
structure Closed (base : List UInt8) (msgs : List Msg) (s : State) (out : List Msg) : Prop where
  bytes : handed s <+: base ++ bytesOf out
  timed : Spec.timed out <+: Spec.timed msgs
  control : Spec.control out <+: Spec.control msgs
  queue : s.sendingQueue = []
  noAgg : s.useAggregation = false → out <+: msgs
  closed : s.isShuttingDown = true

def Inv (base : List UInt8) (msgs : List Msg) (s : State) : Prop :=
  (∃ out held, Open base msgs s out held) ∨ (∃ out, Closed base msgs s out)

theorem handed_startAsyncWrite (s : State) (h : s.sending = false → s.current = []) : handed (startAsyncWrite s) = handed s ∧
    Sched (startAsyncWrite s) := by
  unfold startAsyncWrite
  split
  · rename_i hs; exact ⟨rfl, h, fun _ => Or.inl hs⟩
  · rename_i hs
    have hc := h (by simpa using hs)
    cases hq : s.sendingQueue with
    | nil => exact ⟨rfl, h, by simp [hq]⟩
    | cons b q =>
      refine ⟨by simp [handed, hq, hc], ⟨by simp, by simp⟩⟩

theorem startAsyncWrite_same (s : State) : (startAsyncWrite s).aggregated = s.aggregated ∧
    (startAsyncWrite s).useAggregation = s.useAggregation ∧ (startAsyncWrite s).isShuttingDown = s.isShuttingDown ∧
    (s.sendingQueue = [] → startAsyncWrite s = s) := by
  unfold startAsyncWrite
  split
  · simp
  · cases hq : s.sendingQueue <;> simp

theorem open_congr {base msgs} {s s' : State} {out held} (h : Open base msgs s out held) (hs : Sched s')
    (hh : handed s' = handed s) (ha : s'.aggregated = s.aggregated) (hu : s'.useAggregation = s.useAggregation)
    (hd : s'.isShuttingDown = s.isShuttingDown) : Open base msgs s' out held :=
  ⟨hs, hh ▸ h.bytes, ha ▸ h.agg, h.timed, h.control, h.heldKind, hu ▸ h.noAgg, hd ▸ h.isOpen⟩

theorem open_flush {base msgs} {s : State} {out held} (h : Open base msgs s out held) (hu : s.useAggregation = true) :
    Open base msgs (flush s) (out ++ held) [] := by
  have ho := h.isOpen
  refine ⟨⟨?_, ?_⟩, ?_, ?_, ?_, ?_, ?_, ?_, ?_⟩
  · simp [flush, sendInternal, ho]; exact h.sched.idle
  · simp [flush, sendInternal, ho]
  · simp [flush, sendInternal, ho, handed]
    have := h.bytes
    simp [handed] at this
    rw [← List.append_assoc s.current, ← List.append_assoc, ← h.agg]
    simp [this]
  · simp [flush, sendInternal, ho]
  · simpa using h.timed
  · simpa using h.control
  · simp
  · simp [flush, sendInternal, ho, hu]
  · simp [flush, sendInternal, ho]

theorem timed_of_kind {m : Msg} (h : m.kind ≠ .other) : Spec.timed [m] = [m] ∧ Spec.control [m] = [] := by
  simp [Spec.timed, Spec.control, h]

theorem open_aggregate {base msgs} {s : State} {out held} (m : Msg) (h : Open base msgs s out held)
    (hu : s.useAggregation = true) (hk : m.kind ≠ .other) :
    ∃ out' held', Open base (msgs ++ [m]) (aggregate s m.bytes) out' held' ∧
      (aggregate s m.bytes).useAggregation = true := by
  have key : ∀ s' : State, s'.aggregated = s.aggregated ++ m.bytes → s'.useAggregation = true →
      handed s' = handed s → Sched s' → s'.isShuttingDown = false → Open base (msgs ++ [m]) s' out (held ++ [m]) := by
    intro s' h1 h2 h3 h4 h5
    refine ⟨h4, h3 ▸ h.bytes, by simp [h1, h.agg], ?_, ?_, ?_, ?_, h5⟩
    · have := h.timed
      simp at this
      simp [← List.append_assoc, this]
    · have := h.control
      simp at this
      simp [← List.append_assoc, this]
    · intro x hx
      rcases List.mem_append.mp hx with hx | hx
      · exact h.heldKind x hx
      · rw [List.mem_singleton.mp hx]; exact hk
    · simp [h2]
  have h1 := key (aggregateAppend s m.bytes) rfl hu rfl ⟨h.sched.idle, h.sched.work⟩ h.isOpen
  unfold aggregate
  split
  · exact ⟨_, _, open_flush h1 hu, by simp [flush, sendInternal, aggregateAppend, h.isOpen, hu]⟩
  · exact ⟨_, _, h1, hu⟩

/-- A flush message empties the aggregation buffer. -/
theorem open_send_flush {base msgs} {s : State} {out held} (m : Msg) (h : Open base msgs s out held)
    (hu : s.useAggregation = true) (hk : m.kind = .flush) :
    ∃ out', Open base (msgs ++ [m]) (sendSilKitMsg s m) out' [] := by
  obtain ⟨o, hd, h1, h2⟩ := open_aggregate m h hu (by simp [hk])
  unfold sendSilKitMsg
  rw [if_neg (by simp [hk]), if_pos ⟨hu, hk⟩]
  exact ⟨_, open_flush h1 h2⟩

theorem open_send {base msgs} {s : State} {out held} (m : Msg) (h : Open base msgs s out held) :
    ∃ out' held', Open base (msgs ++ [m]) (sendSilKitMsg s m) out' held' := by
  by_cases h1 : s.useAggregation = true ∧ m.kind = .userData
  · obtain ⟨o, hd, h2, _⟩ := open_aggregate m h h1.1 (by simp [h1.2])
    unfold sendSilKitMsg
    rw [if_pos h1]
    exact ⟨o, hd, h2⟩
  · by_cases h2 : s.useAggregation = true ∧ m.kind = .flush
    · obtain ⟨o, h3⟩ := open_send_flush m h h2.1 h2.2
      exact ⟨o, [], h3⟩
    · unfold sendSilKitMsg
      rw [if_neg h1, if_neg h2]
      refine ⟨out ++ [m], held, ⟨⟨?_, ?_⟩, ?_, ?_, ?_, ?_, h.heldKind, ?_, ?_⟩⟩
      · simp [sendInternal, h.isOpen]; exact h.sched.idle
      · simp [sendInternal, h.isOpen]
      · have := h.bytes
        simp [handed] at this
        simp [sendInternal, h.isOpen, handed]
        rw [← List.append_assoc s.current, ← List.append_assoc, this]
        simp
      · simp [sendInternal, h.isOpen, h.agg]
      · -- user-data-class messages reach this branch only if aggregation is off
        have ht := h.timed
        simp at ht
        cases hu : s.useAggregation with
        | false =>
          obtain ⟨rfl, rfl⟩ := h.noAgg hu
          simp
        | true =>
          have hko : m.kind = .other := by
            cases hk : m.kind <;> simp_all
          have : Spec.timed [m] = [] := by simp [Spec.timed, hko]
          rw [timed_append, timed_append, timed_append, this, List.append_nil, List.append_nil, ht]
      · have hc := h.control
        simp at hc
        have hz : Spec.control held = [] := by
          simp only [Spec.control, List.filter_eq_nil_iff]
          intro x hx; simpa using h.heldKind x hx
        rw [hz] at hc
        simp at hc
        rw [control_append, control_append, control_append, hz, hc, List.append_nil]
      · intro hu
        have hu : s.useAggregation = false := by simpa [sendInternal, h.isOpen] using hu
        obtain ⟨rfl, rfl⟩ := h.noAgg hu
        simp
      · simp [sendInternal, h.isOpen]

theorem closed_send {base msgs} {s : State} {out} (m : Msg) (h : Closed base msgs s out) :
    Closed base (msgs ++ [m]) (sendSilKitMsg s m) out := by
  have hfields : handed (sendSilKitMsg s m) = handed s ∧ (sendSilKitMsg s m).sendingQueue = s.sendingQueue ∧
      (sendSilKitMsg s m).useAggregation = s.useAggregation ∧ (sendSilKitMsg s m).isShuttingDown = true := by
    have hc := h.closed
    have hfl : ∀ t : State, t.isShuttingDown = true → handed (flush t) = handed t ∧
        (flush t).sendingQueue = t.sendingQueue ∧ (flush t).useAggregation = t.useAggregation ∧
        (flush t).isShuttingDown = true := by
      intro t ht; simp [flush, sendInternal, ht, handed]
    have hag : ∀ t : State, t.isShuttingDown = true → handed (aggregate t m.bytes) = handed t ∧
        (aggregate t m.bytes).sendingQueue = t.sendingQueue ∧
        (aggregate t m.bytes).useAggregation = t.useAggregation ∧ (aggregate t m.bytes).isShuttingDown = true := by
      intro t ht
      unfold aggregate
      split
      · obtain ⟨a, b, c, d⟩ := hfl (aggregateAppend t m.bytes) ht
        exact ⟨a, b, c, d⟩
      · exact ⟨rfl, rfl, rfl, ht⟩
    unfold sendSilKitMsg
    split
    · exact hag s hc
    · split
      · obtain ⟨a, b, c, d⟩ := hag s hc
        obtain ⟨a', b', c', d'⟩ := hfl _ d
        exact ⟨a'.trans a, b'.trans b, c'.trans c, d'⟩
      · simp [sendInternal, hc]
  obtain ⟨h1, h2, h3, h4⟩ := hfields
  exact ⟨h1 ▸ h.bytes, h.timed.trans (by simp), h.control.trans (by simp), h2 ▸ h.queue,
    fun hu => (h.noAgg (h3 ▸ hu)).trans (List.prefix_append _ _), h4⟩

theorem writeDone_open (s : State) (n : Nat) (h : Sched s) :
    handed (onAsyncWriteSomeDone s n) = handed s ∧ Sched (onAsyncWriteSomeDone s n) ∧
    (onAsyncWriteSomeDone s n).aggregated = s.aggregated ∧
    (onAsyncWriteSomeDone s n).useAggregation = s.useAggregation ∧
    (onAsyncWriteSomeDone s n).isShuttingDown = s.isShuttingDown := by
  unfold onAsyncWriteSomeDone
  by_cases hs : s.sending
  · simp only [hs, if_true]
    split
    · refine ⟨by simp [handed], ⟨by simp, by simp⟩, rfl, rfl, rfl⟩
    · obtain ⟨h1, h2⟩ := handed_startAsyncWrite
        { s with wire := s.wire ++ s.current, sending := false, current := [] } (fun _ => rfl)
      obtain ⟨a, b, c, _⟩ := startAsyncWrite_same { s with wire := s.wire ++ s.current, sending := false, current := [] }
      exact ⟨h1.trans (by simp [handed]), h2, a, b, c⟩
  · simp only [hs]; exact ⟨rfl, h, rfl, rfl, rfl⟩

/-- What one event adds to the list of sent messages. -/
def sent1 (e : Event) : List Msg := sent [e]

theorem sent_append (a b : List Event) : sent (a ++ b) = sent a ++ sent b := by
  induction a with
  | nil => rfl
  | cons e a ih => cases e <;> simp [sent, ih]

theorem step_open {base msgs} {s : State} {out held} (e : Event) (he : e ≠ .shutdown)
    (h : Open base msgs s out held) : ∃ out' held', Open base (msgs ++ sent [e]) (step s e) out' held' := by
  cases e with
  | send m => exact open_send m h
  | runStart =>
    simp only [sent, List.append_nil, step]
    split
    · exact ⟨out, held, h⟩
    · obtain ⟨h1, h2⟩ := handed_startAsyncWrite { s with pendingStarts := s.pendingStarts - 1 } h.sched.idle
      obtain ⟨a, b, c, _⟩ := startAsyncWrite_same { s with pendingStarts := s.pendingStarts - 1 }
      exact ⟨out, held, open_congr h h2 (h1.trans rfl) a b c⟩
  | writeDone n =>
    simp only [sent, List.append_nil, step]
    obtain ⟨h1, h2, h3, h4, h5⟩ := writeDone_open s n h.sched
    exact ⟨out, held, open_congr h h2 h1 h3 h4 h5⟩
  | timer =>
    simp only [sent, List.append_nil, step, onTimerExpired]
    split
    · have h1 : Open base msgs { s with timerArmed := false } out held :=
        open_congr h ⟨h.sched.idle, h.sched.work⟩ rfl rfl rfl rfl
      split
      · rename_i hne
        have hu : s.useAggregation = true := by
          cases hu : s.useAggregation with
          | true => rfl
          | false =>
            have := h.agg
            rw [(h.noAgg hu).2] at this
            exact absurd this hne
        exact ⟨_, _, open_flush h1 hu⟩
      · exact ⟨out, held, h1⟩
    · exact ⟨out, held, h⟩
  | enableAgg =>
    simp only [sent, List.append_nil, step, enableAggregation]
    exact ⟨out, held, ⟨⟨h.sched.idle, h.sched.work⟩, h.bytes, h.agg, h.timed, h.control, h.heldKind, by simp, h.isOpen⟩⟩
  | shutdown => exact absurd rfl he

theorem run_open {base} (es : List Event) (he : .shutdown ∉ es) : ∀ {msgs} {s : State} {out held},
    Open base msgs s out held → ∃ out' held', Open base (msgs ++ sent es) (run s es) out' held' := by
  induction es with
  | nil => intro msgs s out held h; exact ⟨out, held, by simpa [sent, run] using h⟩
  | cons e es ih =>
    intro msgs s out held h
    obtain ⟨o, hd, h1⟩ := step_open e (fun h => he (by simp [h])) h
    obtain ⟨o2, hd2, h2⟩ := ih (fun h => he (by simp [h])) h1
    refine ⟨o2, hd2, ?_⟩
    have : sent (e :: es) = sent [e] ++ sent es := sent_append [e] es
    rw [this, ← List.append_assoc]
    exact h2

theorem run_useAgg (es : List Event) (he : .enableAgg ∉ es) : ∀ s : State, s.useAggregation = false →
    (run s es).useAggregation = false := by
  have hf : ∀ t : State, (flush t).useAggregation = t.useAggregation := by
    intro t; simp [flush, sendInternal]; split <;> rfl
  have ha : ∀ (t : State) b, (aggregate t b).useAggregation = t.useAggregation := by
    intro t b; unfold aggregate; split
    · rw [hf]; rfl
    · rfl
  induction es with
  | nil => intro s h; exact h
  | cons e es ih =>
    intro s h
    refine ih (fun h => he (by simp [h])) (step s e) ?_
    cases e with
    | send m =>
      simp only [step, sendSilKitMsg]
      split
      · rw [ha]; exact h
      · split
        · rw [hf, ha]; exact h
        · simp [sendInternal]; split <;> exact h
    | runStart =>
      simp only [step]; split
      · exact h
      · rw [(startAsyncWrite_same _).2.1]; exact h
    | writeDone n =>
      simp only [step, onAsyncWriteSomeDone]
      split
      · split
        · exact h
        · rw [(startAsyncWrite_same _).2.1]; exact h
      · exact h
    | timer =>
      simp only [step, onTimerExpired]
      split
      · split
        · rw [hf]; exact h
        · exact h
      · exact h
    | enableAgg => simp at he
    | shutdown => exact h

theorem closed_step {base msgs} {s : State} {out} (e : Event) (h : Closed base msgs s out) :
    Closed base (msgs ++ sent [e]) (step s e) out := by
  have congr : ∀ s' : State, handed s' = handed s → s'.sendingQueue = [] → s'.useAggregation = s.useAggregation →
      s'.isShuttingDown = true → Closed base msgs s' out := by
    intro s' h1 h2 h3 h4
    exact ⟨h1 ▸ h.bytes, h.timed, h.control, h2, h3 ▸ h.noAgg, h4⟩
  cases e with
  | send m => exact closed_send m h
  | runStart =>
    simp only [sent, List.append_nil, step]
    split
    · exact h
    · rw [(startAsyncWrite_same { s with pendingStarts := s.pendingStarts - 1 }).2.2.2 h.queue]
      exact congr _ rfl h.queue rfl h.closed
  | writeDone n =>
    simp only [sent, List.append_nil, step, onAsyncWriteSomeDone]
    split
    · split
      · exact congr _ (by simp [handed]) h.queue rfl h.closed
      · rw [(startAsyncWrite_same { s with wire := s.wire ++ s.current, sending := false, current := [] }).2.2.2 h.queue]
        exact congr _ (by simp [handed]) h.queue rfl h.closed
    · exact h
  | timer =>
    simp only [sent, List.append_nil, step, onTimerExpired]
    split
    · split
      · refine congr _ ?_ ?_ ?_ ?_ <;> simp [flush, sendInternal, h.closed, handed, h.queue]
      · exact congr _ rfl h.queue rfl h.closed
    · exact h
  | enableAgg =>
    simp only [sent, List.append_nil, step, enableAggregation]
    exact ⟨h.bytes, h.timed, h.control, h.queue, by simp, h.closed⟩
  | shutdown =>
    simp only [sent, List.append_nil, step, shutdown]
    exact congr _ (by simp [handed, h.queue]) rfl rfl rfl

theorem open_shutdown {base msgs} {s : State} {out held} (h : Open base msgs s out held) :
    Closed base msgs (step s .shutdown) out := by
  refine ⟨?_, ?_, ?_, rfl, ?_, rfl⟩
  · rw [← h.bytes]
    simp [step, shutdown, handed]
  · rw [← h.timed]; simp
  · rw [← h.control]; simp
  · intro hu; rw [(h.noAgg hu).1]; exact List.prefix_refl _

theorem run_inv {base} (es : List Event) : ∀ {msgs} {s : State}, Inv base msgs s →
    Inv base (msgs ++ sent es) (run s es) := by
  induction es with
  | nil => intro msgs s h; simpa [sent, run] using h
  | cons e es ih =>
    intro msgs s h
    have h1 : Inv base (msgs ++ sent [e]) (step s e) := by
      rcases h with ⟨o, hd, h⟩ | ⟨o, h⟩
      · by_cases he : e = .shutdown
        · subst he
          right; exact ⟨o, by simpa [sent] using open_shutdown h⟩
        · left; exact step_open e he h
      · right; exact ⟨o, closed_step e h⟩
    have : sent (e :: es) = sent [e] ++ sent es := sent_append [e] es
    rw [this, ← List.append_assoc]
    exact ih h1

theorem init_open (b : Bool) : Open [] [] { useAggregation := b } [] [] :=
  ⟨⟨fun _ => rfl, fun h => absurd rfl h⟩, rfl, rfl, rfl, rfl, by simp, by simp, rfl⟩

theorem work_startAsyncWrite (s : State) (h : s.sending = false → s.current = []) :
    work (startAsyncWrite s) ≤ work s := by
  unfold startAsyncWrite
  split
  · exact Nat.le_refl _
  · rename_i hs
    have hs : s.sending = false := by simpa using hs
    cases hq : s.sendingQueue with
    | nil => exact Nat.le_refl _
    | cons b q => simp [work, hq, hs, h hs]; omega

end SilKit.PeerSend
