import Verif.Spec.TimeSyncLive
import Verif.Lemmas.TimeSyncNet
/-!
# Progress of time synchronization
-/
namespace SilKit.TimeSync
open Spec

/-- Running, and nothing but the others can hold the participant back. -/
structure Runs (s : Part) : Prop where
  state : s.state = .running
  stop : s.stopRequested = false
  pause : s.pauseRequested = false
  coupled : s.coupled = false
  noError : s.systemError = false

theorem request_live {s : Part} (h : Runs s) : s.requestNextStep =
    ({ s with lastSent := s.cfg.next.tp, polls := s.polls + 1 }, if s.lastSent ≠ s.cfg.next.tp then [.send s.cfg.next] else []) := by
  unfold Part.requestNextStep
  rw [if_pos ⟨h.state, h.stop, h.pause⟩]

/-- What `ProcessSimulationTimeUpdate` can do in a running participant (unless it aborts). -/
inductive Outcome (s s' : Part) (outs : List Out) : Prop
  | idle (hs : s' = s) (ho : outs = []) (hw : s.busy = false → s.cfg.otherLower = true)
  | start (t d : Int) (ho : outs = [.step t d]) (hb : s.busy = false) (hb' : s'.busy = true) (hp : s'.polls = s.polls)
      (hl : s'.lastSent = s.lastSent) (hh : s'.hopOnEvaluated = true) (hv : s'.cfg.others = s.cfg.others) (hr : Runs s')
      (hn : s'.cfg.next.tp = t + d) (hd : 0 ≤ d) (hd' : t < maxNs → 0 < d) (ht : s.cfg.next.tp ≤ t)
      (hs : s.hopOnEvaluated = true ∨ s.cfg.isHopOn = false → t = s.cfg.next.tp)
      (hw : s.hopOnEvaluated = true ∨ s.cfg.isHopOn = false → ∀ v ∈ s.cfg.others, t ≤ v.2.tp) (hc : d ≤ s'.cfg.next.dur)
      (hcur : s'.cfg.current.tp = t)

theorem advanceAndExecute_live {s : Part} (h : Ok s) (hr : Runs s)
    (hab : .abort ∉ s.advanceAndExecute.2) :
    ∃ s1 : Part, s.advanceAndExecute = s1.execute ∧ s1.hopOnEvaluated = true ∧ s.cfg.next.tp ≤ s1.cfg.next.tp ∧
      s1.cfg.others = s.cfg.others ∧ Runs s1 ∧ s1.polls = s.polls ∧ s1.lastSent = s.lastSent ∧ 0 < s1.cfg.next.dur ∧
      (s.hopOnEvaluated = true ∨ s.cfg.isHopOn = false → s1.cfg.next.tp = s.cfg.next.tp) := by
  unfold Part.advanceAndExecute at hab ⊢
  rw [if_pos (Or.inr hr.state)] at hab ⊢
  by_cases hh : s.hopOnEvaluated = true
  · rw [if_pos hh]
    exact ⟨s, rfl, hh, Int.le_refl _, rfl, hr, rfl, rfl, h.dur, fun _ => rfl⟩
  · rw [if_neg hh] at hab ⊢
    by_cases hi : s.cfg.isHopOn = true
    · rw [if_pos hi] at hab ⊢
      by_cases hc : s.coordinated = true
      · rw [if_pos hc] at hab; simp at hab
      · rw [if_neg hc]
        have hf := h.fresh (by simpa using hh)
        have ht := hopOn_time h
        refine ⟨_, rfl, ?_⟩
        have hw : ({ s with hopOnEvaluated := true, cfg := s.cfg.hopOn } : Part).startWallClock =
            { s with hopOnEvaluated := true, cfg := s.cfg.hopOn } := by
          unfold Part.startWallClock; rw [if_neg (by simp [hr.coupled])]
        rw [hw]
        refine ⟨rfl, ?_, rfl, ⟨hr.state, hr.stop, hr.pause, hr.coupled, hr.noError⟩, rfl, rfl, h.dur, fun hx => by simp [hh, hi] at hx⟩
        show s.cfg.next.tp ≤ s.cfg.hopOn.next.tp
        omega
    · rw [if_neg hi]
      refine ⟨_, rfl, ?_⟩
      have hw : ({ s with hopOnEvaluated := true } : Part).startWallClock = { s with hopOnEvaluated := true } := by
        unfold Part.startWallClock; rw [if_neg (by simp [hr.coupled])]
      rw [hw]
      exact ⟨rfl, Int.le_refl _, rfl, ⟨hr.state, hr.stop, hr.pause, hr.coupled, hr.noError⟩, rfl, rfl, h.dur, fun _ => rfl⟩

theorem process_live {s : Part} (h : Ok s) (hr : Runs s) (hi : s.inHandler = false) (hab : .abort ∉ s.process.2) :
    Outcome s s.process.1 s.process.2 := by
  have hposs : s.advancePossible = !s.cfg.otherLower := by
    simp [Part.advancePossible, hr.state, hr.stop, hr.pause, hr.coupled, hr.noError]
  unfold Part.process at hab ⊢
  rw [hposs] at hab ⊢
  cases hl : s.cfg.otherLower with
  | true =>
    rw [if_neg (by simp)]
    exact .idle rfl rfl (fun _ => hl)
  | false =>
    have hview : ∀ v ∈ s.cfg.others, s.cfg.next.tp ≤ v.2.tp := by
      intro e he
      have := hl
      simp only [TimeConfig.otherLower, List.any_eq_false, decide_eq_true_eq] at this
      have := this e he
      omega
    rw [hl, if_pos (by simp)] at hab
    rw [if_pos (by simp)]
    by_cases hb : s.cfg.blocking = true
    · rw [if_pos hb] at hab ⊢
      have hidle : s.busy = false := by simp [Part.busy, hi, h.sync hb]
      have hab' : .abort ∉ s.advanceAndExecute.2 := by
        intro hx
        apply hab
        unfold Part.advanceSync
        dsimp only
        split
        · exact List.mem_append_left _ hx
        · exact hx
      obtain ⟨s1, he, h1, h2, h3, h4, h5, h6, h7, h8⟩ := advanceAndExecute_live h hr hab'
      have hs := advance_spec s1.cfg
      unfold Part.advanceSync
      dsimp only
      rw [he, if_neg (by simp [Part.execute])]
      refine .start s1.cfg.next.tp s1.cfg.advance.current.dur ?_ hidle (by simp [Part.busy]) h5 h6 h1 ?_ ?_ ?_
        (advance_dur_nonneg _ h7) (advance_dur_pos _ h7) h2 h8 ?_ ?_ hs.1
      · simp only [Part.execute, hs.1]
      · show s1.cfg.advance.others = _; rw [hs.2.2.2.1, h3]
      · exact ⟨h4.state, h4.stop, h4.pause, h4.coupled, h4.noError⟩
      · show s1.cfg.advance.next.tp = _; rw [hs.2.1, hs.1]
      · intro hx v hv; rw [h8 hx]; exact hview v hv
      · show _ ≤ s1.cfg.advance.next.dur; rw [hs.2.2.1]; exact advance_dur_le _
    · rw [if_neg hb] at hab ⊢
      unfold Part.advanceAsync at hab ⊢
      by_cases ha : s.asyncExecuting = true
      · rw [if_pos ha]
        exact .idle rfl rfl (by simp [Part.busy, ha])
      · rw [if_neg ha] at hab ⊢
        have h' : Ok ({ s with asyncExecuting := true } : Part) :=
          ⟨h.dur, h.next0, h.cur, h.fresh, fun hbl => absurd (show s.cfg.blocking = true from hbl) hb, h.async, h.views⟩
        have hab' := hab
        obtain ⟨s1, he, h1, h2, h3, h4, h5, h6, h7, h8⟩ := advanceAndExecute_live h'
          ⟨hr.state, hr.stop, hr.pause, hr.coupled, hr.noError⟩ hab'
        have hs := advance_spec s1.cfg
        have hbusy : s1.execute.1.busy = true := by
          have hg := (good_advanceAsync h hl (by simpa using hb) hr.state)
          unfold Part.advanceAsync at hg
          rw [if_neg ha, he] at hg
          exact (hg.steps _ _ (by simp [Part.execute]; exact ⟨rfl, rfl⟩)).2.1
        rw [he]
        refine .start s1.cfg.next.tp s1.cfg.advance.current.dur ?_ (by simp [Part.busy, hi, ha]) hbusy h5 h6 h1 ?_ ?_ ?_
          (advance_dur_nonneg _ h7) (advance_dur_pos _ h7) h2 h8 ?_ ?_ hs.1
        · simp only [Part.execute, hs.1]
        · show s1.cfg.advance.others = _; rw [hs.2.2.2.1, h3]
        · exact ⟨h4.state, h4.stop, h4.pause, h4.coupled, h4.noError⟩
        · show s1.cfg.advance.next.tp = _; rw [hs.2.1, hs.1]
        · intro hx v hv; rw [h8 hx]; exact hview v hv
        · show _ ≤ s1.cfg.advance.next.dur; rw [hs.2.2.1]; exact advance_dur_le _

/-- The end of a step: the participant becomes idle and announces its next step. -/
structure Finishes (s s' : Part) (outs : List Out) : Prop where
  outs : outs = if s.lastSent ≠ s.cfg.next.tp then [.send s.cfg.next] else []
  idle : s'.busy = false
  polls : s'.polls = s.polls + 1
  last : s'.lastSent = s.cfg.next.tp
  cfg : s'.cfg = s.cfg
  hop : s'.hopOnEvaluated = s.hopOnEvaluated
  runs : Runs s'

/-- The configuration changes, nothing else. -/
structure Reconfigured (s s' : Part) (outs : List Out) : Prop where
  outs : outs = []
  busy : s'.busy = s.busy
  polls : s'.polls = s.polls
  last : s'.lastSent = s.lastSent
  next : s'.cfg.next.tp = s.cfg.next.tp
  others : s'.cfg.others = s.cfg.others
  hop : s'.hopOnEvaluated = s.hopOnEvaluated
  runs : Runs s'
  hopped : s'.cfg.hoppedOn = s.cfg.hoppedOn
  cur : s'.cfg.current = s.cfg.current
  async : s'.asyncExecuting = s.asyncExecuting

/-- Everything an allowed event can do to a running participant. -/
def Reacts (s : Part) (e : Event) (s' : Part) (outs : List Out) : Prop :=
  Reconfigured s s' outs ∧ ((∃ d, e = .setStepDuration d ∧ s'.cfg.next.dur = d) ∨ ∃ b, e = .setDynamic b ∧ s'.cfg.next.dur = s.cfg.next.dur) ∨
  (e = .request ∧ s.busy = false ∧ Finishes s s' outs) ∨
  ((e = .stepReturned ∨ e = .complete) ∧ s.busy = true ∧ Finishes s s' outs) ∨
  (e = .poll ∧ 0 < s.polls ∧ Outcome { s with polls := s.polls - 1 } s' outs) ∨
  (∃ q t, e = .receive q t ∧ Outcome { s with cfg := s.cfg.receive q t } s' outs)

/-- The events of a simulation in which everybody runs. -/
def Event.ofRunning (e : Event) : Prop :=
  (∃ d, e = .setStepDuration d) ∨ (∃ b, e = .setDynamic b) ∨ e = .request ∨ e = .stepReturned ∨ e = .complete ∨ e = .poll ∨
      ∃ q t, e = .receive q t

theorem reaction {s s' : Part} {e : Event} {outs} (h : Ok s) (hr : Runs s) (ho : s.on e = some (s', outs))
    (hreq : e = .request → s.asyncExecuting = false) (hcomp : e = .complete → s.asyncExecuting = true)
    (hv : ∀ q t, e = .receive q t → 0 ≤ t.dur) (hab : .abort ∉ outs)
    (hk : e.ofRunning) : Reacts s e s' outs := by
  unfold Part.on at ho
  split at ho
  · cases ho
  · next hio =>
    rcases hk with ⟨d, rfl⟩ | ⟨b, rfl⟩ | rfl | rfl | rfl | rfl | ⟨q, t, rfl⟩
    · left
      simp only [TimeConfig.setStepDuration] at ho
      split at ho
      · cases ho
      · cases ho
        refine ⟨?_, Or.inl ⟨d, rfl, rfl⟩⟩
        exact ⟨rfl, rfl, rfl, rfl, rfl, rfl, rfl, ⟨hr.state, hr.stop, hr.pause, hr.coupled, hr.noError⟩, rfl, rfl, rfl⟩
    · left
      cases ho
      refine ⟨?_, Or.inr ⟨b, rfl, rfl⟩⟩
      exact ⟨rfl, rfl, rfl, rfl, rfl, rfl, rfl, ⟨hr.state, hr.stop, hr.pause, hr.coupled, hr.noError⟩, rfl, rfl, rfl⟩
    · right; left
      have hi : s.inHandler = false := by simpa [Event.onIoThread] using hio
      have hb : s.busy = false := by simp [Part.busy, hi, hreq rfl]
      simp only [Option.some.injEq, request_live hr, Prod.mk.injEq] at ho
      obtain ⟨rfl, rfl⟩ := ho
      exact ⟨rfl, hb, rfl, hb, rfl, rfl, rfl, rfl, ⟨hr.state, hr.stop, hr.pause, hr.coupled, hr.noError⟩⟩
    · right; right; left
      dsimp only at ho
      split at ho
      · next hin =>
        have hbl : s.cfg.blocking = true := by
          cases hb : s.cfg.blocking with
          | true => rfl
          | false => rw [h.async hb] at hin; cases hin
        have hr' : Runs ({ s with inHandler := false } : Part) := ⟨hr.state, hr.stop, hr.pause, hr.coupled, hr.noError⟩
        simp only [Option.some.injEq] at ho
        unfold Part.afterSyncStep at ho
        rw [if_pos ⟨hr.pause, hr.coupled⟩, request_live hr', Prod.mk.injEq] at ho
        obtain ⟨rfl, rfl⟩ := ho
        exact ⟨Or.inl rfl, by simp [Part.busy, hin], rfl, by simp [Part.busy, h.sync hbl], rfl, rfl, rfl, rfl,
          ⟨hr.state, hr.stop, hr.pause, hr.coupled, hr.noError⟩⟩
      · cases ho
    · right; right; left
      have hi : s.inHandler = false := by simpa [Event.onIoThread] using hio
      have hr' : Runs ({ s with asyncExecuting := false, wallClockReached := false } : Part) :=
        ⟨hr.state, hr.stop, hr.pause, hr.coupled, hr.noError⟩
      simp only [Part.complete, Option.some.injEq] at ho
      rw [if_pos (Or.inl hr.coupled), request_live hr', Prod.mk.injEq] at ho
      obtain ⟨rfl, rfl⟩ := ho
      exact ⟨Or.inr rfl, by simp [Part.busy, hcomp rfl], rfl, by simp [Part.busy, hi], rfl, rfl, rfl, rfl,
          ⟨hr.state, hr.stop, hr.pause, hr.coupled, hr.noError⟩⟩
    · right; right; right; left
      have hi : s.inHandler = false := by simpa [Event.onIoThread] using hio
      dsimp only at ho
      split at ho
      · cases ho
      · next hp =>
        simp only [Option.some.injEq] at ho
        have hok : Ok ({ s with polls := s.polls - 1 } : Part) := ⟨h.dur, h.next0, h.cur, h.fresh, h.sync, h.async, h.views⟩
        have g := process_live hok ⟨hr.state, hr.stop, hr.pause, hr.coupled, hr.noError⟩ hi (by rw [ho]; exact hab)
        rw [ho] at g
        exact ⟨rfl, by omega, g⟩
    · right; right; right; right
      have hi : s.inHandler = false := by simpa [Event.onIoThread] using hio
      have hv := hv q t rfl
      simp only [Part.receive, Option.some.injEq] at ho
      have hok : Ok ({ s with cfg := s.cfg.receive q t } : Part) :=
        ⟨h.dur, h.next0, h.cur, h.fresh, h.sync, h.async, fun v hv' => by
          rcases receive_others _ _ _ v hv' with hm | rfl
          · exact h.views v hm
          · exact hv⟩
      split at ho
      · next hst => rw [hr.state] at hst; cases hst
      · have g := process_live hok ⟨hr.state, hr.stop, hr.pause, hr.coupled, hr.noError⟩ hi (by rw [ho]; exact hab)
        rw [ho] at g
        exact ⟨q, t, rfl, g⟩
      · next hst => rw [hr.state] at hst; cases hst
      · next _ hst _ => exact absurd hr.state hst

/-! ## The invariant -/

/-- The last announcement on its way, or the one received last. -/
def lastTp (v : Int) (l : List Msg) : Int := l.foldl (fun v m => match m with | .task t => t.tp | _ => v) v

structure LiveInv (ps : List String) (n : Net) (tr : List Obs) : Prop where
  nodup : ps.Nodup
  net : NetInv n
  runs : ∀ p ∈ ps, Runs (n.part p)
  keys : ∀ p ∈ ps, ∀ q, (∃ t, (q, t) ∈ (n.part p).cfg.others) ↔ q ∈ ps ∧ q ≠ p
  sent : ∀ p q, p ∈ ps → q ∈ ps → p ≠ q → ∀ t, (p, t) ∈ (n.part q).cfg.others →
    (lastTp t.tp (n.chan p q) = (n.part p).cfg.next.tp ∨ (n.part p).lastSent ≠ (n.part p).cfg.next.tp) ∨
      ((n.part p).cfg.current.tp < 0 ∧ [q, p].Sublist ps)
  zero : ∀ p ∈ ps, (n.part p).cfg.current.tp < 0 → (n.part p).cfg.next.tp = 0
  behind : ∀ p ∈ ps, (n.part p).lastSent ≤ (n.part p).cfg.next.tp
  started : ∀ p ∈ ps, Started p tr → 0 ≤ (n.part p).lastSent
  idle : ∀ p ∈ ps, 0 ≤ (n.part p).lastSent → (n.part p).busy = false → (n.part p).lastSent = (n.part p).cfg.next.tp
  waits : ∀ p ∈ ps, 0 ≤ (n.part p).lastSent → (n.part p).busy = false → (n.part p).polls = 0 → (n.part p).cfg.otherLower = true
  steps : ∀ p ∈ ps, 0 < (n.part p).cfg.next.tp → ∃ t d, .out p (.step t d) ∈ tr ∧ t + d = (n.part p).cfg.next.tp

theorem begin_inv {ps n} (h : Begin ps n) : LiveInv ps n [] := by
  have hothers : ∀ p q t, (q, t) ∈ (ps.filter (· ≠ p)).map (fun q => (q, (⟨-1, 0⟩ : Task))) ↔ (q ∈ ps ∧ q ≠ p) ∧ t = ⟨-1, 0⟩ := by
    intro p q t
    simp only [List.mem_map, List.mem_filter, decide_eq_true_eq, Prod.mk.injEq]
    constructor
    · rintro ⟨a, ⟨h1, h2⟩, rfl, rfl⟩; exact ⟨⟨h1, h2⟩, rfl⟩
    · rintro ⟨⟨h1, h2⟩, rfl⟩; exact ⟨q, ⟨h1, h2⟩, rfl, rfl⟩
  refine ⟨h.nodup, ⟨?_, ?_, ?_, ?_⟩, ?_, ?_, ?_, ?_, ?_, ?_, ?_, ?_, ?_⟩
  · intro p
    by_cases hp : p ∈ ps
    · obtain ⟨b, c, dy, d, hd, hpart⟩ := h.part p hp
      rw [hpart]
      refine ⟨hd, Int.le_refl 0, Or.inl rfl, fun _ => ⟨rfl, rfl⟩, fun _ => rfl, fun _ => rfl, ?_⟩
      intro e he
      have := ((hothers p e.1 e.2).mp he).2
      rw [this]; exact Int.le_refl 0
    · obtain ⟨b, c, d, hpart⟩ := h.rest p hp
      rw [hpart]; exact ok_start b c d
  · intro p q t ht
    have hb : 0 ≤ (n.part q).bound := by
      by_cases hq : q ∈ ps
      · obtain ⟨b, c, dy, d, hd, hpart⟩ := h.part q hq
        rw [hpart]; exact Int.le_refl 0
      · obtain ⟨b, c, d, hpart⟩ := h.rest q hq
        rw [hpart]; exact Int.le_refl 0
    by_cases hp : p ∈ ps
    · obtain ⟨b, c, dy, d, hd, hpart⟩ := h.part p hp
      rw [hpart, hothers] at ht
      rw [ht.2]
      show -1 ≤ _
      omega
    · obtain ⟨b, c, d, hpart⟩ := h.rest p hp
      rw [hpart] at ht
      simp [start] at ht
  · intro q p t ht; rw [h.chan] at ht; simp at ht
  · intro q p pre x t1 post hc; rw [h.chan] at hc; simp at hc
  · intro p hp
    obtain ⟨b, c, dy, d, _, hpart⟩ := h.part p hp
    rw [hpart]; exact ⟨rfl, rfl, rfl, rfl, rfl⟩
  · intro p hp q
    obtain ⟨b, c, dy, d, _, hpart⟩ := h.part p hp
    rw [hpart]
    simp only [hothers]
    constructor
    · rintro ⟨t, hx, _⟩; exact hx
    · intro hx; exact ⟨_, hx, rfl⟩
  · intro p q hp hq hne t ht
    obtain ⟨b, c, dy, d, _, hpart⟩ := h.part q hq
    rw [hpart, hothers] at ht
    obtain ⟨b, c, dy, d, _, hpart⟩ := h.part p hp
    left; right
    rw [hpart]; show (-1 : Int) ≠ 0; decide
  · intro p hp _
    obtain ⟨b, c, dy, d, _, hpart⟩ := h.part p hp
    rw [hpart]
  · intro p hp
    obtain ⟨b, c, dy, d, _, hpart⟩ := h.part p hp
    rw [hpart]; show (-1 : Int) ≤ 0; decide
  · intro p hp hs; simp [Started] at hs
  · intro p hp hl
    obtain ⟨b, c, dy, d, _, hpart⟩ := h.part p hp
    rw [hpart] at hl; dsimp only at hl; omega
  · intro p hp hl
    obtain ⟨b, c, dy, d, _, hpart⟩ := h.part p hp
    rw [hpart] at hl; dsimp only at hl; omega
  · intro p hp hl
    obtain ⟨b, c, dy, d, _, hpart⟩ := h.part p hp
    rw [hpart] at hl; dsimp only at hl; omega

/-- The participant-local part of an action, and what happens to the channels. -/
theorem live_act {ps n tr a n' obs} (h : LiveInv ps n tr) (hal : Allowed ps n a) (ha : n.act a = some (n', obs))
    (hab : ∀ p, .out p .abort ∉ obs) :
    (∃ p e s' outs n0, p ∈ ps ∧ Reacts (n.part p) e s' outs ∧ (n0.commit p (s', outs)).1 = n' ∧ n0.part = n.part ∧
      ((a = .event p e ∧ n0 = n ∧ (∀ q t, e ≠ .receive q t) ∧ obs = .did p e :: outs.map (Obs.out p)) ∨
       ∃ q t rest, q ∈ ps ∧ a = .deliver q p ∧ e = .receive q t ∧ n.chan q p = .task t :: rest ∧ n0 = n.setChan q p rest ∧
         obs = outs.map (Obs.out p))) ∨
    (∃ q p x t rest, a = .deliver q p ∧ n.chan q p = .data x t :: rest ∧ n' = n.setChan q p rest ∧ obs = [.received q p x t]) ∨
    (∃ p x t, a = .data p x ∧ n' = { n with chan := fun a b => if a = p ∧ b ≠ p then n.chan a b ++ [.data x t] else n.chan a b } ∧
      obs = [.sent p x t]) := by
  cases a with
  | event p e =>
    left
    simp only [Net.act] at ha
    split at ha
    · next hae =>
      simp only [Option.map_eq_some_iff, Prod.mk.injEq] at ha
      obtain ⟨⟨s', outs⟩, ho, hn, rfl⟩ := ha
      have hnr : ∀ q t, e ≠ .receive q t := by intro q t he; subst he; simp [Event.allowedFor] at hae
      have hp : p ∈ ps ∧ e.ofRunning ∧ (e = .request → (n.part p).asyncExecuting = false) ∧
          (e = .complete → (n.part p).asyncExecuting = true) := by
        cases e <;> simp only [Allowed] at hal <;> simp_all [Event.ofRunning]
      refine ⟨p, e, s', outs, n, hp.1, ?_, hn, rfl, Or.inl ⟨rfl, rfl, hnr, rfl⟩⟩
      refine reaction (h.net.ok p) (h.runs p hp.1) ho hp.2.2.1 hp.2.2.2 (fun q t he => absurd he (hnr q t)) ?_ hp.2.1
      intro hx
      exact hab p (List.mem_cons_of_mem _ (List.mem_map.mpr ⟨_, hx, rfl⟩))
    · cases ha
  | deliver q p =>
    simp only [Net.act] at ha
    split at ha
    · cases ha
    · next t rest hch =>
      left
      simp only [Option.map_eq_some_iff] at ha
      obtain ⟨⟨s', outs⟩, ho, hc⟩ := ha
      have h1 := (congrArg Prod.fst hc)
      have h2 := (congrArg Prod.snd hc)
      dsimp only at h1 h2
      refine ⟨p, _, s', outs, n.setChan q p rest, hal.2, ?_, h1, rfl, Or.inr ⟨q, t, rest, hal.1, rfl, rfl, hch, rfl, h2.symm⟩⟩
      refine reaction (h.net.ok p) (h.runs p hal.2) ho (by simp) (by simp)
        (by intro q' t' he; cases he; exact (h.net.chans q p t (by rw [hch]; simp)).2) ?_
        (Or.inr (Or.inr (Or.inr (Or.inr (Or.inr (Or.inr ⟨q, t, rfl⟩))))))
      intro hx
      apply hab p
      rw [← h2]
      exact List.mem_map.mpr ⟨_, hx, rfl⟩
    · next x at_ rest hch =>
      right; left
      split at ha
      · cases ha
      · simp only [Option.some.injEq, Prod.mk.injEq] at ha
        exact ⟨q, p, x, at_, rest, rfl, hch, ha.1.symm, ha.2.symm⟩
  | data p x =>
    right; right
    simp only [Net.act] at ha
    split at ha
    · simp only [Option.some.injEq, Prod.mk.injEq] at ha
      exact ⟨p, x, _, rfl, ha.1.symm, ha.2.symm⟩
    · cases ha

theorem allowed_disciplined {ps n a} (h : Allowed ps n a) : Disciplined n a := by
  cases a with
  | event p e => cases e <;> simp_all [Allowed, Disciplined]
  | deliver q p => trivial
  | data p x => trivial

theorem lastTp_append (v : Int) (a b : List Msg) : lastTp v (a ++ b) = lastTp (lastTp v a) b := by simp [lastTp, List.foldl_append]

/-- Summary of a reaction, enough for the invariant. -/
structure Summary (s : Part) (e : Event) (s' : Part) (outs : List Out) : Prop where
  runs : Runs s'
  others : s'.cfg.others = othersAfter s.cfg e
  sync : s.lastSent ≤ s.cfg.next.tp → ∀ c, c = s.cfg.next.tp ∨ s.lastSent ≠ s.cfg.next.tp →
    lastTp c (sends outs) = s'.cfg.next.tp ∨ s'.lastSent ≠ s'.cfg.next.tp
  behind : s.lastSent ≤ s.cfg.next.tp → s'.lastSent ≤ s'.cfg.next.tp
  started : 0 ≤ s.lastSent ∨ e = .request → 0 ≤ s'.lastSent
  idle : (0 ≤ s.lastSent → s.busy = false → s.lastSent = s.cfg.next.tp) → 0 ≤ s'.lastSent → s'.busy = false → s'.lastSent = s'.cfg.next.tp
  waits : (0 ≤ s.lastSent → s.busy = false → s.polls = 0 → s.cfg.otherLower = true) →
    0 ≤ s'.lastSent → s'.busy = false → s'.polls = 0 → s'.cfg.otherLower = true
  steps : s'.cfg.next.tp = s.cfg.next.tp ∨ ∃ t d, .step t d ∈ outs ∧ t + d = s'.cfg.next.tp
  next : s.cfg.next.tp ≤ s'.cfg.next.tp
  first : s.cfg.current.tp < 0 → s.cfg.next.tp = 0 → s.lastSent ≤ s.cfg.next.tp → s'.cfg.current.tp < 0 ∨ s'.lastSent ≠ s'.cfg.next.tp
  zero : (s.cfg.current.tp < 0 → s.cfg.next.tp = 0) → s'.cfg.current.tp < 0 → s'.cfg.next.tp = 0

theorem summary_outcome {s e s' outs} (hok : Ok s) (s0 : Part) (o : Outcome s0 s' outs) : s0.lastSent = s.lastSent →
    s0.busy = s.busy → s0.cfg.next = s.cfg.next → s0.cfg.current = s.cfg.current → Runs s0 →
    s0.cfg.others = othersAfter s.cfg e → e ≠ .request → Summary s e s' outs := by
  intro h1 h2 h3 h3' h4 h5 h6
  cases o with
  | idle hs ho hw =>
    subst hs; subst ho
    refine ⟨h4, h5, by rw [h1, h3]; intro _ c hc; exact hc, by rw [h1, h3]; exact id, ?_, ?_, ?_, ?_, ?_,
      by rw [h3']; exact fun h _ _ => Or.inl h, by rw [h3', h3]; exact id⟩
    · rintro (hx | hx)
      · rw [h1]; exact hx
      · exact absurd hx h6
    · intro hi; rw [h1, h2, h3]; exact hi
    · intro _ _ hb _; exact hw hb
    · left; rw [h3]
    · rw [h3]; exact Int.le_refl _
  | start t d ho hb hb' hp hl hh hv hr' hn hd hd' ht hs hw hc hcur =>
    subst ho
    rw [h3] at ht
    refine ⟨hr', by rw [hv]; exact h5, ?_, by rw [hl, h1, hn]; intro hx; omega, ?_, ?_, ?_, ?_, ?_, ?_, ?_⟩
    · intro hle c hc
      rw [hl, h1, hn]
      rcases Decidable.em (s.lastSent = t + d) with hx | hx
      · left
        have : c = s.cfg.next.tp := hc.resolve_right (by omega)
        show c = _
        omega
      · exact Or.inr hx
    · rintro (hx | hx)
      · rw [hl, h1]; exact hx
      · exact absurd hx h6
    · intro _ _ hx; rw [hb'] at hx; cases hx
    · intro _ _ hx; rw [hb'] at hx; cases hx
    · right; exact ⟨t, d, by simp, hn.symm⟩
    · rw [hn]; omega
    · intro _ hz hle
      right
      rw [hl, h1, hn]
      rcases Decidable.em (t < maxNs) with hm | hm
      · have := hd' hm; omega
      · have : (0 : Int) < maxNs := by decide
        omega
    · intro _ hx
      have := hok.next0
      omega

theorem summary {s e s' outs} (hok : Ok s) (hr : Runs s) (h : Reacts s e s' outs) : Summary s e s' outs := by
  have hfin : Finishes s s' outs → (e = .request ∨ e = .stepReturned ∨ e = .complete) → Summary s e s' outs := by
    intro f he
    have hs : sends outs = if s.lastSent ≠ s.cfg.next.tp then [.task s.cfg.next] else [] := by
      rw [f.outs]; split <;> rfl
    refine ⟨f.runs, ?_, ?_, ?_, ?_, ?_, ?_, ?_, ?_, by rw [f.cfg]; exact fun h _ _ => Or.inl h, by rw [f.cfg]; exact id⟩
    · rw [f.cfg]; rcases he with rfl | rfl | rfl <;> rfl
    · intro _ c hc
      left
      rw [hs, f.cfg]
      split
      · simp [lastTp]
      · next hx => rcases hc with hc | hc
                   · simpa [lastTp] using hc
                   · exact absurd hc hx
    · intro _; rw [f.last, f.cfg]; exact Int.le_refl _
    · intro _; rw [f.last]; exact hok.next0
    · intro _ _ _; rw [f.last, f.cfg]
    · intro _ _ _ hp; rw [f.polls] at hp; omega
    · left; rw [f.cfg]
    · rw [f.cfg]; exact Int.le_refl _
  rcases h with ⟨r, he⟩ | ⟨rfl, _, f⟩ | ⟨he, _, f⟩ | ⟨rfl, _, o⟩ | ⟨q, t, rfl, o⟩
  · obtain ⟨r1, r2, r3, r4, r5, r6, r7, r8, r9, r10, _⟩ := r
    subst r1
    refine ⟨r8, ?_, by rw [r4, r5]; intro _ c hc; exact hc, by rw [r4, r5]; exact id, ?_, ?_, ?_, Or.inl r5, by rw [r5]; exact Int.le_refl _,
      by rw [r10]; exact fun h _ _ => Or.inl h, by rw [r10, r5]; exact id⟩
    · rw [r6]; rcases he with ⟨d, rfl, _⟩ | ⟨b, rfl, _⟩ <;> rfl
    · rintro (hx | hx)
      · rw [r4]; exact hx
      · subst hx; simp at he
    · rw [r4, r2, r5]; exact id
    · rw [r4, r2, r3]
      intro hx a b c
      have := hx a b c
      simp only [TimeConfig.otherLower] at this ⊢
      rw [r5, r6]; exact this
  · exact hfin f (Or.inl rfl)
  · exact hfin f (Or.inr he)
  · exact summary_outcome hok _ o rfl rfl rfl rfl ⟨hr.state, hr.stop, hr.pause, hr.coupled, hr.noError⟩ rfl (by simp)
  · exact summary_outcome hok _ o rfl rfl rfl rfl ⟨hr.state, hr.stop, hr.pause, hr.coupled, hr.noError⟩ rfl (by simp)

theorem commit_part (n0 : Net) (p : String) (r : Part × List Out) (x : String) :
    (n0.commit p r).1.part x = if x = p then r.1 else n0.part x := rfl

theorem commit_chan (n0 : Net) (p : String) (r : Part × List Out) (a b : String) :
    (n0.commit p r).1.chan a b = if a = p ∧ b ≠ p then n0.chan a b ++ sends r.2 else n0.chan a b := rfl

theorem othersAfter_same {c : TimeConfig} {e : Event} (he : e.ofRunning) (hn : ∀ q t, e ≠ .receive q t) : othersAfter c e = c.others := by
  rcases he with ⟨d, rfl⟩ | ⟨b, rfl⟩ | rfl | rfl | rfl | rfl | ⟨q, t, rfl⟩ <;> first | rfl | exact absurd rfl (hn _ _)

theorem reacts_ofRunning {s e s' outs} (h : Reacts s e s' outs) : e.ofRunning := by
  rcases h with ⟨_, he | he⟩ | ⟨rfl, _⟩ | ⟨rfl | rfl, _⟩ | ⟨rfl, _⟩ | ⟨q, t, rfl, _⟩ <;> simp_all [Event.ofRunning]

/-- The views after a reaction. -/
theorem views_after {n n0 : Net} {p : String} {e : Event} {s' : Part} {outs : List Out} (hs : Summary (n.part p) e s' outs)
    (hrun : e.ofRunning) (h0 : n0.part = n.part) (x y : String) (t : Task)
    (hv : (x, t) ∈ ((n0.commit p (s', outs)).1.part y).cfg.others) :
    (x, t) ∈ (n.part y).cfg.others ∨ (y = p ∧ e = .receive x t ∧ ∃ t0, (x, t0) ∈ (n.part p).cfg.others) := by
  rw [commit_part, h0] at hv
  split at hv
  · next hy =>
    subst hy
    rw [hs.others] at hv
    rcases hrun with ⟨d, rfl⟩ | ⟨b, rfl⟩ | rfl | rfl | rfl | rfl | ⟨q, u, rfl⟩
    · exact Or.inl hv
    · exact Or.inl hv
    · exact Or.inl hv
    · exact Or.inl hv
    · exact Or.inl hv
    · exact Or.inl hv
    · simp only [othersAfter, TimeConfig.receive, List.mem_map] at hv
      obtain ⟨⟨k, v⟩, hm, hx⟩ := hv
      split at hx
      · next hk =>
        simp only [Prod.mk.injEq] at hx
        obtain ⟨rfl, rfl⟩ := hx
        simp only at hk
        subst hk
        exact Or.inr ⟨rfl, rfl, v, hm⟩
      · simp only [Prod.mk.injEq] at hx
        obtain ⟨rfl, rfl⟩ := hx
        exact Or.inl hm
  · exact Or.inl hv

theorem live_step {ps n tr a n' obs} (h : LiveInv ps n tr) (hal : Allowed ps n a) (ha : n.act a = some (n', obs))
    (hab : ∀ p, .out p .abort ∉ obs) : LiveInv ps n' (tr ++ obs) := by
  have hnet := (act_inv h.net (allowed_disciplined hal) ha).inv
  rcases live_act h hal ha hab with ⟨p, e, s', outs, n0, hp, hre, hn, h0, hcase⟩ | ⟨q, p, x, t, rest, rfl, hch, rfl, rfl⟩ |
      ⟨p, x, t, rfl, rfl, rfl⟩
  · have hs := summary (h.net.ok p) (h.runs p hp) hre
    have hrun := reacts_ofRunning hre
    have hpart : ∀ x, n'.part x = if x = p then s' else n.part x := by intro x; rw [← hn, commit_part, h0]
    refine ⟨h.nodup, hnet, ?_, ?_, ?_, ?_, ?_, ?_, ?_, ?_, ?_⟩
    · intro x hx; rw [hpart]; split
      · exact hs.runs
      · exact h.runs x hx
    · intro x hx q
      rw [hpart]
      split
      · next hxp =>
        subst hxp
        rw [hs.others, othersAfter_keys, h.keys x hx q]
        rcases hrun with ⟨d, rfl⟩ | ⟨b, rfl⟩ | rfl | rfl | rfl | rfl | ⟨q, t, rfl⟩ <;> simp
      · exact h.keys x hx q
    · intro x y hx hy hne t hv
      rw [← hn] at hv
      have hv' := views_after hs hrun h0 x y t hv
      -- the channel before the outputs are appended
      have hmid : (lastTp t.tp (n0.chan x y) = (n.part x).cfg.next.tp ∨ (n.part x).lastSent ≠ (n.part x).cfg.next.tp) ∨
          ((n.part x).cfg.current.tp < 0 ∧ [y, x].Sublist ps) := by
        rcases hcase with ⟨_, rfl, hnr, _⟩ | ⟨q, u, rest, hq, _, he, hch, rfl, _⟩
        · rcases hv' with hv' | ⟨_, he, _⟩
          · exact h.sent x y hx hy hne t hv'
          · exact absurd he (hnr _ _)
        · subst he
          simp only [Net.setChan]
          rcases hv' with hv' | ⟨rfl, he, t0, ht0⟩
          · by_cases hxy : x = q ∧ y = p
            · obtain ⟨rfl, rfl⟩ := hxy
              rw [if_pos ⟨rfl, rfl⟩]
              -- the entry for the sender was overwritten
              have hov : t = u := by
                rw [commit_part, if_pos rfl, hs.others] at hv
                simp only [othersAfter, TimeConfig.receive, List.mem_map] at hv
                obtain ⟨⟨k, v⟩, hm, hk⟩ := hv
                split at hk
                · simp only [Prod.mk.injEq] at hk; exact hk.2.symm
                · next hne' => simp only [Prod.mk.injEq] at hk; exact absurd hk.1 hne'
              subst hov
              have := h.sent x y hx hy hne t hv'
              rw [hch] at this
              simpa [lastTp] using this
            · rw [if_neg hxy]
              exact h.sent x y hx hy hne t hv'
          · cases he
            rw [if_pos ⟨rfl, rfl⟩]
            have := h.sent x y hx hy hne t0 ht0
            rw [hch] at this
            simpa [lastTp] using this
      rw [← hn, commit_chan, commit_part, h0]
      by_cases hxp : x = p
      · subst hxp
        rw [if_pos ⟨rfl, fun hh => hne hh.symm⟩, if_pos rfl, lastTp_append]
        rcases hmid with hmid | ⟨hmid, hsub⟩
        · exact Or.inl (hs.sync (h.behind x hx) _ hmid)
        · rcases hs.first hmid (h.zero x hx hmid) (h.behind x hx) with hf | hf
          · exact Or.inr ⟨hf, hsub⟩
          · exact Or.inl (Or.inr hf)
      · rw [if_neg (fun hh => hxp hh.1), if_neg hxp]; exact hmid
    · intro x hx; rw [hpart]; split
      · next hxp => subst hxp; exact hs.zero (h.zero x hx)
      · exact h.zero x hx
    · intro x hx; rw [hpart]; split
      · next hxp => subst hxp; exact hs.behind (h.behind x hx)
      · exact h.behind x hx
    · intro x hx hst
      rw [hpart]
      have hstart : Started x tr ∨ (x = p ∧ e = .request) := by
        simp only [Started, List.mem_append] at hst
        rcases hst with hst | hst
        · exact Or.inl hst
        · rcases hcase with ⟨_, _, _, rfl⟩ | ⟨q, u, rest, _, _, _, _, _, rfl⟩
          · simp at hst; exact Or.inr ⟨hst.1, hst.2.symm⟩
          · simp at hst
      split
      · next hxp =>
        subst hxp
        refine hs.started ?_
        rcases hstart with hh | hh
        · exact Or.inl (h.started x hx hh)
        · exact Or.inr hh.2
      · next hxp =>
        rcases hstart with hh | hh
        · exact h.started x hx hh
        · exact absurd hh.1 hxp
    · intro x hx; rw [hpart]; split
      · next hxp => subst hxp; exact hs.idle (h.idle x hx)
      · exact h.idle x hx
    · intro x hx; rw [hpart]; split
      · next hxp => subst hxp; exact hs.waits (h.waits x hx)
      · exact h.waits x hx
    · intro x hx hpos
      rw [hpart] at hpos ⊢
      split at hpos
      · next hxp =>
        subst hxp
        rw [if_pos rfl]
        rcases hs.steps with he | ⟨t, d, hm, he⟩
        · rw [he] at hpos ⊢
          obtain ⟨t, d, h1, h2⟩ := h.steps x hx hpos
          exact ⟨t, d, List.mem_append_left _ h1, h2⟩
        · refine ⟨t, d, List.mem_append_right _ ?_, he⟩
          have : Obs.out x (.step t d) ∈ outs.map (Obs.out x) := List.mem_map.mpr ⟨_, hm, rfl⟩
          rcases hcase with ⟨_, _, _, rfl⟩ | ⟨q, u, rest, _, _, _, _, _, rfl⟩
          · exact List.mem_cons_of_mem _ this
          · exact this
      · next hxp =>
        rw [if_neg hxp]
        obtain ⟨t, d, h1, h2⟩ := h.steps x hx hpos
        exact ⟨t, d, List.mem_append_left _ h1, h2⟩
  · refine ⟨h.nodup, hnet, h.runs, h.keys, ?_, h.zero, h.behind, ?_, h.idle, h.waits, ?_⟩
    · intro a b ha' hb hne u hu
      have := h.sent a b ha' hb hne u hu
      simp only [Net.setChan]
      split
      · next hx =>
        obtain ⟨rfl, rfl⟩ := hx
        rw [hch] at this
        simpa [lastTp] using this
      · exact this
    · intro y hy hst; exact h.started y hy (by simpa [Started] using hst)
    · intro y hy hpos
      obtain ⟨t, d, h1, h2⟩ := h.steps y hy hpos
      exact ⟨t, d, List.mem_append_left _ h1, h2⟩
  · refine ⟨h.nodup, hnet, h.runs, h.keys, ?_, h.zero, h.behind, ?_, h.idle, h.waits, ?_⟩
    · intro a b ha' hb hne u hu
      have := h.sent a b ha' hb hne u hu
      dsimp only
      split
      · rw [lastTp_append]; simpa [lastTp] using this
      · exact this
    · intro y hy hst; exact h.started y hy (by simpa [Started] using hst)
    · intro y hy hpos
      obtain ⟨t, d, h1, h2⟩ := h.steps y hy hpos
      exact ⟨t, d, List.mem_append_left _ h1, h2⟩

theorem live_inv {ps n tr} (h : Live ps n tr) : LiveInv ps n tr := by
  induction h with
  | init h => exact begin_inv h
  | step _ hal ha hab ih => exact live_step ih hal ha hab

end SilKit.TimeSync
