import Verif.Spec.TimeSyncChanging
import Verif.Lemmas.TimeSyncProgress
/-!
# Progress of time synchronization when participants join, pause, continue and leave
-/
namespace SilKit.TimeSync
open Spec

/-! ## One participant -/

/-- What is true of the time synchronization of every participant, whether it runs or not. -/
structure Tidy (s : Part) : Prop where
  coupled : s.coupled = false
  noError : s.systemError = false
  behind : s.lastSent ≤ s.cfg.next.tp
  prompt : s.asyncExecuting = true → s.lastSent ≤ s.cfg.current.tp
  zero : s.cfg.current.tp < 0 → s.cfg.next.tp = 0

/-- The effect of an event on a tidy participant. -/
structure Loc (s : Part) (e : Event) (s' : Part) (outs : List Out) : Prop where
  tidy : Tidy s'
  others : s'.cfg.others = othersAfter s.cfg e
  sync : ∀ c, c = s.cfg.next.tp ∨ s.lastSent ≠ s.cfg.next.tp →
    lastTp c (sends outs) = s'.cfg.next.tp ∨ s'.lastSent ≠ s'.cfg.next.tp
  first : s.cfg.current.tp < 0 → s'.cfg.current.tp < 0 ∨ s'.lastSent ≠ s'.cfg.next.tp
  started : 0 ≤ s.lastSent → 0 ≤ s'.lastSent
  steps : s'.cfg.next.tp = s.cfg.next.tp ∨ ∃ t d, .step t d ∈ outs ∧ t + d = s'.cfg.next.tp

/-- The effect of an event other than a change of state on a running participant. -/
structure LocRuns (s : Part) (s' : Part) : Prop where
  runs : Runs s'
  idle : (s.busy = false → s.lastSent = s.cfg.next.tp) → s'.busy = false → s'.lastSent = s'.cfg.next.tp
  waits : (s.busy = false → s.polls = 0 → s.cfg.otherLower = true) → s'.busy = false → s'.polls = 0 → s'.cfg.otherLower = true

theorem loc_of_summary {s e s' outs} (ht : Tidy s) (h : Summary s e s' outs)
    (hp : s'.asyncExecuting = true → s'.lastSent ≤ s'.cfg.current.tp) : Loc s e s' outs where
  tidy := ⟨h.runs.coupled, h.runs.noError, h.behind ht.behind, hp, h.zero ht.zero⟩
  others := h.others
  sync := h.sync ht.behind
  first := fun hc => h.first hc (ht.zero hc) ht.behind
  started := fun hs => h.started (Or.inl hs)
  steps := h.steps

theorem locRuns_of_summary {s e s' outs} (h0 : 0 ≤ s.lastSent) (h : Summary s e s' outs) : LocRuns s s' where
  runs := h.runs
  idle := fun hi => h.idle (fun _ => hi) (h.started (Or.inl h0))
  waits := fun hi => h.waits (fun _ => hi) (h.started (Or.inl h0))

theorem prompt_outcome {s0 s' : Part} {outs} (o : Outcome s0 s' outs) (hb : s0.lastSent ≤ s0.cfg.next.tp)
    (hp : s0.asyncExecuting = true → s0.lastSent ≤ s0.cfg.current.tp) :
    s'.asyncExecuting = true → s'.lastSent ≤ s'.cfg.current.tp := by
  cases o with
  | idle hs _ _ => subst hs; exact hp
  | start t d ho hb' hbb hpp hl hh hv hr' hn hd hd' ht hs hw hc hcur => intro _; rw [hl, hcur]; omega

theorem prompt_reacts {s e s' outs} (ht : Tidy s) (h : Reacts s e s' outs) :
    s'.asyncExecuting = true → s'.lastSent ≤ s'.cfg.current.tp := by
  have hf : Finishes s s' outs → s'.asyncExecuting = true → s'.lastSent ≤ s'.cfg.current.tp := by
    intro f ha
    have := f.idle
    simp [Part.busy, ha] at this
  rcases h with ⟨r, _⟩ | ⟨rfl, _, f⟩ | ⟨he, _, f⟩ | ⟨rfl, _, o⟩ | ⟨q, t, rfl, o⟩
  · rw [r.async, r.last, r.cur]; exact ht.prompt
  · exact hf f
  · exact hf f
  · exact prompt_outcome o ht.behind ht.prompt
  · exact prompt_outcome o ht.behind ht.prompt

/-- Nothing is sent and no step begins. -/
structure Quiet (s s' : Part) (outs : List Out) : Prop where
  coupled : s'.coupled = s.coupled
  noError : s'.systemError = s.systemError
  last : s'.lastSent = s.lastSent
  next : s'.cfg.next.tp = s.cfg.next.tp
  cur : s'.cfg.current = s.cfg.current
  async : s'.asyncExecuting = true → s.asyncExecuting = true
  sends : sends outs = []

theorem loc_of_quiet {s e s' outs} (ht : Tidy s) (h : Quiet s s' outs) (ho : s'.cfg.others = othersAfter s.cfg e) : Loc s e s' outs where
  tidy := ⟨h.coupled.trans ht.coupled, h.noError.trans ht.noError, by rw [h.last, h.next]; exact ht.behind,
    by rw [h.last, h.cur]; exact fun ha => ht.prompt (h.async ha), by rw [h.cur, h.next]; exact ht.zero⟩
  others := ho
  sync := by rw [h.last, h.next, h.sends]; exact fun c hc => hc
  first := by rw [h.cur]; exact fun hc => Or.inl hc
  started := by rw [h.last]; exact id
  steps := Or.inl h.next

/-- Able to request and to start steps. -/
def Part.able (s : Part) : Prop := s.state = .running ∧ s.stopRequested = false ∧ s.pauseRequested = false

theorem able_runs {s : Part} (ht : Tidy s) (ha : s.able) : Runs s := ⟨ha.1, ha.2.1, ha.2.2, ht.coupled, ht.noError⟩

theorem request_unable {s : Part} (h : ¬ s.able) : s.requestNextStep = (s, []) := by
  unfold Part.requestNextStep; exact if_neg h

theorem process_unable {s : Part} (h : ¬ s.able) : s.process = (s, []) := by
  unfold Part.process
  rw [if_neg]
  intro hx
  simp only [Part.advancePossible, Bool.and_eq_true, beq_iff_eq, Bool.not_eq_true'] at hx
  exact h ⟨hx.1.1.1.1.1, hx.1.1.1.1.2, hx.1.1.1.2⟩

theorem add_same (c : TimeConfig) (q : String) : (c.add q).next = c.next ∧ (c.add q).current = c.current := by
  unfold TimeConfig.add; split <;> exact ⟨rfl, rfl⟩

theorem ok_remove {s : Part} (h : Ok s) (q : String) : Ok { s with cfg := s.cfg.remove q } :=
  ⟨h.dur, h.next0, h.cur, h.fresh, h.sync, h.async, fun v hv => h.views v (List.mem_filter.mp hv).1⟩

/-- What is sent to somebody new. -/
theorem discovered_sync {s s' : Part} {q : String} {outs} (hok : Ok s) (ht : Tidy s) (ho : s.on (.discovered q) = some (s', outs)) :
    s'.cfg.current = s.cfg.current ∧ (s.cfg.current.tp < 0 ∧ outs = [] ∨
      ∀ c, lastTp c (sends outs) = s'.cfg.next.tp ∨ s'.lastSent ≠ s'.cfg.next.tp) := by
  unfold Part.on at ho
  split at ho
  · cases ho
  · simp only [Part.discovered, Option.some.injEq, Prod.mk.injEq] at ho
    obtain ⟨rfl, rfl⟩ := ho
    have hsame := add_same s.cfg q
    refine ⟨hsame.2, ?_⟩
    dsimp only
    rw [hsame.2, hsame.1]
    by_cases hc : 0 ≤ s.cfg.current.tp
    · right
      intro c
      rw [if_pos hc]
      rcases Bool.eq_false_or_eq_true s.asyncExecuting with ha | ha
      · have h1 := ht.prompt ha
        rw [if_pos ha]
        rcases hok.cur with h2 | ⟨_, h2, _⟩
        · omega
        · rcases Decidable.em (s.lastSent = s.cfg.next.tp) with hx | hx
          · left; simp [sends, lastTp]; omega
          · exact Or.inr hx
      · rw [if_neg (by simp [ha])]
        left; simp [sends, lastTp]
    · left
      exact ⟨by omega, by rw [if_neg hc]⟩

theorem loc_discovered {s s' : Part} {q : String} {outs} (hok : Ok s) (ht : Tidy s) (ho : s.on (.discovered q) = some (s', outs)) :
    Loc s (.discovered q) s' outs ∧ (Runs s → LocRuns s s') := by
  have hd := discovered_sync hok ht ho
  unfold Part.on at ho
  split at ho
  · cases ho
  · simp only [Part.discovered, Option.some.injEq, Prod.mk.injEq] at ho
    obtain ⟨hs, hou⟩ := ho
    have hsame := add_same s.cfg q
    have hcfg : s'.cfg = s.cfg.add q := by rw [← hs]
    have hlast : s'.lastSent = s.lastSent := by rw [← hs]
    have hasy : s'.asyncExecuting = s.asyncExecuting := by rw [← hs]
    have hbusy : s'.busy = s.busy := by rw [← hs]; rfl
    have hpolls : s'.polls = s.polls := by rw [← hs]
    refine ⟨⟨⟨?_, ?_, ?_, ?_, ?_⟩, ?_, ?_, ?_, ?_, ?_⟩, ?_⟩
    · rw [← hs]; exact ht.coupled
    · rw [← hs]; exact ht.noError
    · rw [hlast, hcfg, hsame.1]; exact ht.behind
    · rw [hlast, hcfg, hsame.2, hasy]; exact ht.prompt
    · rw [hcfg, hsame.1, hsame.2]; exact ht.zero
    · rw [hcfg]; rfl
    · intro c hc
      rcases hd.2 with ⟨_, hnil⟩ | hall
      · rw [hnil, hlast, hcfg, hsame.1]; exact hc
      · exact hall c
    · rw [hd.1]; exact fun hc => Or.inl hc
    · rw [hlast]; exact id
    · left; rw [hcfg, hsame.1]
    · intro hr
      refine ⟨?_, ?_, ?_⟩
      · rw [← hs]; exact ⟨hr.state, hr.stop, hr.pause, hr.coupled, hr.noError⟩
      · rw [hbusy, hlast, hcfg, hsame.1]; exact id
      · rw [hbusy, hpolls]
        intro h hb hp
        have := h hb hp
        simp only [TimeConfig.otherLower, List.any_eq_true, decide_eq_true_eq] at this ⊢
        obtain ⟨v, hv, hlt⟩ := this
        refine ⟨v, ?_, by rw [hcfg, hsame.1]; exact hlt⟩
        rw [hcfg]
        unfold TimeConfig.add
        split
        · exact hv
        · exact List.mem_append_left _ hv

theorem loc_lost {s s' : Part} {q : String} {outs} (hok : Ok s) (ht : Tidy s) (ho : s.on (.lost q) = some (s', outs))
    (hab : .abort ∉ outs) : Loc s (.lost q) s' outs ∧ (Runs s → 0 ≤ s.lastSent → LocRuns s s') := by
  unfold Part.on at ho
  split at ho
  · cases ho
  · next hio =>
    have hi : s.inHandler = false := by simpa [Event.onIoThread] using hio
    simp only [Part.lost, Option.some.injEq] at ho
    split at ho
    · by_cases ha : s.able
      · have hr := able_runs ht ha
        have hr' : Runs ({ s with cfg := s.cfg.remove q } : Part) := ⟨hr.state, hr.stop, hr.pause, hr.coupled, hr.noError⟩
        have g := process_live (ok_remove hok q) hr' hi (by rw [ho]; exact hab)
        rw [ho] at g
        have hsum : Summary s (.lost q) s' outs := summary_outcome hok _ g rfl rfl rfl rfl hr' rfl (by simp)
        exact ⟨loc_of_summary ht hsum (prompt_outcome g ht.behind ht.prompt), fun _ h0 => locRuns_of_summary h0 hsum⟩
      · rw [process_unable (s := { s with cfg := s.cfg.remove q }) ha, Prod.mk.injEq] at ho
        obtain ⟨rfl, rfl⟩ := ho
        exact ⟨loc_of_quiet ht ⟨rfl, rfl, rfl, rfl, rfl, id, rfl⟩ rfl, fun hr => absurd ⟨hr.state, hr.stop, hr.pause⟩ ha⟩
    · next hv =>
      rw [Prod.mk.injEq] at ho
      obtain ⟨rfl, rfl⟩ := ho
      exact ⟨loc_of_quiet ht ⟨rfl, rfl, rfl, rfl, rfl, id, rfl⟩ (remove_unknown _ _ (by simpa using hv)).symm, fun hr _ => ⟨hr, id, id⟩⟩

/-- The events of participants that may be held back. -/
def Event.ofChanging (e : Event) : Prop := e.ofRunning ∨ (∃ q, e = .discovered q) ∨ (∃ q, e = .lost q) ∨ ∃ a b c, e = .lifecycle a b c

theorem loc_unable {s s' : Part} {e : Event} {outs} (ht : Tidy s) (ha : ¬ s.able) (hk : e.ofRunning) (ho : s.on e = some (s', outs)) :
    Loc s e s' outs := by
  unfold Part.on at ho
  split at ho
  · cases ho
  · rcases hk with ⟨d, rfl⟩ | ⟨b, rfl⟩ | rfl | rfl | rfl | rfl | ⟨q, t, rfl⟩
    · simp only [TimeConfig.setStepDuration] at ho
      split at ho
      · cases ho
      · cases ho; exact loc_of_quiet ht ⟨rfl, rfl, rfl, rfl, rfl, id, rfl⟩ rfl
    · cases ho; exact loc_of_quiet ht ⟨rfl, rfl, rfl, rfl, rfl, id, rfl⟩ rfl
    · simp only [request_unable ha] at ho
      cases ho; exact loc_of_quiet ht ⟨rfl, rfl, rfl, rfl, rfl, id, rfl⟩ rfl
    · dsimp only at ho
      split at ho
      · simp only [Part.afterSyncStep, request_unable (s := { s with inHandler := false }) ha, ite_self] at ho
        cases ho; exact loc_of_quiet ht ⟨rfl, rfl, rfl, rfl, rfl, id, rfl⟩ rfl
      · cases ho
    · simp only [Part.complete] at ho
      split at ho
      · rw [request_unable (s := { s with asyncExecuting := false, wallClockReached := false }) ha] at ho
        cases ho; exact loc_of_quiet ht ⟨rfl, rfl, rfl, rfl, rfl, nofun, rfl⟩ rfl
      · cases ho; exact loc_of_quiet ht ⟨rfl, rfl, rfl, rfl, rfl, nofun, rfl⟩ rfl
    · dsimp only at ho
      split at ho
      · cases ho
      · rw [process_unable (s := { s with polls := s.polls - 1 }) ha] at ho
        cases ho; exact loc_of_quiet ht ⟨rfl, rfl, rfl, rfl, rfl, id, rfl⟩ rfl
    · simp only [Part.receive, Option.some.injEq, process_unable (s := { s with cfg := s.cfg.receive q t }) ha] at ho
      split at ho <;> cases ho <;> exact loc_of_quiet ht ⟨rfl, rfl, rfl, rfl, rfl, id, rfl⟩ rfl

theorem loc {s s' : Part} {e : Event} {outs} (hok : Ok s) (ht : Tidy s) (ho : s.on e = some (s', outs))
    (hreq : e = .request → s.asyncExecuting = false) (hcomp : e = .complete → s.asyncExecuting = true)
    (hv : ∀ q t, e = .receive q t → 0 ≤ t.dur) (hab : .abort ∉ outs) (hk : e.ofChanging) :
    Loc s e s' outs ∧ (Runs s → 0 ≤ s.lastSent → (∀ a b c, e ≠ .lifecycle a b c) → LocRuns s s') := by
  rcases hk with hk | ⟨q, rfl⟩ | ⟨q, rfl⟩ | ⟨a, b, c, rfl⟩
  · by_cases ha : s.able
    · have hre := reaction hok (able_runs ht ha) ho hreq hcomp hv hab hk
      have hs := summary hok (able_runs ht ha) hre
      exact ⟨loc_of_summary ht hs (prompt_reacts ht hre), fun _ h0 _ => locRuns_of_summary h0 hs⟩
    · exact ⟨loc_unable ht ha hk ho, fun hr => absurd ⟨hr.state, hr.stop, hr.pause⟩ ha⟩
  · exact ⟨(loc_discovered hok ht ho).1, fun hr _ _ => (loc_discovered hok ht ho).2 hr⟩
  · exact ⟨(loc_lost hok ht ho hab).1, fun hr h0 _ => (loc_lost hok ht ho hab).2 hr h0⟩
  · refine ⟨?_, fun _ _ hx => absurd rfl (hx a b c)⟩
    unfold Part.on at ho
    split at ho
    · cases ho
    · cases ho; exact loc_of_quiet ht ⟨rfl, rfl, rfl, rfl, rfl, id, rfl⟩ rfl

/-! ## The invariant -/

/-- What `y` has heard of `x`: the time point it has noted, or nothing. -/
def Heard (n : Net) (x y : String) (v : Int) : Prop :=
  (∃ t, (x, t) ∈ (n.part y).cfg.others ∧ v = t.tp) ∨ (¬ Knows n y x ∧ v = -1)

structure ChInv (ps held : List String) (n : Net) (tr : List Obs) : Prop where
  nodup : ps.Nodup
  net : NetInv n
  loop : ∀ p, n.chan p p = []
  self : ∀ p ∈ ps, ¬ Knows n p p
  tidy : ∀ p ∈ ps, Tidy (n.part p)
  runs : ∀ p ∈ ps, p ∉ held → Runs (n.part p)
  started : ∀ p ∈ ps, p ∉ held → 0 ≤ (n.part p).lastSent ∧ Started p tr
  idle : ∀ p ∈ ps, p ∉ held → (n.part p).busy = false → (n.part p).lastSent = (n.part p).cfg.next.tp
  waits : ∀ p ∈ ps, p ∉ held → (n.part p).busy = false → (n.part p).polls = 0 → (n.part p).cfg.otherLower = true
  steps : ∀ p ∈ ps, 0 < (n.part p).cfg.next.tp → ∃ t d, .out p (.step t d) ∈ tr ∧ t + d = (n.part p).cfg.next.tp
  later : ∀ x y, x ∈ ps → y ∈ ps → x ≠ y → ¬ Before ps x y → ∀ v, Heard n x y v →
    lastTp v (n.chan x y) = (n.part x).cfg.next.tp ∨ (n.part x).lastSent ≠ (n.part x).cfg.next.tp
  earlier : ∀ x y, x ∈ ps → y ∈ ps → x ≠ y → Before ps x y → Knows n x y → ∀ v, Heard n x y v →
    (lastTp v (n.chan x y) = (n.part x).cfg.next.tp ∨ (n.part x).lastSent ≠ (n.part x).cfg.next.tp) ∨ (n.part x).cfg.current.tp < 0

/-- Once everybody runs and has noticed who takes part, the simulation is like one in which everybody was there from the
beginning. -/
theorem live_of_settled {ps held n tr} (h : ChInv ps held n tr) (hh : ∀ p ∈ ps, p ∉ held) (hs : Settled ps n) : LiveInv ps n tr where
  nodup := h.nodup
  net := h.net
  runs := fun p hp => h.runs p hp (hh p hp)
  keys := hs
  sent := fun p q hp hq hne t ht => by
    by_cases hb : Before ps p q
    · rcases h.earlier p q hp hq hne hb ((hs p hp q).mpr ⟨hq, fun he => hne he.symm⟩) t.tp (Or.inl ⟨t, ht, rfl⟩) with hx | hx
      · exact Or.inl hx
      · exact Or.inr ⟨hx, hb⟩
    · exact Or.inl (h.later p q hp hq hne hb t.tp (Or.inl ⟨t, ht, rfl⟩))
  zero := fun p hp => (h.tidy p hp).zero
  behind := fun p hp => (h.tidy p hp).behind
  started := fun p hp _ => (h.started p hp (hh p hp)).1
  idle := fun p hp _ => h.idle p hp (hh p hp)
  waits := fun p hp _ => h.waits p hp (hh p hp)
  steps := h.steps

/-- The shape of an action. -/
theorem act_shape {n : Net} {a : Act} {n' obs} (ha : n.act a = some (n', obs)) :
    (∃ (p : String) (e : Event) (s' : Part) (outs : List Out) (n0 : Net), (n.part p).on e = some (s', outs) ∧ (n0.commit p (s', outs)).1 = n' ∧ n0.part = n.part ∧
      ((a = .event p e ∧ n0 = n ∧ e.allowedFor p = true ∧ obs = .did p e :: outs.map (Obs.out p)) ∨
       ∃ q t rest, a = .deliver q p ∧ e = .receive q t ∧ n.chan q p = .task t :: rest ∧ n0 = n.setChan q p rest ∧
         obs = outs.map (Obs.out p))) ∨
    (∃ q p x t rest, a = .deliver q p ∧ n.chan q p = .data x t :: rest ∧ n' = n.setChan q p rest ∧ obs = [.received q p x t]) ∨
    (∃ p x t, a = .data p x ∧ n' = { n with chan := fun a b => if a = p ∧ b ≠ p then n.chan a b ++ [.data x t] else n.chan a b } ∧
      obs = [.sent p x t]) := by
  cases a with
  | event p e =>
    left
    simp only [Net.act] at ha
    split at ha
    · next hae =>
      simp only [Option.map_eq_some_iff, Prod.mk.injEq] at ha
      obtain ⟨⟨s', outs⟩, ho, hn, rfl⟩ := ha
      exact ⟨p, e, s', outs, n, ho, hn, rfl, Or.inl ⟨rfl, rfl, hae, rfl⟩⟩
    · cases ha
  | deliver q p =>
    simp only [Net.act] at ha
    split at ha
    · cases ha
    · next t rest hch =>
      left
      simp only [Option.map_eq_some_iff] at ha
      obtain ⟨⟨s', outs⟩, ho, hc⟩ := ha
      have h1 := (congrArg Prod.fst hc)
      have h2 := (congrArg Prod.snd hc)
      exact ⟨p, _, s', outs, n.setChan q p rest, ho, h1, rfl, Or.inr ⟨q, t, rest, rfl, rfl, hch, rfl, h2.symm⟩⟩
    · next x at_ rest hch =>
      right; left
      split at ha
      · cases ha
      · simp only [Option.some.injEq, Prod.mk.injEq] at ha
        exact ⟨q, p, x, at_, rest, rfl, hch, ha.1.symm, ha.2.symm⟩
  | data p x =>
    right; right
    simp only [Net.act] at ha
    split at ha
    · simp only [Option.some.injEq, Prod.mk.injEq] at ha
      exact ⟨p, x, _, rfl, ha.1.symm, ha.2.symm⟩
    · cases ha

/-- `May`, but anybody may request the next step. -/
def MayCore (ps held : List String) (n : Net) : Act → Prop
  | .event p .request => p ∈ ps ∧ (n.part p).asyncExecuting = false
  | a => May ps held n a

theorem may_core {ps held n a} (h : May ps held n a) : MayCore ps held n a := by
  cases a with
  | event p e => cases e <;> first | exact h | exact ⟨h.1, h.2.2⟩
  | deliver q p => exact h
  | data p x => exact h

theorem mayCore_disciplined {ps held n a} (h : MayCore ps held n a) : Disciplined n a := by
  cases a with
  | event p e => cases e <;> first | trivial | exact h.2
  | deliver q p => trivial
  | data p x => trivial

/-- What is known of an event that may happen. -/
theorem mayCore_event {ps held n p e} (h : MayCore ps held n (.event p e)) :
    p ∈ ps ∧ e.ofChanging ∧ (e = .request → (n.part p).asyncExecuting = false) ∧
      (e = .complete → (n.part p).asyncExecuting = true) ∧ (∀ q t, e ≠ .receive q t) ∧
      (∀ q, e = .discovered q → q ∈ ps ∧ ¬ Knows n p q) ∧ (∀ q, e = .lost q → q ∉ ps) ∧ (∀ a b c, e = .lifecycle a b c → p ∈ held) := by
  cases e <;> simp only [MayCore, May] at h <;> simp_all [Event.ofChanging, Event.ofRunning]

/-- What `y` has heard after a reaction of `p`, compared with what it had heard before. -/
theorem heard_after {n : Net} {p : String} {e : Event} {s' : Part} {x y : String} {v : Int} {part' : String → Part}
    {chan' : String → String → List Msg} (hpart : ∀ z, part' z = if z = p then s' else n.part z)
    (ho : s'.cfg.others = othersAfter (n.part p).cfg e) (hd : ∀ q, e = .discovered q → ¬ Knows n p q) (hl : e ≠ .lost x)
    (h : Heard ⟨part', chan'⟩ x y v) :
    (Heard n x y v ∧ (∀ t, y = p → e = .receive x t → ¬ Knows n y x)) ∨ (y = p ∧ ∃ t v0, e = .receive x t ∧ Heard n x y v0 ∧ v = t.tp) := by
  by_cases hy : y = p
  · subst hy
    have hk := othersAfter_keys (n.part y).cfg x e
    simp only [Heard, Knows, hpart, if_true, ho] at h
    rcases h with ⟨t, ht, rfl⟩ | ⟨hx, rfl⟩
    · rcases Classical.em (∃ u, e = .receive x u) with ⟨u, rfl⟩ | hr
      · right
        simp only [othersAfter, TimeConfig.receive, List.mem_map] at ht
        obtain ⟨⟨k, w⟩, hm, hx⟩ := ht
        split at hx
        · next hk' =>
          simp only [Prod.mk.injEq] at hx hk'
          obtain ⟨rfl, rfl⟩ := hx
          exact ⟨rfl, u, w.tp, rfl, Or.inl ⟨w, hm, rfl⟩, rfl⟩
        · next hk' =>
          simp only [Prod.mk.injEq] at hx
          exact absurd hx.1 hk'
      · left
        refine ⟨?_, fun t _ he => absurd ⟨t, he⟩ hr⟩
        rcases Classical.em (e = .discovered x) with rfl | hdx
        · have hnk := hd x rfl
          simp only [othersAfter] at ht
          rcases add_others _ _ _ ht with hm | hm
          · exact absurd ⟨t, hm⟩ hnk
          · simp only [Prod.mk.injEq] at hm
            right; exact ⟨hnk, by rw [hm.2]⟩
        · left
          refine ⟨t, ?_, rfl⟩
          cases e with
          | discovered q =>
            rcases add_others _ _ _ ht with hm | hm
            · exact hm
            · simp only [Prod.mk.injEq] at hm
              exact absurd (by rw [hm.1]) hdx
          | lost q => exact (List.mem_filter.mp ht).1
          | receive q u =>
            simp only [othersAfter, TimeConfig.receive, List.mem_map] at ht
            obtain ⟨⟨k, w⟩, hm, hx⟩ := ht
            split at hx
            · next hk' =>
              simp only [Prod.mk.injEq] at hx hk'
              exact absurd ⟨u, by rw [← hk', hx.1]⟩ hr
            · rw [← hx]; exact hm
          | _ => exact ht
    · left
      have hnk : ¬ Knows n y x := fun hk' => hx (hk.mpr ⟨Or.inl hk', hl⟩)
      exact ⟨Or.inr ⟨hnk, rfl⟩, fun _ _ _ => hnk⟩
  · left
    refine ⟨?_, fun t he _ => absurd he hy⟩
    simpa only [Heard, Knows, hpart, if_neg hy] using h

theorem lastTp_task {l : List Msg} (h : ∃ t, .task t ∈ l) (v w : Int) : lastTp v l = lastTp w l := by
  induction l generalizing v w with
  | nil => obtain ⟨_, h⟩ := h; cases h
  | cons m l ih =>
    cases m with
    | task t => rfl
    | data x t =>
      obtain ⟨u, hu⟩ := h
      exact ih ⟨u, by simpa using hu⟩ v w

theorem ch_core {ps held n tr a n' obs} (h : ChInv ps held n tr) (hm : MayCore ps held n a) (ha : n.act a = some (n', obs))
    (hab : ∀ p, .out p .abort ∉ obs) : ChInv ps held n' (tr ++ obs) := by
  have hnet := (act_inv h.net (mayCore_disciplined hm) ha).inv
  rcases act_shape ha with ⟨p, e, s', outs, n0, ho, hn, h0, hcase⟩ | ⟨q, p, x, t, rest, rfl, hch, rfl, rfl⟩ | ⟨p, x, t, rfl, rfl, rfl⟩
  · have hfacts : p ∈ ps ∧ e.ofChanging ∧ (e = .request → (n.part p).asyncExecuting = false) ∧
      (e = .complete → (n.part p).asyncExecuting = true) ∧ (∀ q t, e = .receive q t → 0 ≤ t.dur) ∧
      (∀ q, e = .discovered q → q ∈ ps ∧ ¬ Knows n p q) ∧ (∀ q, e = .lost q → q ∉ ps) ∧ (∀ a b c, e = .lifecycle a b c → p ∈ held) ∧
      .abort ∉ outs := by
      rcases hcase with ⟨rfl, rfl, hae, rfl⟩ | ⟨q, t, rest, rfl, rfl, hch, rfl, rfl⟩
      · obtain ⟨h1, h2, h3, h4, h5, h6, h7, h8⟩ := mayCore_event hm
        exact ⟨h1, h2, h3, h4, fun q t he => absurd he (h5 q t), h6, h7, h8,
          fun hx => hab p (List.mem_cons_of_mem _ (List.mem_map.mpr ⟨_, hx, rfl⟩))⟩
      · refine ⟨hm.1, Or.inl (Or.inr (Or.inr (Or.inr (Or.inr (Or.inr (Or.inr ⟨q, t, rfl⟩)))))), nofun, nofun, ?_, nofun, nofun, nofun,
          fun hx => hab p (List.mem_map.mpr ⟨_, hx, rfl⟩)⟩
        intro q' t' he; cases he; exact (h.net.chans q p t (by rw [hch]; simp)).2
    obtain ⟨hp, hk, hreq, hcomp, hv, hdisc, hlost, hlife, hab'⟩ := hfacts
    obtain ⟨hloc, hruns⟩ := loc (h.net.ok p) (h.tidy p hp) ho hreq hcomp hv hab' hk
    have hpart : ∀ x, n'.part x = if x = p then s' else n.part x := by intro x; rw [← hn, commit_part, h0]
    have hr' : p ∉ held → LocRuns (n.part p) s' := fun hnh =>
      hruns (h.runs p hp hnh) (h.started p hp hnh).1 (fun a b c he => hnh (hlife a b c he))
    have hstep : ∀ o ∈ outs, .out p o ∈ obs := by
      intro o hx
      have : Obs.out p o ∈ outs.map (Obs.out p) := List.mem_map.mpr ⟨_, hx, rfl⟩
      rcases hcase with ⟨_, _, _, rfl⟩ | ⟨q, u, rest, _, _, _, _, rfl⟩
      · exact List.mem_cons_of_mem _ this
      · exact this
    -- what happens on a channel before `p` sends
    have hmid : ∀ x y, x ∈ ps → y ∈ ps → x ≠ y → ∀ v, Heard n' x y v → ∃ v0, Heard n x y v0 ∧
        (lastTp v (n0.chan x y) = lastTp v0 (n.chan x y) ∨ (MayMiss ps n x y ∧ ∃ m, n.chan x y = m :: n0.chan x y)) := by
      intro x y hx hy hne v hhe
      have hha := heard_after (part' := n'.part) (chan' := n'.chan) hpart hloc.others (fun q he => (hdisc q he).2)
        (fun he => hlost x he hx) hhe
      rcases hcase with ⟨rfl, rfl, hae, _⟩ | ⟨q, u, rest, rfl, rfl, hch, rfl, _⟩
      · rcases hha with ⟨hha, _⟩ | ⟨_, t, v0, rfl, _⟩
        · exact ⟨v, hha, Or.inl rfl⟩
        · simp [Event.allowedFor] at hae
      · by_cases hxy : x = q ∧ y = p
        · obtain ⟨rfl, rfl⟩ := hxy
          have hc0 : (n.setChan x y rest).chan x y = rest := by simp [Net.setChan]
          rw [hc0]
          rcases hha with ⟨hha, hnk⟩ | ⟨_, t, v0, he, hha, rfl⟩
          · refine ⟨v, hha, Or.inr ⟨?_, _, hch⟩⟩
            have hnk := hnk u rfl rfl
            rcases hm.2 with hq | hq | ⟨m, t, r, hq⟩ | hq
            · exact absurd hx hq
            · exact absurd hq hnk
            · rw [hch] at hq; simp at hq
            · exact hq
          · cases he
            exact ⟨v0, hha, Or.inl (by rw [hch]; rfl)⟩
        · have hc0 : (n.setChan q p rest).chan x y = n.chan x y := by simp only [Net.setChan]; rw [if_neg hxy]
          rw [hc0]
          rcases hha with ⟨hha, _⟩ | ⟨hyp, t, v0, he, _⟩
          · exact ⟨v, hha, Or.inl rfl⟩
          · cases he; exact absurd ⟨rfl, hyp⟩ hxy
    have hchan : ∀ x y, x ≠ y → n'.chan x y = if x = p then n0.chan x y ++ sends outs else n0.chan x y := by
      intro x y hne
      rw [← hn, commit_chan]
      by_cases hxp : x = p
      · subst hxp; rw [if_pos ⟨rfl, fun hh => hne hh.symm⟩, if_pos rfl]
      · rw [if_neg (fun hh => hxp hh.1), if_neg hxp]
    refine ⟨h.nodup, hnet, ?_, ?_, ?_, ?_, ?_, ?_, ?_, ?_, ?_, ?_⟩
    · intro x
      rw [← hn, commit_chan, if_neg (by rintro ⟨rfl, hx⟩; exact hx rfl)]
      rcases hcase with ⟨_, rfl, _, _⟩ | ⟨q, u, rest, _, _, hch, rfl, _⟩
      · exact h.loop x
      · simp only [Net.setChan]
        split
        · next hx => obtain ⟨rfl, rfl⟩ := hx; rw [h.loop] at hch; cases hch
        · exact h.loop x
    · intro x hx
      simp only [Knows, hpart]
      split
      · next hxp =>
        subst hxp
        rw [hloc.others, othersAfter_keys]
        rintro ⟨hq | hq, _⟩
        · exact h.self x hx hq
        · rcases hcase with ⟨_, _, hae, _⟩ | ⟨q, u, rest, _, rfl, _⟩
          · subst hq; simp [Event.allowedFor] at hae
          · cases hq
      · exact h.self x hx
    · intro x hx; rw [hpart]; split
      · exact hloc.tidy
      · exact h.tidy x hx
    · intro x hx hnh; rw [hpart]; split
      · next hxp => subst hxp; exact (hr' hnh).runs
      · exact h.runs x hx hnh
    · intro x hx hnh
      obtain ⟨h1, h2⟩ := h.started x hx hnh
      refine ⟨?_, List.mem_append_left _ h2⟩
      rw [hpart]; split
      · next hxp => subst hxp; exact hloc.started h1
      · exact h1
    · intro x hx hnh; rw [hpart]; split
      · next hxp => subst hxp; exact (hr' hnh).idle (h.idle x hx hnh)
      · exact h.idle x hx hnh
    · intro x hx hnh; rw [hpart]; split
      · next hxp => subst hxp; exact (hr' hnh).waits (h.waits x hx hnh)
      · exact h.waits x hx hnh
    · intro x hx hpos
      rw [hpart] at hpos ⊢
      split at hpos
      · next hxp =>
        subst hxp
        rw [if_pos rfl]
        rcases hloc.steps with he | ⟨t, d, hmem, he⟩
        · rw [he] at hpos ⊢
          obtain ⟨t, d, h1, h2⟩ := h.steps x hx hpos
          exact ⟨t, d, List.mem_append_left _ h1, h2⟩
        · exact ⟨t, d, List.mem_append_right _ (hstep _ hmem), he⟩
      · next hxp =>
        rw [if_neg hxp]
        obtain ⟨t, d, h1, h2⟩ := h.steps x hx hpos
        exact ⟨t, d, List.mem_append_left _ h1, h2⟩
    · intro x y hx hy hne hb v hhe
      obtain ⟨v0, hv0, hmv⟩ := hmid x y hx hy hne v hhe
      have hpre := h.later x y hx hy hne hb v0 hv0
      have hmv : lastTp v (n0.chan x y) = lastTp v0 (n.chan x y) := by
        rcases hmv with hmv | ⟨hmv, _⟩
        · exact hmv
        · exact absurd hmv.1 hb
      rw [← hmv] at hpre
      rw [hchan x y hne, hpart]
      by_cases hxp : x = p
      · subst hxp
        rw [if_pos rfl, if_pos rfl, lastTp_append]
        exact hloc.sync _ hpre
      · rw [if_neg hxp, if_neg hxp]; exact hpre
    · intro x y hx hy hne hb hkn v hhe
      obtain ⟨v0, hv0, hmv⟩ := hmid x y hx hy hne v hhe
      by_cases hold : Knows n x y
      · have hpre := h.earlier x y hx hy hne hb hold v0 hv0
        have hpre : (lastTp v (n0.chan x y) = (n.part x).cfg.next.tp ∨ (n.part x).lastSent ≠ (n.part x).cfg.next.tp) ∨
            (n.part x).cfg.current.tp < 0 := by
          rcases hmv with hmv | ⟨⟨_, hmiss⟩, m, hc⟩
          · rw [hmv]; exact hpre
          · rcases hmiss with hx' | hx' | hx' | ⟨m', t, rest, hx', ht⟩
            · exact absurd hold hx'
            · exact Or.inr hx'
            · exact Or.inl (Or.inr hx')
            · rw [hc, List.cons.injEq] at hx'
              rw [← hx'.2] at ht
              have hc' : lastTp v0 (n.chan x y) = lastTp v (n0.chan x y) := by
                rw [hc]; exact lastTp_task ⟨t, ht⟩ _ _
              rw [← hc']; exact hpre
        rw [hchan x y hne, hpart]
        by_cases hxp : x = p
        · subst hxp
          rw [if_pos rfl, if_pos rfl, lastTp_append]
          rcases hpre with hpre | hpre
          · exact Or.inl (hloc.sync _ hpre)
          · rcases hloc.first hpre with hf | hf
            · exact Or.inr hf
            · exact Or.inl (Or.inr hf)
        · rw [if_neg hxp, if_neg hxp]; exact hpre
      · -- `x` has just discovered `y`
        have hxp : x = p := by
          refine Decidable.byContradiction (fun hxp => hold ?_)
          simpa only [Knows, hpart, if_neg hxp] using hkn
        subst hxp
        have he : e = .discovered y := by
          simp only [Knows, hpart, if_true, hloc.others, othersAfter_keys] at hkn
          exact hkn.1.resolve_left hold
        subst he
        rw [hchan x y hne, hpart, if_pos rfl, if_pos rfl, lastTp_append]
        obtain ⟨hcur, hd⟩ := discovered_sync (h.net.ok x) (h.tidy x hx) ho
        rcases hd with ⟨hd, _⟩ | hd
        · right; rw [hcur]; exact hd
        · exact Or.inl (hd _)
  · have hlt : ∀ x y v, lastTp v ((n.setChan q p rest).chan x y) = lastTp v (n.chan x y) := by
      intro x' y' v
      simp only [Net.setChan]
      split
      · next hx => obtain ⟨rfl, rfl⟩ := hx; rw [hch]; rfl
      · rfl
    refine ⟨h.nodup, hnet, ?_, h.self, h.tidy, h.runs, ?_, h.idle, h.waits, ?_, ?_, ?_⟩
    · intro y
      simp only [Net.setChan]
      split
      · next hx => obtain ⟨rfl, rfl⟩ := hx; rw [h.loop] at hch; cases hch
      · exact h.loop y
    · exact fun y hy hnh => ⟨(h.started y hy hnh).1, List.mem_append_left _ (h.started y hy hnh).2⟩
    · intro y hy hpos
      obtain ⟨t, d, h1, h2⟩ := h.steps y hy hpos
      exact ⟨t, d, List.mem_append_left _ h1, h2⟩
    · intro a b ha' hb hne hbe v hv; rw [hlt]; exact h.later a b ha' hb hne hbe v hv
    · intro a b ha' hb hne hbe hkn v hv; rw [hlt]; exact h.earlier a b ha' hb hne hbe hkn v hv
  · have hlt : ∀ a b v, lastTp v (if a = p ∧ b ≠ p then n.chan a b ++ [.data x t] else n.chan a b) = lastTp v (n.chan a b) := by
      intro a b v
      split
      · rw [lastTp_append]; rfl
      · rfl
    refine ⟨h.nodup, hnet, ?_, h.self, h.tidy, h.runs, ?_, h.idle, h.waits, ?_, ?_, ?_⟩
    · intro y
      dsimp only
      rw [if_neg (by rintro ⟨rfl, hx⟩; exact hx rfl)]; exact h.loop y
    · exact fun y hy hnh => ⟨(h.started y hy hnh).1, List.mem_append_left _ (h.started y hy hnh).2⟩
    · intro y hy hpos
      obtain ⟨t, d, h1, h2⟩ := h.steps y hy hpos
      exact ⟨t, d, List.mem_append_left _ h1, h2⟩
    · intro a b ha' hb hne hbe v hv; rw [hlt]; exact h.later a b ha' hb hne hbe v hv
    · intro a b ha' hb hne hbe hkn v hv; rw [hlt]; exact h.earlier a b ha' hb hne hbe hkn v hv

theorem ch_init {n} (h : Initial n) : ChInv [] [] n [] where
  nodup := List.nodup_nil
  net := init_inv h
  loop := fun p => h.2 p p
  self := nofun
  tidy := nofun
  runs := nofun
  started := nofun
  idle := nofun
  waits := nofun
  steps := nofun
  later := nofun
  earlier := nofun

theorem ok_newcomer {s : Part} (h : Newcomer s) : Ok s := by
  obtain ⟨b, c, dy, d, st, x, y, hd, rfl⟩ := h
  exact ⟨hd, Int.le_refl _, Or.inl rfl, fun _ => ⟨rfl, rfl⟩, fun _ => rfl, fun _ => rfl, nofun⟩

theorem newcomer_fields {s : Part} (h : Newcomer s) : Tidy s ∧ s.cfg.others = [] ∧ s.lastSent = -1 ∧ s.cfg.next.tp = 0 := by
  obtain ⟨b, c, dy, d, st, x, y, hd, rfl⟩ := h
  refine ⟨⟨rfl, rfl, ?_, nofun, fun _ => rfl⟩, rfl, rfl, rfl⟩
  show (-1 : Int) ≤ 0; decide

theorem joined_net {n y s} (h : NetInv n) (hk : ∀ x, ¬ Knows n x y) (hs : Newcomer s) : NetInv (joined n y s) := by
  have hf := newcomer_fields hs
  have hv : ∀ p q t, (q, t) ∈ ((joined n y s).part p).cfg.others → p ≠ y ∧ q ≠ y ∧ (q, t) ∈ (n.part p).cfg.others := by
    intro p q t ht
    simp only [joined] at ht
    split at ht
    · rw [hf.2.1] at ht; cases ht
    · next hp =>
      refine ⟨hp, ?_, ht⟩
      rintro rfl
      exact hk p ⟨t, ht⟩
  refine ⟨?_, ?_, ?_, ?_⟩
  · intro p
    simp only [joined]
    split
    · exact ok_newcomer hs
    · exact h.ok p
  · intro p q t ht
    obtain ⟨_, h2, h3⟩ := hv p q t ht
    have := h.views p q t h3
    simpa only [joined, if_neg h2] using this
  · intro q p t ht
    simp only [joined] at ht ⊢
    split at ht
    · cases ht
    · next hne => rw [if_neg (fun hh => hne (Or.inl hh))]; exact h.chans q p t ht
  · intro q p pre x t1 post he
    have hc : (joined n y s).chan q p = if q = y ∨ p = y then [] else n.chan q p := rfl
    rw [hc] at he
    split at he
    · simp at he
    · obtain ⟨h1, h2, h3⟩ := h.data q p pre x t1 post he
      exact ⟨h1, h2, fun t ht => h3 t (hv p q t ht).2.2⟩

theorem ch_join {ps held n tr y s} (h : ChInv ps held n tr) (hy : y ∉ ps) (hk : ∀ x, ¬ Knows n x y) (hs : Newcomer s) :
    ChInv (y :: ps) (y :: held) (joined n y s) tr := by
  have hf := newcomer_fields hs
  have hpy : (joined n y s).part y = s := by simp [joined]
  have hpx : ∀ x, x ≠ y → (joined n y s).part x = n.part x := fun x hx => by simp [joined, hx]
  have hcx : ∀ a b, a ≠ y → b ≠ y → (joined n y s).chan a b = n.chan a b := fun a b ha hb => by simp [joined, ha, hb]
  have hkx : ∀ a b, a ≠ y → (Knows (joined n y s) a b ↔ Knows n a b) := fun a b ha => by simp only [Knows, hpx a ha]
  have hky : ∀ b, ¬ Knows (joined n y s) y b := fun b => by simp [Knows, hpy, hf.2.1]
  have hhx : ∀ a b v, b ≠ y → Heard (joined n y s) a b v → Heard n a b v := fun a b v hb => by
    simp only [Heard, hkx b a hb, hpx b hb]; exact id
  have hmem : ∀ p, p ∈ y :: ps → p ∉ y :: held → p ∈ ps ∧ p ∉ held ∧ p ≠ y := by
    intro p h1 h2
    simp only [List.mem_cons, not_or] at h1 h2
    exact ⟨h1.resolve_left h2.1, h2.2, h2.1⟩
  refine ⟨List.nodup_cons.mpr ⟨hy, h.nodup⟩, joined_net h.net hk hs, ?_, ?_, ?_, ?_, ?_, ?_, ?_, ?_, ?_, ?_⟩
  · intro p
    simp only [joined]
    split
    · rfl
    · exact h.loop p
  · intro p hp
    by_cases hpy' : p = y
    · subst hpy'; exact hky p
    · rw [hkx p p hpy']; exact h.self p ((List.mem_cons.mp hp).resolve_left hpy')
  · intro p hp
    by_cases hpy' : p = y
    · subst hpy'; rw [hpy]; exact hf.1
    · rw [hpx p hpy']; exact h.tidy p ((List.mem_cons.mp hp).resolve_left hpy')
  · intro p hp hnh; obtain ⟨h1, h2, h3⟩ := hmem p hp hnh; rw [hpx p h3]; exact h.runs p h1 h2
  · intro p hp hnh; obtain ⟨h1, h2, h3⟩ := hmem p hp hnh; rw [hpx p h3]; exact h.started p h1 h2
  · intro p hp hnh; obtain ⟨h1, h2, h3⟩ := hmem p hp hnh; rw [hpx p h3]; exact h.idle p h1 h2
  · intro p hp hnh; obtain ⟨h1, h2, h3⟩ := hmem p hp hnh; rw [hpx p h3]; exact h.waits p h1 h2
  · intro p hp
    by_cases hpy' : p = y
    · subst hpy'; rw [hpy, hf.2.2.2]; intro hx; omega
    · rw [hpx p hpy']; exact h.steps p ((List.mem_cons.mp hp).resolve_left hpy')
  · intro a b ha hb hne hbe v hv
    by_cases hay : a = y
    · subst hay
      right; rw [hpy, hf.2.2.1, hf.2.2.2]; decide
    · have ha' := (List.mem_cons.mp ha).resolve_left hay
      by_cases hby : b = y
      · subst hby
        exact absurd (List.Sublist.cons_cons _ (List.singleton_sublist.mpr ha')) hbe
      · have hb' := (List.mem_cons.mp hb).resolve_left hby
        rw [hpx a hay, hcx a b hay hby]
        exact h.later a b ha' hb' hne (fun hx => hbe (List.Sublist.cons _ hx)) v (hhx a b v hby hv)
  · intro a b ha hb hne hbe hkn v hv
    by_cases hay : a = y
    · subst hay; exact absurd hkn (hky b)
    · have ha' := (List.mem_cons.mp ha).resolve_left hay
      rw [hkx a b hay] at hkn
      by_cases hby : b = y
      · subst hby; exact absurd hkn (hk a)
      · have hb' := (List.mem_cons.mp hb).resolve_left hby
        have hbe' : Before ps a b := by
          cases hbe with
          | cons _ hx => exact hx
          | cons_cons _ hx => exact absurd rfl hby
        rw [hpx a hay, hcx a b hay hby]
        exact h.earlier a b ha' hb' hne hbe' hkn v (hhx a b v hby hv)

theorem ch_hold {ps held n tr p} (h : ChInv ps held n tr) : ChInv ps (p :: held) n tr :=
  ⟨h.nodup, h.net, h.loop, h.self, h.tidy, fun x hx hn => h.runs x hx (fun hh => hn (List.mem_cons_of_mem _ hh)),
   fun x hx hn => h.started x hx (fun hh => hn (List.mem_cons_of_mem _ hh)),
   fun x hx hn => h.idle x hx (fun hh => hn (List.mem_cons_of_mem _ hh)),
   fun x hx hn => h.waits x hx (fun hh => hn (List.mem_cons_of_mem _ hh)), h.steps, h.later, h.earlier⟩

theorem ch_resume {ps held n tr p n' obs} (h : ChInv ps held n tr) (hp : p ∈ ps) (hr : Ready (n.part p))
    (ha : n.act (.event p .request) = some (n', obs)) : ChInv ps (held.filter (· ≠ p)) n' (tr ++ obs) := by
  have hrun := able_runs (h.tidy p hp) ⟨hr.1, hr.2.1, hr.2.2.1⟩
  have ha' := ha
  simp only [Net.act, Event.allowedFor, if_true, Option.map_eq_some_iff, Prod.mk.injEq] at ha'
  obtain ⟨⟨s', outs⟩, ho, hn, rfl⟩ := ha'
  have hin : (n.part p).inHandler = false := by
    cases hx : (n.part p).inHandler with
    | false => rfl
    | true => simp [Part.on, hx, Event.onIoThread] at ho
  have ho' : (n.part p).requestNextStep = (s', outs) := by
    simpa [Part.on, hin] using ho
  have hab : ∀ q, .out q .abort ∉ (.did p .request :: (n.commit p (s', outs)).2 : List Obs) := by
    intro q hx
    simp only [Net.commit, List.mem_cons, List.mem_map, reduceCtorEq, false_or, Obs.out.injEq] at hx
    obtain ⟨o, hx, _, rfl⟩ := hx
    exact request_no_abort (n.part p) (by rw [ho']; exact hx)
  have hc := ch_core h (a := .event p .request) ⟨hp, hr.2.2.2⟩ ha hab
  rw [request_live hrun, Prod.mk.injEq] at ho'
  have hpart : n'.part p = s' := by rw [← hn, commit_part, if_pos rfl]
  have hs : s' = { n.part p with lastSent := (n.part p).cfg.next.tp, polls := (n.part p).polls + 1 } := ho'.1.symm
  have hmem : ∀ x, x ∉ held.filter (· ≠ p) → x = p ∨ x ∉ held := by
    intro x hx
    rcases Decidable.em (x = p) with he | he
    · exact Or.inl he
    · right; intro hh; exact hx (List.mem_filter.mpr ⟨hh, by simpa using he⟩)
  refine ⟨hc.nodup, hc.net, hc.loop, hc.self, hc.tidy, ?_, ?_, ?_, ?_, hc.steps, hc.later, hc.earlier⟩
  · intro x hx hnh
    rcases hmem x hnh with rfl | hnh
    · rw [hpart, hs]; exact ⟨hrun.state, hrun.stop, hrun.pause, hrun.coupled, hrun.noError⟩
    · exact hc.runs x hx hnh
  · intro x hx hnh
    rcases hmem x hnh with rfl | hnh
    · rw [hpart, hs]
      exact ⟨(h.net.ok x).next0, List.mem_append_right _ List.mem_cons_self⟩
    · exact hc.started x hx hnh
  · intro x hx hnh
    rcases hmem x hnh with rfl | hnh
    · rw [hpart, hs]; exact fun _ => rfl
    · exact hc.idle x hx hnh
  · intro x hx hnh
    rcases hmem x hnh with rfl | hnh
    · rw [hpart, hs]; intro _ hx; exact absurd hx (by simp)
    · exact hc.waits x hx hnh

theorem ch_leave {ps held n tr p} (h : ChInv ps held n tr) : ChInv (ps.filter (· ≠ p)) (held.filter (· ≠ p)) n tr := by
  have hps : ∀ x, x ∈ ps.filter (· ≠ p) → x ∈ ps ∧ x ≠ p := fun x hx => by simpa using List.mem_filter.mp hx
  have hheld : ∀ x, x ≠ p → x ∉ held.filter (· ≠ p) → x ∉ held :=
    fun x hx hn hh => hn (List.mem_filter.mpr ⟨hh, by simpa using hx⟩)
  have hbe : ∀ x y, x ≠ p → y ≠ p → (Before (ps.filter (· ≠ p)) x y ↔ Before ps x y) := by
    intro x y hx hy
    constructor
    · intro hh; exact hh.trans List.filter_sublist
    · intro hh
      have := List.Sublist.filter (· ≠ p) hh
      simpa [Before, hx, hy] using this
  refine ⟨h.nodup.filter _, h.net, h.loop, ?_, ?_, ?_, ?_, ?_, ?_, ?_, ?_, ?_⟩
  · exact fun x hx => h.self x (hps x hx).1
  · exact fun x hx => h.tidy x (hps x hx).1
  · exact fun x hx hn => h.runs x (hps x hx).1 (hheld x (hps x hx).2 hn)
  · exact fun x hx hn => h.started x (hps x hx).1 (hheld x (hps x hx).2 hn)
  · exact fun x hx hn => h.idle x (hps x hx).1 (hheld x (hps x hx).2 hn)
  · exact fun x hx hn => h.waits x (hps x hx).1 (hheld x (hps x hx).2 hn)
  · exact fun x hx => h.steps x (hps x hx).1
  · exact fun x y hx hy hne hb => h.later x y (hps x hx).1 (hps y hy).1 hne (fun hh => hb ((hbe x y (hps x hx).2 (hps y hy).2).mpr hh))
  · exact fun x y hx hy hne hb => h.earlier x y (hps x hx).1 (hps y hy).1 hne ((hbe x y (hps x hx).2 (hps y hy).2).mp hb)

theorem changing_inv {ps held n tr} (h : Changing ps held n tr) : ChInv ps held n tr := by
  induction h with
  | init h => exact ch_init h
  | step _ hm ha hab ih => exact ch_core ih (may_core hm) ha hab
  | join _ hy hk hs ih => exact ch_join ih hy hk hs
  | hold _ _ ih => exact ch_hold ih
  | resume _ hp hr ha ih => exact ch_resume ih hp hr ha
  | leave _ ih => exact ch_leave ih

/-! ## No deadlock -/

theorem changing_no_deadlock {ps held n tr} (h : ChInv ps held n tr) (hh : ∀ p ∈ ps, p ∉ held) (hne : ps ≠ []) :
    ∃ a, May ps held n a ∧ (n.act a).isSome ∧ Pending ps n a := by
  by_cases hb : ∃ p ∈ ps, (n.part p).busy = true
  · obtain ⟨p, hp, hb⟩ := hb
    cases hi : (n.part p).inHandler with
    | true =>
      refine ⟨.event p .stepReturned, hp, ?_, trivial⟩
      simp [Net.act, Event.allowedFor, Part.on, Event.onIoThread, hi]
    | false =>
      have ha : (n.part p).asyncExecuting = true := by simpa [Part.busy, hi] using hb
      refine ⟨.event p .complete, ⟨hp, ha⟩, ?_, trivial⟩
      simp [Net.act, Event.allowedFor, Part.on, Event.onIoThread, hi]
  have hin : ∀ p ∈ ps, (n.part p).inHandler = false := by
    intro p hp
    cases hx : (n.part p).inHandler with
    | false => rfl
    | true => exact absurd ⟨p, hp, by simp [Part.busy, hx]⟩ hb
  by_cases hd : ∃ p ∈ ps, ∃ q ∈ ps, q ≠ p ∧ ¬ Knows n p q
  · obtain ⟨p, hp, q, hq, hqp, hk⟩ := hd
    refine ⟨.event p (.discovered q), ⟨hp, hq, hk⟩, ?_, hq, hqp, hk⟩
    simp [Net.act, Event.allowedFor, Part.on, hin p hp, hqp]
  by_cases hl : ∃ p ∈ ps, ∃ q, q ∉ ps ∧ Knows n p q
  · obtain ⟨p, hp, q, hq, hk⟩ := hl
    refine ⟨.event p (.lost q), ⟨hp, hq⟩, ?_, hq, hk⟩
    simp [Net.act, Event.allowedFor, Part.on, hin p hp]
  have hset : Settled ps n := by
    intro p hp q
    constructor
    · intro hk
      refine ⟨Decidable.byContradiction (fun hq => hl ⟨p, hp, q, hq, hk⟩), ?_⟩
      rintro rfl
      exact h.self q hp hk
    · rintro ⟨hq, hqp⟩
      exact Classical.byContradiction (fun hk => hd ⟨p, hp, q, hq, hqp, hk⟩)
  obtain ⟨a, h1, h2, h3⟩ := no_deadlock (live_of_settled h hh hset) hne (fun p hp => (h.started p hp (hh p hp)).2)
  refine ⟨a, ?_, h2, ?_⟩
  · cases a with
    | event p e => cases e <;> first | exact h1 | exact ⟨h1.1, hh p h1.1, h1.2⟩ | exact h1.elim
    | deliver q p =>
      refine ⟨h1.2, Or.inr (Or.inl ((hset p h1.2 q).mpr ⟨h1.1, ?_⟩))⟩
      rintro rfl
      simp [Net.act, h.loop q] at h2
    | data p x => exact h1
  · rcases h3 with h3 | ⟨q, p, rfl⟩
    · cases a with
      | event p e => cases e <;> first | exact h3 | exact h3.elim
      | deliver q p => trivial
      | data p x => exact h3
    · trivial

/-! ## Nobody aborts -/

theorem advanceAndExecute_coord (s : Part) : s.advanceAndExecute.1.coordinated = s.coordinated ∧
    (.abort ∈ s.advanceAndExecute.2 → s.hopOnEvaluated = false ∧ s.coordinated = true) := by
  have hw : ∀ s : Part, s.startWallClock.coordinated = s.coordinated := fun s => by unfold Part.startWallClock; split <;> rfl
  unfold Part.advanceAndExecute
  split
  · split
    · exact ⟨rfl, by simp [Part.execute]⟩
    · next hh =>
      split
      · split
        · next hc => exact ⟨rfl, fun _ => ⟨by simpa using hh, hc⟩⟩
        · refine ⟨?_, by simp [Part.execute]⟩
          show Part.coordinated (Part.startWallClock _) = _
          rw [hw]
      · refine ⟨?_, by simp [Part.execute]⟩
        show Part.coordinated (Part.startWallClock _) = _
        rw [hw]
  · exact ⟨rfl, by simp⟩

theorem request_coord (s : Part) : s.requestNextStep.1.coordinated = s.coordinated := by
  unfold Part.requestNextStep; split <;> rfl

theorem afterSyncStep_coord (s : Part) : s.afterSyncStep.1.coordinated = s.coordinated := by
  unfold Part.afterSyncStep; split
  · exact request_coord s
  · rfl

theorem process_coord (s : Part) : s.process.1.coordinated = s.coordinated ∧
    (.abort ∈ s.process.2 → s.hopOnEvaluated = false ∧ s.coordinated = true) := by
  have h := advanceAndExecute_coord s
  unfold Part.process
  split
  · split
    · unfold Part.advanceSync
      dsimp only
      split
      · refine ⟨by rw [afterSyncStep_coord]; exact h.1, ?_⟩
        intro hx
        rcases List.mem_append.mp hx with hx | hx
        · exact h.2 hx
        · exact absurd hx (afterSyncStep_no_abort _)
      · exact h
    · unfold Part.advanceAsync
      split
      · exact ⟨rfl, by simp⟩
      · exact advanceAndExecute_coord { s with asyncExecuting := true }
  · exact ⟨rfl, by simp⟩

theorem on_coord {s s' : Part} {e : Event} {outs} (ho : s.on e = some (s', outs)) : s'.coordinated = s.coordinated ∧
    (.abort ∈ outs → s.hopOnEvaluated = false ∧ s.coordinated = true) := by
  have hp : ∀ s0 : Part, s0.coordinated = s.coordinated → s0.hopOnEvaluated = s.hopOnEvaluated → s0.process = (s', outs) →
      s'.coordinated = s.coordinated ∧ (.abort ∈ outs → s.hopOnEvaluated = false ∧ s.coordinated = true) := by
    intro s0 h1 h2 h3
    have := process_coord s0
    rw [h3, h1, h2] at this
    exact this
  have hr : ∀ s0 : Part, s0.coordinated = s.coordinated → s0.requestNextStep = (s', outs) →
      s'.coordinated = s.coordinated ∧ (.abort ∈ outs → s.hopOnEvaluated = false ∧ s.coordinated = true) := by
    intro s0 h1 h3
    have h4 := request_coord s0
    have h5 := request_no_abort s0
    rw [h3] at h4 h5
    exact ⟨h4.trans h1, fun hx => absurd hx h5⟩
  unfold Part.on at ho
  split at ho
  · cases ho
  · cases e with
    | lifecycle a b c => cases ho; exact ⟨rfl, by simp⟩
    | systemError b => cases ho; exact ⟨rfl, by simp⟩
    | wallClock t r => cases ho; exact ⟨rfl, by simp⟩
    | setStepDuration d =>
      simp only [Option.map_eq_some_iff, Prod.mk.injEq] at ho
      obtain ⟨c, _, rfl, rfl⟩ := ho
      exact ⟨rfl, by simp⟩
    | setDynamic b => cases ho; exact ⟨rfl, by simp⟩
    | discovered q =>
      simp only [Part.discovered, Option.some.injEq, Prod.mk.injEq] at ho
      obtain ⟨rfl, rfl⟩ := ho
      refine ⟨rfl, ?_⟩
      split <;> simp
    | lost q =>
      simp only [Part.lost, Option.some.injEq] at ho
      split at ho
      · exact hp { s with cfg := s.cfg.remove q } rfl rfl ho
      · cases ho; exact ⟨rfl, by simp⟩
    | receive q t =>
      simp only [Part.receive, Option.some.injEq] at ho
      split at ho
      · exact hp { s with cfg := s.cfg.receive q t } rfl rfl ho
      · exact hp { s with cfg := s.cfg.receive q t } rfl rfl ho
      · cases ho; exact ⟨rfl, by simp⟩
      · cases ho; exact ⟨rfl, by simp⟩
    | request => exact hr _ rfl (by simpa using ho)
    | poll =>
      dsimp only at ho
      split at ho
      · cases ho
      · exact hp { s with polls := s.polls - 1 } rfl rfl (by simpa using ho)
    | stepReturned =>
      dsimp only at ho
      split at ho
      · have h4 := afterSyncStep_coord { s with inHandler := false }
        have h5 := afterSyncStep_no_abort { s with inHandler := false }
        simp only [Option.some.injEq] at ho
        rw [ho] at h4 h5
        exact ⟨h4, fun hx => absurd hx h5⟩
      · cases ho
    | complete =>
      simp only [Part.complete, Option.some.injEq] at ho
      split at ho
      · exact hr { s with asyncExecuting := false, wallClockReached := false } rfl ho
      · cases ho; exact ⟨rfl, by simp⟩

theorem act_engaged {ps held n a n' obs} (h : NetInv n) (hc : Engaged ps n) (hm : MayCore ps held n a) (ha : n.act a = some (n', obs)) :
    Engaged ps n' ∧ ∀ p, .out p .abort ∉ obs := by
  rcases act_shape ha with ⟨p, e, s', outs, n0, ho, hn, h0, hcase⟩ | ⟨q, p, x, t, rest, rfl, hch, rfl, rfl⟩ | ⟨p, x, t, rfl, rfl, rfl⟩
  · have hpart : ∀ x, n'.part x = if x = p then s' else n.part x := by intro x; rw [← hn, commit_part, h0]
    have hco := on_coord ho
    have hfacts : p ∈ ps ∧ Effect (n.part p) e s' outs ∧ (∀ q, .out q .abort ∈ obs → .abort ∈ outs) := by
      rcases hcase with ⟨rfl, rfl, hae, rfl⟩ | ⟨q, t, rest, rfl, rfl, hch, rfl, rfl⟩
      · obtain ⟨h1, h2, h3, h4, h5, h6, h7, h8⟩ := mayCore_event hm
        refine ⟨h1, effect_on (h.ok p) ?_ h3 (fun q t he => absurd he (h5 q t)) ho, ?_⟩
        · rintro d rfl; exact hm.2
        · intro q hx; exact (show Out.abort ∈ outs ∧ p = q by simpa using hx).1
      · refine ⟨hm.1, effect_on (h.ok p) nofun nofun ?_ ho, ?_⟩
        · intro q' t' he; cases he; exact (h.chans q p t (by rw [hch]; simp)).2
        · intro q' hx
          simp only [List.mem_map, Obs.out.injEq] at hx
          obtain ⟨o, hx, _, rfl⟩ := hx
          exact hx
    obtain ⟨hp, heff, hobs⟩ := hfacts
    refine ⟨?_, ?_⟩
    · intro x hx
      rw [hpart]
      split
      · next hxp =>
        subst hxp
        rcases hc x hx with h1 | h1
        · exact Or.inl (heff.hop h1)
        · exact Or.inr (hco.1.trans h1)
      · exact hc x hx
    · intro x hx
      have := hco.2 (hobs x hx)
      rcases hc p hp with h1 | h1
      · rw [h1] at this; cases this.1
      · rw [h1] at this; cases this.2
  · exact ⟨hc, by simp⟩
  · exact ⟨hc, by simp⟩

theorem engaged_calm {ps : List String} : Calm ps (fun n => Engaged ps n ∧ (∀ p, n.chan p p = []) ∧ Settled ps n) := by
  rintro n tr a n' obs h ⟨hc, hloop, hset⟩ hal _ ha
  have hm : MayCore ps [] n a := by
    cases a with
    | event p e => cases e <;> first | exact hal | exact hal.elim
    | deliver q p =>
      refine ⟨hal.2, Or.inr (Or.inl ((hset p hal.2 q).mpr ⟨hal.1, ?_⟩))⟩
      rintro rfl
      simp [Net.act, hloop q] at ha
    | data p x => exact hal
  have he := act_engaged h.net hc hm ha
  refine ⟨⟨he.1, ?_, (live_step h hal ha he.2).keys⟩, he.2⟩
  intro x
  rcases act_shape ha with ⟨p, e, s', outs, n0, ho, hn, h0, hcase⟩ | ⟨q, p, y, t, rest, rfl, hch, rfl, rfl⟩ | ⟨p, y, t, rfl, rfl, rfl⟩
  · rw [← hn, commit_chan, if_neg (by rintro ⟨rfl, hx⟩; exact hx rfl)]
    rcases hcase with ⟨_, rfl, _, _⟩ | ⟨q, u, rest, _, _, hch, rfl, _⟩
    · exact hloop x
    · simp only [Net.setChan]
      split
      · next hx => obtain ⟨rfl, rfl⟩ := hx; rw [hloop] at hch; cases hch
      · exact hloop x
  · simp only [Net.setChan]
    split
    · next hx => obtain ⟨rfl, rfl⟩ := hx; rw [hloop] at hch; cases hch
    · exact hloop x
  · dsimp only
    rw [if_neg (by rintro ⟨rfl, hx⟩; exact hx rfl)]; exact hloop x

/-! ## Who is known -/

theorem knows_step {ps held n tr a n' obs} (h : ChInv ps held n tr) (hm : MayCore ps held n a) (ha : n.act a = some (n', obs))
    (hab : ∀ p, .out p .abort ∉ obs) (x q : String) (hk : Knows n' x q) : Knows n x q ∨ q ∈ ps := by
  rcases act_shape ha with ⟨p, e, s', outs, n0, ho, hn, h0, hcase⟩ | ⟨q', p, y, t, rest, rfl, hch, rfl, rfl⟩ | ⟨p, y, t, rfl, rfl, rfl⟩
  · have hpart : ∀ x, n'.part x = if x = p then s' else n.part x := by intro x; rw [← hn, commit_part, h0]
    have hfacts : p ∈ ps ∧ e.ofChanging ∧ (e = .request → (n.part p).asyncExecuting = false) ∧
      (e = .complete → (n.part p).asyncExecuting = true) ∧ (∀ q t, e = .receive q t → 0 ≤ t.dur) ∧
      (∀ q, e = .discovered q → q ∈ ps) ∧ .abort ∉ outs := by
      rcases hcase with ⟨rfl, rfl, hae, rfl⟩ | ⟨q, t, rest, rfl, rfl, hch, rfl, rfl⟩
      · obtain ⟨h1, h2, h3, h4, h5, h6, h7, h8⟩ := mayCore_event hm
        exact ⟨h1, h2, h3, h4, fun q t he => absurd he (h5 q t), fun q he => (h6 q he).1,
          fun hx => hab p (List.mem_cons_of_mem _ (List.mem_map.mpr ⟨_, hx, rfl⟩))⟩
      · refine ⟨hm.1, Or.inl (Or.inr (Or.inr (Or.inr (Or.inr (Or.inr (Or.inr ⟨q, t, rfl⟩)))))), nofun, nofun, ?_, nofun,
          fun hx => hab p (List.mem_map.mpr ⟨_, hx, rfl⟩)⟩
        intro q' t' he; cases he; exact (h.net.chans q p t (by rw [hch]; simp)).2
    obtain ⟨hp, hk', hreq, hcomp, hv, hdisc, hab'⟩ := hfacts
    obtain ⟨hloc, _⟩ := loc (h.net.ok p) (h.tidy p hp) ho hreq hcomp hv hab' hk'
    simp only [Knows, hpart] at hk
    split at hk
    · next hxp =>
      subst hxp
      rw [hloc.others, othersAfter_keys] at hk
      rcases hk.1 with hk | hk
      · exact Or.inl hk
      · exact Or.inr (hdisc q hk)
    · exact Or.inl hk
  · exact Or.inl hk
  · exact Or.inl hk

end SilKit.TimeSync
