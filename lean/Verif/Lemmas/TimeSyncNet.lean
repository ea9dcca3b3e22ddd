import Verif.Spec.TimeSyncNet
import Verif.Lemmas.TimeSync
/-!
# Announced time points are lower bounds
-/
namespace SilKit.TimeSync
open Spec

/-- A lower bound for the step in progress and all future steps of a participant. -/
def Part.bound (s : Part) : Int := if s.busy = true ∧ 0 ≤ s.cfg.current.tp then s.cfg.current.tp else s.cfg.next.tp

/-- Invariant of one participant. -/
structure Ok (s : Part) : Prop where
  dur : 0 < s.cfg.next.dur
  next0 : 0 ≤ s.cfg.next.tp
  cur : s.cfg.current.tp = -1 ∨ (0 ≤ s.cfg.current.tp ∧ s.cfg.current.tp ≤ s.cfg.next.tp ∧ 0 ≤ s.cfg.current.dur)
  fresh : s.hopOnEvaluated = false → s.cfg.current.tp = -1 ∧ s.cfg.next.tp = 0
  sync : s.cfg.blocking = true → s.asyncExecuting = false
  async : s.cfg.blocking = false → s.inHandler = false
  views : ∀ e ∈ s.cfg.others, 0 ≤ e.2.dur

theorem Ok.bound_le {s : Part} (h : Ok s) : s.bound ≤ s.cfg.next.tp := by
  unfold Part.bound
  rcases h.cur with hc | hc
  · rw [if_neg (by omega)]; omega
  · split <;> omega

theorem Ok.bound_nonneg {s : Part} (h : Ok s) : 0 ≤ s.bound := by
  unfold Part.bound
  split
  · next hc => exact hc.2
  · exact h.next0

theorem bound_idle {s : Part} (h : s.busy = false) : s.bound = s.cfg.next.tp := by
  unfold Part.bound; rw [if_neg (by simp [h])]

/-- What one reaction guarantees. -/
structure Good (s s' : Part) (outs : List Out) : Prop where
  ok : Ok s'
  mono : s.bound ≤ s'.bound
  sends : ∀ t, .send t ∈ outs → t.tp ≤ s'.bound ∧ 0 ≤ t.dur
  steps : ∀ t d, .step t d ∈ outs → s.bound ≤ t ∧ s'.busy = true ∧ s'.cfg.current.tp = t ∧ s'.hopOnEvaluated = true ∧
    ((s.hopOnEvaluated = true ∨ t = 0) → ∀ e ∈ s'.cfg.others, t ≤ e.2.tp)
  hop : s.hopOnEvaluated = true → s'.hopOnEvaluated = true
  others : s'.cfg.others = s.cfg.others
  keep : s.busy = true → s'.busy = true ∧ s'.cfg.current = s.cfg.current ∧ ∀ t d, .step t d ∉ outs

theorem Good.refl {s : Part} (h : Ok s) : Good s s [] :=
  ⟨h, Int.le_refl _, by simp, by simp, id, rfl, fun hb => ⟨hb, rfl, by simp⟩⟩

theorem good_request {s : Part} (h : Ok s) (hb : s.busy = false) : Good s s.requestNextStep.1 s.requestNextStep.2 := by
  unfold Part.requestNextStep
  split
  · refine ⟨⟨h.dur, h.next0, h.cur, h.fresh, h.sync, h.async, h.views⟩, Int.le_refl _, ?_, ?_, id, rfl,
      fun hbz => by rw [hb] at hbz; cases hbz⟩
    · intro t ht
      dsimp only at ht
      split at ht
      · simp only [List.mem_singleton, Out.send.injEq] at ht
        subst ht
        refine ⟨?_, Int.le_of_lt h.dur⟩
        show _ ≤ s.bound
        rw [bound_idle hb]; exact Int.le_refl _
      · simp at ht
    · intro t d ht
      dsimp only at ht
      split at ht <;> simp at ht
  · exact Good.refl h

theorem minimalAligned_nonneg (c : TimeConfig) : 0 ≤ c.minimalAligned := by
  unfold TimeConfig.minimalAligned
  split
  · decide
  · dsimp only
    split
    · decide
    · omega

theorem advance_dur_nonneg (c : TimeConfig) (hd : 0 < c.next.dur) : 0 ≤ c.advance.current.dur := by
  show 0 ≤ c.nextCurrent.dur
  simp only [TimeConfig.nextCurrent]
  split
  · exact minimalAligned_nonneg _
  · omega

/-- Executing a step, with the busy mark set afterwards (`inHandler`) or before (`asyncExecuting`). -/
theorem good_execute {s : Part} (h : Ok s) (hh : s.hopOnEvaluated = true) (b1 b2 : Bool) (hb : (b1 || b2) = true)
    (h1 : s.cfg.blocking = true → b2 = false) (h2 : s.cfg.blocking = false → b1 = false) :
    Ok { s.execute.1 with inHandler := b1, asyncExecuting := b2 } ∧
    ({ s.execute.1 with inHandler := b1, asyncExecuting := b2 } : Part).bound = s.cfg.next.tp ∧
    ({ s.execute.1 with inHandler := b1, asyncExecuting := b2 } : Part).cfg.current.tp = s.cfg.next.tp := by
  have hs := advance_spec s.cfg
  have hd := advance_dur_nonneg s.cfg h.dur
  have hok : Ok ({ s.execute.1 with inHandler := b1, asyncExecuting := b2 } : Part) :=
    { dur := by show 0 < s.cfg.advance.next.dur; rw [hs.2.2.1]; exact h.dur
      next0 := by
        show 0 ≤ s.cfg.advance.next.tp
        have := h.next0
        rw [hs.2.1, hs.1]; omega
      cur := by
        right
        show 0 ≤ s.cfg.advance.current.tp ∧ s.cfg.advance.current.tp ≤ s.cfg.advance.next.tp ∧ _
        have := h.next0
        rw [hs.2.1, hs.1]
        exact ⟨this, by omega, hd⟩
      fresh := by intro hc; exact absurd hh (by simp only [Part.execute] at hc; simp [hc])
      sync := by intro hc; exact h1 (by rw [← hs.2.2.2.2.2.1]; exact hc)
      async := by intro hc; exact h2 (by rw [← hs.2.2.2.2.2.1]; exact hc)
      views := by intro e he; exact h.views e (by rw [← hs.2.2.2.1]; exact he) }
  refine ⟨hok, ?_, hs.1⟩
  unfold Part.bound
  rw [if_pos]
  · exact hs.1
  · refine ⟨by simpa [Part.busy] using hb, ?_⟩
    show 0 ≤ s.cfg.advance.current.tp
    rw [hs.1]; exact h.next0

theorem hopOn_time {s : Part} (h : Ok s) : 0 < s.cfg.hopOn.next.tp := by
  show 0 < s.cfg.ahead.foldl min maxNs
  rcases foldl_min_mem s.cfg.ahead maxNs with hm | hm
  · rw [hm]; decide
  · simp only [TimeConfig.ahead, List.mem_map, List.mem_filter, decide_eq_true_eq] at hm
    obtain ⟨e, ⟨h1, h2⟩, h3⟩ := hm
    have := h.views e h1
    simp only [TimeConfig.ahead]
    omega

theorem startWallClock_fields (s : Part) :
    s.startWallClock.cfg = s.cfg ∧ s.startWallClock.hopOnEvaluated = s.hopOnEvaluated ∧ s.startWallClock.inHandler = s.inHandler ∧
    s.startWallClock.asyncExecuting = s.asyncExecuting := by
  unfold Part.startWallClock; split <;> exact ⟨rfl, rfl, rfl, rfl⟩

theorem ok_startWallClock {s : Part} (h : Ok s) : Ok s.startWallClock := by
  obtain ⟨h1, h2, h3, h4⟩ := startWallClock_fields s
  constructor <;> (try rw [h1]) <;> (try rw [h2]) <;> (try rw [h3]) <;> (try rw [h4])
  · exact h.dur
  · exact h.next0
  · exact h.cur
  · exact h.fresh
  · exact h.sync
  · exact h.async
  · exact h.views

theorem ok_evaluated {s : Part} (h : Ok s) : Ok { s with hopOnEvaluated := true } :=
  ⟨h.dur, h.next0, h.cur, by simp, h.sync, h.async, h.views⟩

theorem ok_hopOn {s : Part} (h : Ok s) (hc : s.cfg.current.tp = -1) : Ok { s with hopOnEvaluated := true, cfg := s.cfg.hopOn } :=
  ⟨h.dur, Int.le_of_lt (hopOn_time h), Or.inl hc, by simp, h.sync, h.async, h.views⟩

/-- The four outcomes of `AdvanceTimeAndExecuteSimStep`. -/
theorem advanceAndExecute_cases {s : Part} (h : Ok s) (hl : s.cfg.otherLower = false) :
    (s.advanceAndExecute = (s, []) ∧ s.state ≠ .running) ∨
    (s.advanceAndExecute.2 = [.abort] ∧ Ok s.advanceAndExecute.1 ∧ s.advanceAndExecute.1.inHandler = s.inHandler ∧
      s.advanceAndExecute.1.asyncExecuting = s.asyncExecuting ∧ s.advanceAndExecute.1.cfg.current = s.cfg.current ∧
      s.cfg.current.tp = -1 ∧ s.cfg.next.tp ≤ s.advanceAndExecute.1.cfg.next.tp ∧ s.advanceAndExecute.1.cfg.others = s.cfg.others ∧
      s.advanceAndExecute.1.hopOnEvaluated = true ∧ s.advanceAndExecute.1.cfg.blocking = s.cfg.blocking) ∨
    ∃ s1 : Part, s.advanceAndExecute = s1.execute ∧ Ok s1 ∧ s1.hopOnEvaluated = true ∧ s.cfg.next.tp ≤ s1.cfg.next.tp ∧
      s1.cfg.others = s.cfg.others ∧ s1.inHandler = s.inHandler ∧ s1.asyncExecuting = s.asyncExecuting ∧
      s1.cfg.blocking = s.cfg.blocking ∧
      ((s.hopOnEvaluated = true ∨ s1.cfg.next.tp = 0) → ∀ e ∈ s.cfg.others, s1.cfg.next.tp ≤ e.2.tp) := by
  have hview : ∀ e ∈ s.cfg.others, s.cfg.next.tp ≤ e.2.tp := by
    intro e he
    have := hl
    simp only [TimeConfig.otherLower, List.any_eq_false, decide_eq_true_eq] at this
    have := this e he
    omega
  unfold Part.advanceAndExecute
  split
  · split
    · next hh =>
      right; right
      exact ⟨s, rfl, h, hh, Int.le_refl _, rfl, rfl, rfl, rfl, fun _ => hview⟩
    · next hh =>
      have hf := h.fresh (by simpa using hh)
      split
      · have ht := hopOn_time h
        split
        · right; left
          have h0 := h.next0
          refine ⟨rfl, ok_hopOn h hf.1, rfl, rfl, rfl, hf.1, ?_, rfl, rfl, rfl⟩
          show s.cfg.next.tp ≤ s.cfg.hopOn.next.tp
          omega
        · right; right
          obtain ⟨w1, w2, w3, w4⟩ := startWallClock_fields ({ s with hopOnEvaluated := true, cfg := s.cfg.hopOn } : Part)
          refine ⟨_, rfl, ok_startWallClock (ok_hopOn h hf.1), w2, ?_, by rw [w1]; rfl, w3, w4, by rw [w1]; rfl, ?_⟩
          · rw [w1]; show s.cfg.next.tp ≤ s.cfg.hopOn.next.tp; omega
          · rw [w1]
            intro hc
            rcases hc with hc | hc
            · exact absurd hc hh
            · exfalso
              have : s.cfg.hopOn.next.tp = 0 := hc
              omega
      · right; right
        obtain ⟨w1, w2, w3, w4⟩ := startWallClock_fields ({ s with hopOnEvaluated := true } : Part)
        refine ⟨_, rfl, ok_startWallClock (ok_evaluated h), w2, by rw [w1]; exact Int.le_refl _, by rw [w1], w3, w4, by rw [w1], ?_⟩
        rw [w1]; exact fun _ => hview
  · next hn => left; exact ⟨rfl, fun hr => hn (Or.inr hr)⟩

theorem good_advanceSync {s : Part} (h : Ok s) (hl : s.cfg.otherLower = false) (hb : s.cfg.blocking = true) (hi : s.inHandler = false) :
    Good s s.advanceSync.1 s.advanceSync.2 := by
  have hidle : s.busy = false := by simp [Part.busy, hi, h.sync hb]
  have hafter : ∀ x : Part, Ok x → x.busy = false → Good x x.afterSyncStep.1 x.afterSyncStep.2 := by
    intro x hx hbx
    unfold Part.afterSyncStep
    split
    · exact good_request hx hbx
    · exact Good.refl hx
  unfold Part.advanceSync
  dsimp only
  rcases advanceAndExecute_cases h hl with ⟨he, _⟩ | ⟨he, hok, h3, h4, h5, h6, h7, h8, h9, h10⟩ | ⟨s1, he, hok, h3, h4, h5, h6, h7, h8, h9⟩
  · rw [he, if_pos (Or.inr rfl)]
    exact hafter s h hidle
  · rw [if_pos (Or.inl he), he]
    have hbusy : s.advanceAndExecute.1.busy = false := by simpa [Part.busy, h3, h4] using hidle
    have hg := hafter _ hok hbusy
    refine ⟨hg.ok, ?_, ?_, ?_, fun _ => hg.hop h9, by rw [hg.others, h8], fun hbz => by rw [hidle] at hbz; cases hbz⟩
    · refine Int.le_trans ?_ hg.mono
      rw [bound_idle hidle, bound_idle hbusy]; exact h7
    · intro t ht
      exact hg.sends t (by simpa using ht)
    · intro t d ht
      exact absurd (by simpa using ht) not_step_afterSyncStep
  · rw [he]
    rw [if_neg (by simp [Part.execute])]
    obtain ⟨e1, e2, e3⟩ := good_execute hok h3 true s1.asyncExecuting (by simp)
      (fun hbl => by rw [h7]; exact h.sync (by rw [← h8]; exact hbl)) (fun hbl => by rw [h8, hb] at hbl; cases hbl)
    have hstate : ({ s1.execute.1 with inHandler := true } : Part) =
        { s1.execute.1 with inHandler := true, asyncExecuting := s1.asyncExecuting } := rfl
    rw [hstate]
    refine ⟨e1, ?_, by simp [Part.execute], ?_, fun _ => h3, ?_, fun hbz => by rw [hidle] at hbz; cases hbz⟩
    · rw [bound_idle hidle, e2]; exact h4
    · intro t d ht
      simp only [Part.execute, List.mem_singleton, Out.step.injEq] at ht
      have ht1 : t = s1.cfg.next.tp := by rw [ht.1, (advance_spec s1.cfg).1]
      subst ht1
      refine ⟨by rw [bound_idle hidle]; exact h4, by simp [Part.busy], e3, h3, ?_⟩
      intro hc e he'
      have he'' : e ∈ s1.cfg.others := by
        have := he'; simp only [Part.execute, (advance_spec s1.cfg).2.2.2.1] at this; exact this
      rw [h5] at he''
      exact h9 hc e he''
    · show s1.cfg.advance.others = _
      rw [(advance_spec s1.cfg).2.2.2.1, h5]

theorem good_advanceAsync {s : Part} (h : Ok s) (hl : s.cfg.otherLower = false) (hb : s.cfg.blocking = false)
    (hrun : s.state = .running) :
    Good s s.advanceAsync.1 s.advanceAsync.2 := by
  have hi := h.async hb
  unfold Part.advanceAsync
  split
  · exact Good.refl h
  · next hx =>
    have hidle : s.busy = false := by simp [Part.busy, hi]; simpa using hx
    have h' : Ok ({ s with asyncExecuting := true } : Part) :=
      ⟨h.dur, h.next0, h.cur, h.fresh, fun hbl => absurd (show s.cfg.blocking = true from hbl) (by simp [hb]), h.async, h.views⟩
    rcases advanceAndExecute_cases h' hl with ⟨he, hr⟩ | ⟨he, hok, h3, h4, h5, h6, h7, h8, h9, h10⟩ | ⟨s1, he, hok, h3, h4, h5, h6, h7, h8, h9⟩
    · exact absurd hrun hr
    · refine ⟨hok, ?_, by simp [he], by simp [he], fun _ => h9, h8, fun hbz => by rw [hidle] at hbz; cases hbz⟩
      rw [bound_idle hidle]
      unfold Part.bound
      rw [h5]
      have : ({ s with asyncExecuting := true } : Part).cfg.current.tp = -1 := h6
      rw [if_neg (by omega)]
      exact h7
    · rw [he]
      have hai : s1.inHandler = false := by rw [h6]; exact hi
      have haa : s1.asyncExecuting = true := h7
      obtain ⟨e1, e2, e3⟩ := good_execute hok h3 false true (by simp)
        (fun hbl => absurd (show s.cfg.blocking = true by rw [h8] at hbl; exact hbl) (by simp [hb])) (fun _ => rfl)
      have hstate : s1.execute.1 = { s1.execute.1 with inHandler := false, asyncExecuting := true } := by
        rw [← hai, ← haa]; rfl
      rw [hstate]
      refine ⟨e1, ?_, by simp [Part.execute], ?_, fun _ => h3, ?_, fun hbz => by rw [hidle] at hbz; cases hbz⟩
      · rw [bound_idle hidle, e2]; exact h4
      · intro t d ht
        simp only [Part.execute, List.mem_singleton, Out.step.injEq] at ht
        have ht1 : t = s1.cfg.next.tp := by rw [ht.1, (advance_spec s1.cfg).1]
        subst ht1
        refine ⟨by rw [bound_idle hidle]; exact h4, by simp [Part.busy], e3, h3, ?_⟩
        intro hc e he'
        have he'' : e ∈ s1.cfg.others := by
          have := he'; simp only [Part.execute, (advance_spec s1.cfg).2.2.2.1] at this; exact this
        rw [h5] at he''
        exact h9 hc e he''
      · show s1.cfg.advance.others = _
        rw [(advance_spec s1.cfg).2.2.2.1, h5]

theorem good_process {s : Part} (h : Ok s) (hi : s.inHandler = false) : Good s s.process.1 s.process.2 := by
  unfold Part.process
  split
  · next hp =>
    simp only [Part.advancePossible, Bool.and_eq_true, Bool.not_eq_true', beq_iff_eq] at hp
    split
    · next hb => exact good_advanceSync h hp.1.2 hb hi
    · next hb => exact good_advanceAsync h hp.1.2 (by simpa using hb) hp.1.1.1.1.1
  · exact Good.refl h

/-- What one event guarantees: like `Good`, with the change of the views of the others. -/
structure Effect (s : Part) (e : Event) (s' : Part) (outs : List Out) : Prop where
  ok : Ok s'
  mono : s.bound ≤ s'.bound
  sends : ∀ t, .send t ∈ outs → t.tp ≤ s'.bound ∧ 0 ≤ t.dur
  steps : ∀ t d, .step t d ∈ outs → s.bound ≤ t ∧ s'.busy = true ∧ s'.cfg.current.tp = t ∧ s'.hopOnEvaluated = true ∧
    ((s.hopOnEvaluated = true ∨ t = 0) → ∀ v ∈ s'.cfg.others, t ≤ v.2.tp)
  hop : s.hopOnEvaluated = true → s'.hopOnEvaluated = true
  others : ∀ v ∈ s'.cfg.others, v ∈ s.cfg.others ∨ (v.2 = ⟨-1, 0⟩ ∧ e = .discovered v.1) ∨ e = .receive v.1 v.2
  keep : s.busy = true → e ≠ .stepReturned → e ≠ .complete →
    s'.busy = true ∧ s'.cfg.current = s.cfg.current ∧ ∀ t d, .step t d ∉ outs

theorem Good.effect {s0 s s' : Part} {outs} {e : Event} (g : Good s s' outs) (hb : s0.bound ≤ s.bound)
    (hh : s0.hopOnEvaluated = s.hopOnEvaluated)
    (ho : ∀ v ∈ s.cfg.others, v ∈ s0.cfg.others ∨ (v.2 = ⟨-1, 0⟩ ∧ e = .discovered v.1) ∨ e = .receive v.1 v.2)
    (hk : e ≠ .stepReturned → e ≠ .complete → s0.busy = s.busy ∧ s0.cfg.current = s.cfg.current) :
    Effect s0 e s' outs where
  ok := g.ok
  mono := Int.le_trans hb g.mono
  sends := g.sends
  steps := by
    intro t d ht
    obtain ⟨a, b⟩ := g.steps t d ht
    exact ⟨Int.le_trans hb a, by rw [hh]; exact b⟩
  hop := by rw [hh]; exact g.hop
  others := by rw [g.others]; exact ho
  keep := by
    intro hb h1 h2
    obtain ⟨k1, k2⟩ := hk h1 h2
    rw [k1] at hb
    rw [k2]
    exact g.keep hb

theorem receive_others (c : TimeConfig) (q : String) (t : Task) : ∀ v ∈ (c.receive q t).others, v ∈ c.others ∨ v = (q, t) := by
  intro v hv
  simp only [TimeConfig.receive, List.mem_map] at hv
  obtain ⟨e, he, rfl⟩ := hv
  split
  · next h => right; rw [h]
  · left; exact he

theorem add_others (c : TimeConfig) (q : String) : ∀ v ∈ (c.add q).others, v ∈ c.others ∨ v = (q, ⟨-1, 0⟩) := by
  intro v hv
  unfold TimeConfig.add at hv
  split at hv
  · exact Or.inl hv
  · simp only [List.mem_append, List.mem_singleton] at hv; exact hv

theorem effect_on {s s' : Part} {e : Event} {outs} (h : Ok s) (hd : ∀ d, e = .setStepDuration d → 0 < d)
    (hr : e = .request → s.asyncExecuting = false) (hv : ∀ q t, e = .receive q t → 0 ≤ t.dur)
    (ho : s.on e = some (s', outs)) : Effect s e s' outs := by
  have same : ∀ s' : Part, Ok s' → s'.bound = s.bound → s'.cfg.others = s.cfg.others → s'.hopOnEvaluated = s.hopOnEvaluated →
      s.busy = s'.busy ∧ s.cfg.current = s'.cfg.current → Effect s e s' [] := fun s' h1 h2 h3 h4 h5 =>
    (Good.refl h1).effect (by rw [h2]; exact Int.le_refl _) h4.symm (fun v hv => Or.inl (by rw [← h3]; exact hv)) (fun _ _ => h5)
  unfold Part.on at ho
  split at ho
  · cases ho
  · next hio =>
    cases e with
    | lifecycle st a b => simp only [Option.some.injEq, Prod.mk.injEq] at ho; obtain ⟨rfl, rfl⟩ := ho
                          exact same _ ⟨h.dur, h.next0, h.cur, h.fresh, h.sync, h.async, h.views⟩ rfl rfl rfl ⟨rfl, rfl⟩
    | systemError b => simp only [Option.some.injEq, Prod.mk.injEq] at ho; obtain ⟨rfl, rfl⟩ := ho
                       exact same _ ⟨h.dur, h.next0, h.cur, h.fresh, h.sync, h.async, h.views⟩ rfl rfl rfl ⟨rfl, rfl⟩
    | wallClock t r => simp only [Option.some.injEq, Prod.mk.injEq] at ho; obtain ⟨rfl, rfl⟩ := ho
                       exact same _ ⟨h.dur, h.next0, h.cur, h.fresh, h.sync, h.async, h.views⟩ rfl rfl rfl ⟨rfl, rfl⟩
    | setDynamic b => simp only [Option.some.injEq, Prod.mk.injEq] at ho; obtain ⟨rfl, rfl⟩ := ho
                      exact same _ ⟨h.dur, h.next0, h.cur, h.fresh, h.sync, h.async, h.views⟩ rfl rfl rfl ⟨rfl, rfl⟩
    | setStepDuration d =>
      have hd := hd d rfl
      simp only [TimeConfig.setStepDuration] at ho
      rw [if_neg (by omega)] at ho
      simp only [Option.map_some, Option.some.injEq, Prod.mk.injEq] at ho; obtain ⟨rfl, rfl⟩ := ho
      exact same _ ⟨hd, h.next0, h.cur, h.fresh, h.sync, h.async, h.views⟩ rfl rfl rfl ⟨rfl, rfl⟩
    | discovered q =>
      have hi : s.inHandler = false := by simpa [Event.onIoThread] using hio
      simp only [Part.discovered, Option.some.injEq, Prod.mk.injEq] at ho; obtain ⟨rfl, rfl⟩ := ho
      have hc := (add_next s.cfg q)
      have hbl : (s.cfg.add q).blocking = s.cfg.blocking := by unfold TimeConfig.add; split <;> rfl
      have hbd : ({ s with cfg := s.cfg.add q } : Part).bound = s.bound := by
        unfold Part.bound Part.busy; rw [show ({ s with cfg := s.cfg.add q } : Part).cfg = s.cfg.add q from rfl, hc.1, hc.2]
      refine ⟨⟨?_, ?_, ?_, ?_, ?_, ?_, ?_⟩, ?_, ?_, ?_, id, ?_, ?_⟩
      · show 0 < (s.cfg.add q).next.dur; rw [hc.1]; exact h.dur
      · show 0 ≤ (s.cfg.add q).next.tp; rw [hc.1]; exact h.next0
      · dsimp only; rw [hc.1, hc.2]; exact h.cur
      · dsimp only; rw [hc.1, hc.2]; exact h.fresh
      · dsimp only; rw [hbl]; exact h.sync
      · dsimp only; rw [hbl]; exact h.async
      · intro v hv'
        rcases add_others _ _ v hv' with hm | rfl
        · exact h.views v hm
        · exact Int.le_refl 0
      · rw [hbd]; exact Int.le_refl _
      · intro t ht
        rw [hbd]
        rw [hc.1, hc.2] at ht
        split at ht
        · next h0 =>
          simp only [List.mem_singleton, Out.send.injEq] at ht
          subst ht
          split
          · next ha =>
            refine ⟨?_, ?_⟩
            · unfold Part.bound; rw [if_pos ⟨by simp [Part.busy, ha], h0⟩]; exact Int.le_refl _
            · rcases h.cur with hx | hx
              · omega
              · exact hx.2.2
          · next ha =>
            rw [bound_idle (by simp [Part.busy, hi]; simpa using ha)]
            exact ⟨Int.le_refl _, Int.le_of_lt h.dur⟩
        · simp at ht
      · intro t d ht
        split at ht <;> simp at ht
      · intro v hv'
        rcases add_others _ _ v hv' with hm | rfl
        · exact Or.inl hm
        · exact Or.inr (Or.inl ⟨rfl, rfl⟩)
      · intro hb _ _
        refine ⟨hb, hc.2, ?_⟩
        intro t d ht
        split at ht <;> simp at ht
    | lost q =>
      have hi : s.inHandler = false := by simpa [Event.onIoThread] using hio
      simp only [Part.lost, Option.some.injEq] at ho
      have hsub : ∀ v ∈ (s.cfg.remove q).others, v ∈ s.cfg.others := by
        intro v hv'; simp only [TimeConfig.remove, List.mem_filter] at hv'; exact hv'.1
      split at ho
      · have hok : Ok ({ s with cfg := s.cfg.remove q } : Part) :=
          ⟨h.dur, h.next0, h.cur, h.fresh, h.sync, h.async, fun v hv' => h.views v (hsub v hv')⟩
        have g := good_process hok hi
        rw [ho] at g
        exact g.effect (Int.le_refl _) rfl (fun v hv' => Or.inl (hsub v hv')) (fun _ _ => ⟨rfl, rfl⟩)
      · simp only [Prod.mk.injEq] at ho; obtain ⟨rfl, rfl⟩ := ho
        exact same _ h rfl rfl rfl ⟨rfl, rfl⟩
    | receive q t =>
      have hi : s.inHandler = false := by simpa [Event.onIoThread] using hio
      have hv := hv q t rfl
      simp only [Part.receive, Option.some.injEq] at ho
      have hok : Ok ({ s with cfg := s.cfg.receive q t } : Part) :=
        ⟨h.dur, h.next0, h.cur, h.fresh, h.sync, h.async, fun v hv' => by
          rcases receive_others _ _ _ v hv' with hm | rfl
          · exact h.views v hm
          · exact hv⟩
      have hoth : ∀ v ∈ (s.cfg.receive q t).others, v ∈ s.cfg.others ∨ (v.2 = ⟨-1, 0⟩ ∧ Event.receive q t = .discovered v.1) ∨
          Event.receive q t = .receive v.1 v.2 := by
        intro v hv'
        rcases receive_others _ _ _ v hv' with hm | rfl
        · exact Or.inl hm
        · exact Or.inr (Or.inr rfl)
      have g := good_process hok hi
      split at ho
      · rw [ho] at g; exact g.effect (Int.le_refl _) rfl hoth (fun _ _ => ⟨rfl, rfl⟩)
      · rw [ho] at g; exact g.effect (Int.le_refl _) rfl hoth (fun _ _ => ⟨rfl, rfl⟩)
      · simp only [Prod.mk.injEq] at ho; obtain ⟨rfl, rfl⟩ := ho
        exact ⟨hok, Int.le_refl _, by simp, by simp, id, hoth, fun hb _ _ => ⟨hb, rfl, by simp⟩⟩
      · simp only [Prod.mk.injEq] at ho; obtain ⟨rfl, rfl⟩ := ho
        exact ⟨hok, Int.le_refl _, by simp, by simp, id, hoth, fun hb _ _ => ⟨hb, rfl, by simp⟩⟩
    | request =>
      have hi : s.inHandler = false := by simpa [Event.onIoThread] using hio
      simp only [Option.some.injEq] at ho
      have g := good_request h (by simp [Part.busy, hi, hr rfl])
      rw [ho] at g
      exact g.effect (Int.le_refl _) rfl (fun v hv' => Or.inl hv') (fun _ _ => ⟨rfl, rfl⟩)
    | poll =>
      have hi : s.inHandler = false := by simpa [Event.onIoThread] using hio
      dsimp only at ho
      split at ho
      · cases ho
      · simp only [Option.some.injEq] at ho
        have hok : Ok ({ s with polls := s.polls - 1 } : Part) := ⟨h.dur, h.next0, h.cur, h.fresh, h.sync, h.async, h.views⟩
        have g := good_process hok hi
        rw [ho] at g
        exact g.effect (Int.le_refl _) rfl (fun v hv' => Or.inl hv') (fun _ _ => ⟨rfl, rfl⟩)
    | stepReturned =>
      dsimp only at ho
      split at ho
      · next hin =>
        simp only [Option.some.injEq] at ho
        have hbl : s.cfg.blocking = true := by
          cases hb : s.cfg.blocking with
          | true => rfl
          | false => rw [h.async hb] at hin; cases hin
        have hok : Ok ({ s with inHandler := false } : Part) :=
          ⟨h.dur, h.next0, h.cur, h.fresh, h.sync, fun _ => rfl, h.views⟩
        have hbz : ({ s with inHandler := false } : Part).busy = false := by simp [Part.busy, h.sync hbl]
        have g : Good ({ s with inHandler := false } : Part) s' outs := by
          unfold Part.afterSyncStep at ho
          split at ho
          · have g := good_request hok hbz; rw [ho] at g; exact g
          · simp only [Prod.mk.injEq] at ho; obtain ⟨rfl, rfl⟩ := ho; exact Good.refl hok
        exact g.effect (by rw [bound_idle hbz]; exact h.bound_le) rfl (fun v hv' => Or.inl hv') (fun hx => absurd rfl hx)
      · cases ho
    | complete =>
      have hi : s.inHandler = false := by simpa [Event.onIoThread] using hio
      simp only [Part.complete, Option.some.injEq] at ho
      have hok : Ok ({ s with asyncExecuting := false } : Part) :=
        ⟨h.dur, h.next0, h.cur, h.fresh, fun _ => rfl, h.async, h.views⟩
      have hbz : ({ s with asyncExecuting := false } : Part).busy = false := by simp [Part.busy, hi]
      have hb : s.bound ≤ ({ s with asyncExecuting := false } : Part).bound := by rw [bound_idle hbz]; exact h.bound_le
      split at ho
      · have hok' : Ok ({ s with asyncExecuting := false, wallClockReached := false } : Part) :=
          ⟨h.dur, h.next0, h.cur, h.fresh, fun _ => rfl, h.async, h.views⟩
        have g := good_request hok' (by simp [Part.busy, hi])
        rw [ho] at g
        exact g.effect hb rfl (fun v hv' => Or.inl hv') (fun _ hx => absurd rfl hx)
      · simp only [Prod.mk.injEq] at ho; obtain ⟨rfl, rfl⟩ := ho
        exact (Good.refl hok).effect hb rfl (fun v hv' => Or.inl hv') (fun _ hx => absurd rfl hx)

/-! ## The whole simulation -/

theorem mem_sends {outs : List Out} {m : Msg} : m ∈ sends outs ↔ ∃ t, m = .task t ∧ .send t ∈ outs := by
  simp only [sends, List.mem_filterMap]
  constructor
  · rintro ⟨o, ho, hm⟩
    cases o with
    | send t => simp only [Option.some.injEq] at hm; exact ⟨t, hm.symm, ho⟩
    | step _ _ => cases hm
    | abort => cases hm
    | reportError => cases hm
  · rintro ⟨t, rfl, ho⟩
    exact ⟨_, ho, rfl⟩

/-- Announcements are lower bounds; data is not overtaken by later announcements. -/
structure NetInv (n : Net) : Prop where
  ok : ∀ p, Ok (n.part p)
  views : ∀ p q t, (q, t) ∈ (n.part p).cfg.others → t.tp ≤ (n.part q).bound
  chans : ∀ q p t, .task t ∈ n.chan q p → t.tp ≤ (n.part q).bound ∧ 0 ≤ t.dur
  data : ∀ q p pre x t1 post, n.chan q p = pre ++ .data x t1 :: post →
    0 ≤ t1 ∧ (∀ t, .task t ∈ pre → t.tp ≤ t1) ∧ ∀ t, (q, t) ∈ (n.part p).cfg.others → t.tp ≤ t1

/-- What one action guarantees. -/
structure ActInv (n : Net) (n' : Net) (obs : List Obs) : Prop where
  inv : NetInv n'
  mono : ∀ p, (n.part p).bound ≤ (n'.part p).bound
  starts : ∀ p t, Starts p t obs → (n.part p).bound ≤ t ∧ (n'.part p).hopOnEvaluated = true ∧
    ((n.part p).hopOnEvaluated = true ∨ t = 0 → ∀ v ∈ (n'.part p).cfg.others, t ≤ v.2.tp)
  hop : ∀ p, (n.part p).hopOnEvaluated = true → (n'.part p).hopOnEvaluated = true

theorem append_eq_mid {α} {l r pre post : List α} {x : α} (h : l ++ r = pre ++ x :: post) (hr : x ∉ r) :
    ∃ post', l = pre ++ x :: post' ∧ post = post' ++ r := by
  rcases List.append_eq_append_iff.mp h with ⟨a, h1, h2⟩ | ⟨c, h1, h2⟩
  · exact absurd (by rw [h2]; simp) hr
  · cases c with
    | nil =>
      simp at h2
      exact absurd (by rw [← h2]; simp) hr
    | cons y c =>
      simp only [List.cons_append, List.cons.injEq] at h2
      exact ⟨c, by rw [h1, h2.1], h2.2⟩

/-- An event of one participant, seen from the whole simulation. -/
theorem commit_inv {n n0 : Net} {p : String} {e : Event} {s' : Part} {outs : List Out}
    (h : NetInv n) (h0 : n0.part = n.part)
    (hsuf : ∀ q r, ∃ pre, n.chan q r = pre ++ n0.chan q r)
    (hef : Effect (n.part p) e s' outs)
    (hrec : ∀ q t, e = .receive q t → ∃ rest, n.chan q p = .task t :: rest ∧ n0.chan q p = rest) :
    ActInv n (n0.commit p (s', outs)).1 (n0.commit p (s', outs)).2 := by
  have hpart : ∀ x, (n0.commit p (s', outs)).1.part x = if x = p then s' else n.part x := by
    intro x; simp only [Net.commit, h0]
  have hmono : ∀ x, (n.part x).bound ≤ ((n0.commit p (s', outs)).1.part x).bound := by
    intro x
    rw [hpart]
    split
    · next hx => subst hx; exact hef.mono
    · exact Int.le_refl _
  have hview : ∀ r q t, (q, t) ∈ ((n0.commit p (s', outs)).1.part r).cfg.others →
      (q, t) ∈ (n.part r).cfg.others ∨ t = ⟨-1, 0⟩ ∨ (r = p ∧ ∃ rest, n.chan q r = .task t :: rest ∧ n0.chan q r = rest) := by
    intro r q t hv
    rw [hpart] at hv
    split at hv
    · next hx =>
      subst hx
      rcases hef.others _ hv with hv | ⟨hv, _⟩ | hv
      · exact Or.inl hv
      · exact Or.inr (Or.inl hv)
      · exact Or.inr (Or.inr ⟨rfl, hrec _ _ hv⟩)
    · exact Or.inl hv
  refine ⟨⟨?_, ?_, ?_, ?_⟩, hmono, ?_, ?_⟩
  · intro x
    rw [hpart]
    split
    · exact hef.ok
    · exact h.ok x
  · intro r q t hv
    refine Int.le_trans ?_ (hmono q)
    rcases hview r q t hv with hv | rfl | ⟨_, rest, hc, _⟩
    · exact h.views r q t hv
    · have := (h.ok q).bound_nonneg
      show -1 ≤ _
      omega
    · exact (h.chans q r t (by rw [hc]; simp)).1
  · intro q r t ht
    have hold : .task t ∈ n0.chan q r → t.tp ≤ ((n0.commit p (s', outs)).1.part q).bound ∧ 0 ≤ t.dur := by
      intro hm
      obtain ⟨pre, hp⟩ := hsuf q r
      have := h.chans q r t (by rw [hp]; exact List.mem_append_right _ hm)
      exact ⟨Int.le_trans this.1 (hmono q), this.2⟩
    simp only [Net.commit] at ht
    split at ht
    · next hx =>
      rcases List.mem_append.mp ht with ht | ht
      · exact hold ht
      · obtain ⟨t', ht', hs⟩ := mem_sends.mp ht
        cases ht'
        rw [hpart, if_pos hx.1]
        exact hef.sends _ hs
    · exact hold ht
  · intro q r pre x t1 post hc
    have hc0 : ∃ post', n0.chan q r = pre ++ .data x t1 :: post' := by
      simp only [Net.commit] at hc
      split at hc
      · obtain ⟨post', hp, _⟩ := append_eq_mid hc (by
          intro hm
          obtain ⟨t', ht', _⟩ := mem_sends.mp hm
          cases ht')
        exact ⟨post', hp⟩
      · exact ⟨post, hc⟩
    obtain ⟨post', hc0⟩ := hc0
    obtain ⟨pre0, hp0⟩ := hsuf q r
    have hd := h.data q r (pre0 ++ pre) x t1 post' (by rw [hp0, hc0, List.append_assoc])
    refine ⟨hd.1, fun t ht => hd.2.1 t (List.mem_append_right _ ht), ?_⟩
    intro t hv
    rcases hview r q t hv with hv | rfl | ⟨_, rest, hc1, hc2⟩
    · exact hd.2.2 t hv
    · have := hd.1
      show -1 ≤ _
      omega
    · subst hc2
      exact (h.data q r (.task t :: pre) x t1 post' (by rw [hc1, hc0]; rfl)).2.1 t (by simp)
  · intro x t hs
    obtain ⟨d, hs⟩ := hs
    simp only [Net.commit, List.mem_map] at hs
    obtain ⟨o, ho, hx⟩ := hs
    simp only [Obs.out.injEq] at hx
    obtain ⟨rfl, rfl⟩ := hx
    obtain ⟨a, b, c, d', e'⟩ := hef.steps t d ho
    rw [hpart, if_pos rfl]
    exact ⟨a, d', e'⟩
  · intro x hx
    rw [hpart]
    split
    · next hxp => subst hxp; exact hef.hop hx
    · exact hx

theorem act_inv {n n' : Net} {a : Act} {obs : List Obs} (h : NetInv n) (hd : Disciplined n a) (ha : n.act a = some (n', obs)) :
    ActInv n n' obs := by
  cases a with
  | event p e =>
    simp only [Net.act] at ha
    split at ha
    · next hal =>
      simp only [Option.map_eq_some_iff] at ha
      obtain ⟨⟨s', outs⟩, ho, hc⟩ := ha
      have hef := effect_on (h.ok p) (by intro d he; subst he; exact hd) (by intro he; subst he; exact hd)
        (by intro q t he; subst he; simp [Event.allowedFor] at hal) ho
      have hi := commit_inv (n0 := n) h rfl (fun q r => ⟨[], rfl⟩) hef
        (by intro q t he; subst he; simp [Event.allowedFor] at hal)
      simp only [Prod.mk.injEq] at hc
      obtain ⟨rfl, rfl⟩ := hc
      refine ⟨hi.inv, hi.mono, ?_, hi.hop⟩
      rintro x t ⟨d, hs⟩
      exact hi.starts x t ⟨d, by simpa using hs⟩
    · cases ha
  | deliver q p =>
    simp only [Net.act] at ha
    split at ha
    · cases ha
    · next t rest hch =>
      simp only [Option.map_eq_some_iff] at ha
      obtain ⟨⟨s', outs⟩, ho, hc⟩ := ha
      have hef := effect_on (h.ok p) (by intro d he; cases he) (by intro he; cases he)
        (by intro q' t' he; cases he; exact (h.chans q p t (by rw [hch]; simp)).2) ho
      have hi := commit_inv (n0 := n.setChan q p rest) h rfl
        (by
          intro q' r
          simp only [Net.setChan]
          split
          · next hx => obtain ⟨rfl, rfl⟩ := hx; exact ⟨[.task t], hch⟩
          · exact ⟨[], rfl⟩) hef
        (by
          intro q' t' he
          cases he
          exact ⟨rest, hch, by simp [Net.setChan]⟩)
      rw [hc] at hi
      exact hi
    · next x at_ rest hch =>
      split at ha
      · cases ha
      · simp only [Option.some.injEq, Prod.mk.injEq] at ha
        obtain ⟨rfl, rfl⟩ := ha
        refine ⟨⟨h.ok, h.views, ?_, ?_⟩, fun _ => Int.le_refl _, ?_, fun _ => id⟩
        · intro a b t ht
          simp only [Net.setChan] at ht
          split at ht
          · next hx => obtain ⟨rfl, rfl⟩ := hx; exact h.chans a b t (by rw [hch]; exact List.mem_cons_of_mem _ ht)
          · exact h.chans a b t ht
        · intro a b pre x' t1 post hc
          simp only [Net.setChan] at hc
          split at hc
          · next hx =>
            obtain ⟨rfl, rfl⟩ := hx
            have := h.data a b (.data x at_ :: pre) x' t1 post (by rw [hch, hc]; rfl)
            exact ⟨this.1, fun t ht => this.2.1 t (List.mem_cons_of_mem _ ht), this.2.2⟩
          · exact h.data a b pre x' t1 post hc
        · rintro p' t ⟨d, hs⟩
          simp at hs
  | data p x =>
    simp only [Net.act] at ha
    split at ha
    · next hbusy =>
      simp only [Option.some.injEq, Prod.mk.injEq] at ha
      obtain ⟨rfl, rfl⟩ := ha
      have hbd : (n.part p).bound = (n.part p).cfg.current.tp := by unfold Part.bound; rw [if_pos hbusy]
      refine ⟨⟨h.ok, h.views, ?_, ?_⟩, fun _ => Int.le_refl _, ?_, fun _ => id⟩
      · intro a b t ht
        dsimp only at ht
        split at ht
        · rcases List.mem_append.mp ht with ht | ht
          · exact h.chans a b t ht
          · simp at ht
        · exact h.chans a b t ht
      · intro a b pre x' t1 post hc
        dsimp only at hc
        split at hc
        · next hx =>
          rcases List.append_eq_append_iff.mp hc with ⟨l, h1, h2⟩ | ⟨l, h1, h2⟩
          · have : l = [] := by
              cases l with
              | nil => rfl
              | cons y l => simp at h2
            subst this
            simp only [List.nil_append, List.cons.injEq, Msg.data.injEq, List.append_nil] at h1 h2
            obtain ⟨⟨rfl, rfl⟩, _⟩ := h2
            obtain ⟨rfl, _⟩ := hx
            subst h1
            refine ⟨hbusy.2, ?_, ?_⟩
            · intro t ht; rw [← hbd]; exact (h.chans a b t ht).1
            · intro t ht; rw [← hbd]; exact h.views b a t ht
          · cases l with
            | nil =>
              simp only [List.nil_append, List.cons.injEq, Msg.data.injEq, List.append_nil] at h1 h2
              obtain ⟨⟨rfl, rfl⟩, _⟩ := h2
              obtain ⟨rfl, _⟩ := hx
              subst h1
              refine ⟨hbusy.2, ?_, ?_⟩
              · intro t ht; rw [← hbd]; exact (h.chans a b t ht).1
              · intro t ht; rw [← hbd]; exact h.views b a t ht
            | cons y l =>
              simp only [List.cons_append, List.cons.injEq] at h2
              rw [← h2.1] at h1
              exact h.data a b pre x' t1 l h1
        · exact h.data a b pre x' t1 post hc
      · rintro p' t ⟨d, hs⟩
        simp at hs
    · cases ha

theorem ok_start (blocking coordinated coupled : Bool) : Ok (start blocking coordinated coupled) where
  dur := start_dur _ _ _
  next0 := Int.le_refl 0
  cur := Or.inl rfl
  fresh := fun _ => ⟨rfl, rfl⟩
  sync := fun _ => rfl
  async := fun _ => rfl
  views := by intro e he; simp [start] at he

theorem init_inv {n : Net} (h : Initial n) : NetInv n := by
  refine ⟨?_, ?_, ?_, ?_⟩
  · intro p
    obtain ⟨a, b, c, hp⟩ := h.1 p
    rw [hp]; exact ok_start a b c
  · intro p q t hv
    obtain ⟨a, b, c, hp⟩ := h.1 p
    rw [hp] at hv
    simp [start] at hv
  · intro q p t ht
    rw [h.2] at ht; simp at ht
  · intro q p pre x t1 post hc
    rw [h.2] at hc; simp at hc

theorem reachable_inv {n : Net} {tr} (h : Reachable n tr) : NetInv n := by
  induction h with
  | init h => exact init_inv h
  | step _ hd ha ih => exact (act_inv ih hd ha).inv

theorem reachable_hop {n : Net} {tr} (h : Reachable n tr) (p : String) (t : Int) (hs : Starts p t tr) :
    (n.part p).hopOnEvaluated = true := by
  induction h with
  | init h => obtain ⟨d, hs⟩ := hs; simp at hs
  | step hr hd ha ih =>
    have hi := act_inv (reachable_inv hr) hd ha
    obtain ⟨d, hs⟩ := hs
    rcases List.mem_append.mp hs with hs | hs
    · exact hi.hop p (ih ⟨d, hs⟩)
    · exact (hi.starts p t ⟨d, hs⟩).2.1

theorem later_mono {n n' : Net} (h : Later n n') (hn : NetInv n) : NetInv n' ∧ ∀ p, (n.part p).bound ≤ (n'.part p).bound := by
  induction h with
  | refl => exact ⟨hn, fun _ => Int.le_refl _⟩
  | step _ hd ha ih =>
    have hi := act_inv ih.1 hd ha
    exact ⟨hi.inv, fun p => Int.le_trans (ih.2 p) (hi.mono p)⟩

/-! ## What the observations tell about the state -/

/-- Either one participant reacted to one event, or nobody did. -/
theorem act_part {n n' : Net} {a : Act} {obs : List Obs} (h : NetInv n) (hd : Disciplined n a) (ha : n.act a = some (n', obs)) :
    (∃ p e s' outs, (n.part p).on e = some (s', outs) ∧ Effect (n.part p) e s' outs ∧ n'.part = (fun x => if x = p then s' else n.part x) ∧
      (obs = .did p e :: outs.map (Obs.out p) ∨ (∃ q t, e = .receive q t) ∧ obs = outs.map (Obs.out p))) ∨
    (n'.part = n.part ∧ ((∃ p x t, obs = [.sent p x t]) ∨ ∃ q p x t, obs = [.received q p x t])) := by
  cases a with
  | event p e =>
    simp only [Net.act] at ha
    split at ha
    · next hal =>
      simp only [Option.map_eq_some_iff, Prod.mk.injEq] at ha
      obtain ⟨⟨s', outs⟩, ho, rfl, rfl⟩ := ha
      have hef := effect_on (h.ok p) (by intro d he; subst he; exact hd) (by intro he; subst he; exact hd)
        (by intro q t he; subst he; simp [Event.allowedFor] at hal) ho
      exact Or.inl ⟨p, e, s', outs, ho, hef, rfl, Or.inl rfl⟩
    · cases ha
  | deliver q p =>
    simp only [Net.act] at ha
    split at ha
    · cases ha
    · next t rest hch =>
      simp only [Option.map_eq_some_iff] at ha
      obtain ⟨⟨s', outs⟩, ho, hc⟩ := ha
      cases hc
      have hef := effect_on (h.ok p) (by intro d he; cases he) (by intro he; cases he)
        (by intro q' t' he; cases he; exact (h.chans q p t (by rw [hch]; simp)).2) ho
      exact Or.inl ⟨p, _, s', outs, ho, hef, rfl, Or.inr ⟨⟨q, t, rfl⟩, rfl⟩⟩
    · next x at_ rest hch =>
      split at ha
      · cases ha
      · cases ha; exact Or.inr ⟨rfl, Or.inr ⟨_, _, _, _, rfl⟩⟩
  | data p x =>
    simp only [Net.act] at ha
    split at ha
    · cases ha; exact Or.inr ⟨rfl, Or.inl ⟨_, _, _, rfl⟩⟩
    · cases ha

theorem knows_out (p q x : String) (outs : List Out) (tr : List Obs) :
    knows p q (tr ++ outs.map (Obs.out x)) = knows p q tr := by
  induction outs generalizing tr with
  | nil => simp
  | cons o outs ih =>
    have := ih (tr ++ [.out x o])
    simp only [List.map_cons]
    rw [List.append_cons, this]
    simp [knows, List.foldl_append]

theorem othersAfter_keys (c : TimeConfig) (q : String) (e : Event) :
    (∃ t, (q, t) ∈ othersAfter c e) ↔
      ((∃ t, (q, t) ∈ c.others) ∨ e = .discovered q) ∧ e ≠ .lost q := by
  cases e with
  | discovered a =>
    simp only [othersAfter, TimeConfig.add]
    split
    · next h =>
      simp only [TimeConfig.view, Option.isSome_map, List.find?_isSome, beq_iff_eq] at h
      obtain ⟨⟨b, t⟩, hm, hb⟩ := h
      simp only at hb
      subst hb
      constructor
      · intro hx; exact ⟨Or.inl hx, by simp⟩
      · rintro ⟨hx | hx, _⟩
        · exact hx
        · simp only [Event.discovered.injEq] at hx; subst hx; exact ⟨t, hm⟩
    · simp only [List.mem_append, List.mem_singleton, Prod.mk.injEq, Event.discovered.injEq]
      constructor
      · rintro ⟨t, hx | hx⟩
        · exact ⟨Or.inl ⟨t, hx⟩, by simp⟩
        · exact ⟨Or.inr hx.1.symm, by simp⟩
      · rintro ⟨⟨t, hx⟩ | hx, _⟩
        · exact ⟨t, Or.inl hx⟩
        · exact ⟨_, Or.inr ⟨hx.symm, rfl⟩⟩
  | lost a =>
    simp only [othersAfter, TimeConfig.remove, List.mem_filter]
    constructor
    · rintro ⟨t, hx, hne⟩
      refine ⟨Or.inl ⟨t, hx⟩, ?_⟩
      intro hh
      simp only [Event.lost.injEq] at hh
      subst hh
      simp at hne
    · rintro ⟨⟨t, hx⟩ | hx, hne⟩
      · refine ⟨t, hx, ?_⟩
        simp only [bne_iff_ne, ne_eq]
        intro hh; subst hh; exact hne rfl
      · cases hx
  | receive a u =>
    simp only [othersAfter, TimeConfig.receive, List.mem_map]
    constructor
    · rintro ⟨t, ⟨b, v⟩, hm, hx⟩
      refine ⟨Or.inl ?_, by simp⟩
      split at hx
      · simp only [Prod.mk.injEq] at hx; obtain ⟨rfl, _⟩ := hx; exact ⟨v, hm⟩
      · simp only [Prod.mk.injEq] at hx; obtain ⟨rfl, _⟩ := hx; exact ⟨v, hm⟩
    · rintro ⟨⟨t, hx⟩ | hx, _⟩
      · by_cases hq : q = a
        · exact ⟨u, (q, t), hx, by simp [hq]⟩
        · exact ⟨t, (q, t), hx, by simp [hq]⟩
      · cases hx
  | lifecycle _ _ _ => simp [othersAfter]
  | systemError _ => simp [othersAfter]
  | wallClock _ _ => simp [othersAfter]
  | setStepDuration _ => simp [othersAfter]
  | setDynamic _ => simp [othersAfter]
  | request => simp [othersAfter]
  | poll => simp [othersAfter]
  | stepReturned => simp [othersAfter]
  | complete => simp [othersAfter]

theorem knows_did (p q x : String) (e : Event) (tr : List Obs) :
    knows p q (tr ++ [.did x e]) = true ↔
      if x = p then (knows p q tr = true ∨ e = .discovered q) ∧ e ≠ .lost q else knows p q tr = true := by
  simp only [knows, List.foldl_append, List.foldl_cons, List.foldl_nil]
  cases e <;> by_cases hx : x = p <;> simp [hx]
  · next a =>
    by_cases ha : a = q <;> simp [ha]
  · next a =>
    by_cases ha : a = q <;> simp [ha]

theorem reachable_knows {n : Net} {tr} (h : Reachable n tr) (p q : String) :
    knows p q tr = true ↔ ∃ t, (q, t) ∈ (n.part p).cfg.others := by
  induction h with
  | init h =>
    obtain ⟨a, b, c, hp⟩ := h.1 p
    rw [hp]
    simp [knows, start]
  | step hr hd ha ih =>
    rcases act_part (reachable_inv hr) hd ha with ⟨x, e, s', outs, ho, _, hp, hobs⟩ | ⟨hp, hobs⟩
    · have h3 := (on_config ho).2.2
      have hkeys : (∃ t, (q, t) ∈ ((if p = x then s' else _ : Part)).cfg.others) ↔ _ :=
        show (∃ t, (q, t) ∈ (if p = x then s' else (_ : Net).part p).cfg.others) ↔
          if x = p then (knows p q _ = true ∨ e = .discovered q) ∧ e ≠ .lost q else knows p q _ = true by
        split
        · next hx =>
          subst hx
          rw [if_pos rfl, h3, othersAfter_keys, ih]
        · next hx => rw [if_neg (fun hh => hx hh.symm), ih]
      rw [hp]
      rw [hkeys]
      rcases hobs with rfl | ⟨⟨a, t, rfl⟩, rfl⟩
      · rw [List.append_cons, knows_out, knows_did]
      · rw [knows_out]
        split <;> simp
    · rw [hp, ← ih]
      rcases hobs with ⟨_, _, _, rfl⟩ | ⟨_, _, _, _, rfl⟩ <;> simp [knows, List.foldl_append]

theorem inStep_out_no (p x : String) (outs : List Out) (tr : List Obs) (h : ∀ t d, x = p → .step t d ∉ outs) :
    inStep p (tr ++ outs.map (Obs.out x)) = inStep p tr := by
  induction outs generalizing tr with
  | nil => simp
  | cons o outs ih =>
    have := ih (tr ++ [.out x o]) (fun t d hx hm => h t d hx (List.mem_cons_of_mem _ hm))
    simp only [List.map_cons]
    rw [List.append_cons, this]
    simp only [inStep, List.foldl_append, List.foldl_cons, List.foldl_nil]
    cases o with
    | step t d =>
      by_cases hx : x = p
      · exact absurd (by simp) (h t d hx)
      · simp [hx]
    | send _ => rfl
    | abort => rfl
    | reportError => rfl

theorem inStep_out_some (p : String) (outs : List Out) (tr : List Obs) (t : Int)
    (h : inStep p (tr ++ outs.map (Obs.out p)) = some t) : inStep p tr = some t ∨ ∃ d, .step t d ∈ outs := by
  induction outs generalizing tr with
  | nil => left; simpa using h
  | cons o outs ih =>
    simp only [List.map_cons] at h
    rw [List.append_cons] at h
    rcases ih _ h with h | ⟨d, h⟩
    · simp only [inStep, List.foldl_append, List.foldl_cons, List.foldl_nil] at h
      cases o with
      | step t' d =>
        simp only [if_true, Option.some.injEq] at h
        subst h
        right; exact ⟨d, by simp⟩
      | send _ => exact Or.inl h
      | abort => exact Or.inl h
      | reportError => exact Or.inl h
    · exact Or.inr ⟨d, List.mem_cons_of_mem _ h⟩

/-- A participant that is in a step according to the observations is busy with it. -/
theorem reachable_inStep {n : Net} {tr} (h : Reachable n tr) (p : String) (t : Int) (hs : inStep p tr = some t) :
    (n.part p).busy = true ∧ (n.part p).cfg.current.tp = t ∧ 0 ≤ t := by
  induction h with
  | init h => simp [inStep] at hs
  | @step n tr a n' obs hr hd ha ih =>
    have hinv := reachable_inv hr
    rcases act_part hinv hd ha with ⟨x, e, s', outs, ho, hef, hp, hobs⟩ | ⟨hp, hobs⟩
    · rw [hp]
      dsimp only
      by_cases hx : p = x
      · subst hx
        rw [if_pos rfl]
        have hnew : ∀ d, .step t d ∈ outs → s'.busy = true ∧ s'.cfg.current.tp = t ∧ 0 ≤ t := by
          intro d hst
          obtain ⟨a, b, c, _⟩ := hef.steps t d hst
          have := (hinv.ok p).bound_nonneg
          exact ⟨b, c, by omega⟩
        have hold : e ≠ .stepReturned → e ≠ .complete → inStep p tr = some t → s'.busy = true ∧ s'.cfg.current.tp = t ∧ 0 ≤ t := by
          intro h1 h2 h3
          obtain ⟨a, b, c⟩ := ih h3
          obtain ⟨k1, k2, _⟩ := hef.keep a h1 h2
          exact ⟨k1, by rw [k2]; exact b, c⟩
        rcases hobs with rfl | ⟨⟨a, u, rfl⟩, rfl⟩
        · rw [List.append_cons] at hs
          rcases inStep_out_some _ _ _ _ hs with h1 | ⟨d, h1⟩
          · by_cases h2 : e = .stepReturned
            · subst h2; simp [inStep, List.foldl_append] at h1
            · by_cases h3 : e = .complete
              · subst h3; simp [inStep, List.foldl_append] at h1
              · refine hold h2 h3 ?_
                simp only [inStep, List.foldl_append, List.foldl_cons, List.foldl_nil] at h1 ⊢
                cases e <;> first | exact h1 | contradiction
          · exact hnew d h1
        · rcases inStep_out_some _ _ _ _ hs with h1 | ⟨d, h1⟩
          · exact hold (by simp) (by simp) h1
          · exact hnew d h1
      · rw [if_neg hx]
        have hx' : ¬ x = p := fun hh => hx hh.symm
        apply ih
        rcases hobs with rfl | ⟨_, rfl⟩
        · rw [List.append_cons, inStep_out_no _ _ _ _ (fun _ _ hh => absurd hh hx')] at hs
          simp only [inStep, List.foldl_append, List.foldl_cons, List.foldl_nil] at hs ⊢
          cases e <;> first | exact hs | simpa [hx'] using hs
        · rw [inStep_out_no _ _ _ _ (fun _ _ hh => absurd hh hx')] at hs
          exact hs
    · rw [hp]
      apply ih
      rcases hobs with ⟨_, _, _, rfl⟩ | ⟨_, _, _, _, rfl⟩ <;> simpa [inStep, List.foldl_append] using hs

/-! ## User data -/

/-- The user data on a channel. -/
def inFlight (l : List Msg) : List (Nat × Int) := l.filterMap (fun m => match m with | .data x t => some (x, t) | _ => none)

theorem inFlight_append (a b : List Msg) : inFlight (a ++ b) = inFlight a ++ inFlight b := by simp [inFlight]

theorem inFlight_sends (outs : List Out) : inFlight (sends outs) = [] := by
  simp only [inFlight, List.filterMap_eq_nil_iff]
  intro m hm
  obtain ⟨t, rfl, _⟩ := mem_sends.mp hm
  rfl

theorem sentBy_out (q p : String) (outs : List Out) : sentBy q (outs.map (Obs.out p)) = [] := by
  simp [sentBy, List.filterMap_map, Function.comp_def]

theorem receivedBy_out (a b p : String) (outs : List Out) : receivedBy a b (outs.map (Obs.out p)) = [] := by
  simp [receivedBy, List.filterMap_map, Function.comp_def]

theorem act_data {n n' : Net} {a : Act} {obs : List Obs} (ha : n.act a = some (n', obs)) (q p : String) (hqp : q ≠ p) :
    receivedBy q p obs ++ inFlight (n'.chan q p) = inFlight (n.chan q p) ++ sentBy q obs := by
  have hcommit : ∀ (n0 : Net) x (r : Part × List Out), inFlight ((n0.commit x r).1.chan q p) = inFlight (n0.chan q p) := by
    intro n0 x r
    simp only [Net.commit]
    split
    · rw [inFlight_append, inFlight_sends, List.append_nil]
    · rfl
  cases a with
  | event x e =>
    simp only [Net.act] at ha
    split at ha
    · simp only [Option.map_eq_some_iff] at ha
      obtain ⟨⟨s', outs⟩, ho, hc⟩ := ha
      have h1 := hcommit n x (s', outs)
      simp only [Prod.mk.injEq] at hc
      obtain ⟨rfl, h2⟩ := hc
      have h3 : sentBy q obs = sentBy q (outs.map (Obs.out x)) := by rw [← h2]; rfl
      have h4 : receivedBy q p obs = receivedBy q p (outs.map (Obs.out x)) := by rw [← h2]; rfl
      rw [h3, h4, sentBy_out, receivedBy_out, List.append_nil, List.nil_append, h1]
    · cases ha
  | deliver a b =>
    simp only [Net.act] at ha
    split at ha
    · cases ha
    · next t rest hch =>
      simp only [Option.map_eq_some_iff] at ha
      obtain ⟨⟨s', outs⟩, ho, hc⟩ := ha
      have h1 := hcommit (n.setChan a b rest) b (s', outs)
      rw [hc] at h1
      have h2 : obs = outs.map (Obs.out b) := by simpa [Net.commit] using (congrArg Prod.snd hc).symm
      rw [h2, sentBy_out, receivedBy_out, List.append_nil, List.nil_append, h1]
      simp only [Net.setChan]
      split
      · next hx => obtain ⟨rfl, rfl⟩ := hx; rw [hch]; rfl
      · rfl
    · next x at_ rest hch =>
      split at ha
      · cases ha
      · simp only [Option.some.injEq, Prod.mk.injEq] at ha
        obtain ⟨rfl, rfl⟩ := ha
        simp only [Net.setChan]
        split
        · next hx => obtain ⟨rfl, rfl⟩ := hx; rw [hch]; simp [receivedBy, sentBy, inFlight]
        · next hx =>
          have : ¬ (a = q ∧ b = p) := fun hh => hx ⟨hh.1.symm, hh.2.symm⟩
          simp [receivedBy, sentBy, this]
  | data x y =>
    simp only [Net.act] at ha
    split at ha
    · simp only [Option.some.injEq, Prod.mk.injEq] at ha
      obtain ⟨rfl, rfl⟩ := ha
      dsimp only
      by_cases hx : q = x
      · subst hx
        rw [if_pos ⟨rfl, fun h => hqp h.symm⟩]
        simp [receivedBy, sentBy, inFlight]
      · rw [if_neg (fun hh => hx hh.1)]
        have : ¬ x = q := fun hh => hx hh.symm
        simp [receivedBy, sentBy, this]
    · cases ha

theorem reachable_data {n : Net} {tr} (h : Reachable n tr) (q p : String) (hqp : q ≠ p) :
    sentBy q tr = receivedBy q p tr ++ inFlight (n.chan q p) := by
  induction h with
  | init h => rw [h.2]; rfl
  | step hr hd ha ih =>
    have h1 := act_data ha q p hqp
    simp only [sentBy, receivedBy, List.filterMap_append] at h1 ih ⊢
    rw [ih, List.append_assoc, List.append_assoc, h1]

theorem inFlight_mem {l : List Msg} {x : Nat} {t : Int} (h : (x, t) ∈ inFlight l) : ∃ pre post, l = pre ++ .data x t :: post := by
  simp only [inFlight, List.mem_filterMap] at h
  obtain ⟨m, hm, hx⟩ := h
  cases m with
  | task t' => cases hx
  | data a b =>
    simp only [Option.some.injEq, Prod.mk.injEq] at hx
    obtain ⟨rfl, rfl⟩ := hx
    exact List.append_of_mem hm

end SilKit.TimeSync
