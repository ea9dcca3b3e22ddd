import Verif.Lemmas.TimeSync
/-!
# C12 – virtual time never goes backwards, C16 – dynamic step durations
-/
namespace SilKit.Props
open TimeSync TimeSync.Spec

/-- **C12 (contiguity).** In every history – arbitrary messages from others, joins, leaves, pauses, duration changes – each
simulation step starts exactly where the previous one ended. -/
theorem C12_steps_are_contiguous (blocking coordinated coupled : Bool) (h : List Event) (hp : PositiveDurations h) :
    Contiguous (steps (history (start blocking coordinated coupled) h).2) :=
  (history_inv _ (start_dur ..) h hp).contiguous

theorem steps_positive (s0 : Part) (hs : 0 < s0.cfg.next.dur) (h : List Event) (hp : PositiveDurations h)
    (hmax : ∀ t ∈ steps (history s0 h).2, t.tp < maxNs) : ∀ t ∈ steps (history s0 h).2, 0 < t.dur := by
  rw [← List.reverse_reverse h] at hp hmax ⊢
  generalize h.reverse = h at hp hmax ⊢
  induction h with
  | nil => intro t ht; simp [history] at ht
  | cons e h ih =>
    rw [List.reverse_cons] at hp hmax ⊢
    rw [history_append, steps_append] at hmax ⊢
    have hp1 : PositiveDurations h.reverse := fun d hd => hp d (List.mem_append_left _ hd)
    intro t ht
    rcases List.mem_append.mp ht with ht | ht
    · exact ih hp1 (fun u hu => hmax u (List.mem_append_left _ hu)) t ht
    · obtain ⟨o, ho, hot⟩ := List.mem_filterMap.mp ht
      cases o with
      | step tp dur =>
        simp only [Option.some.injEq] at hot
        subst hot
        obtain ⟨c, hc, h1, h2⟩ := step_from_react ho
        have hinv := history_inv s0 hs (h.reverse ++ [e]) hp
        rw [history_append] at hinv
        have hdur := hinv.dur
        dsimp only at hdur
        rw [hc, (advance_spec c).2.2.1] at hdur
        have := hmax ⟨tp, dur⟩ (List.mem_append_right _ ht)
        dsimp only at this
        rw [h1, (advance_spec c).1] at this
        rw [show (⟨tp, dur⟩ : Task).dur = dur from rfl, h2]
        exact advance_dur_pos c hdur this
      | send t' => simp at hot
      | abort => simp at hot
      | reportError => simp at hot

/-- **C12 (monotonicity).** The time points passed to the simulation step handler are strictly increasing (as long as the 64 bit
time, 292 years, is not exhausted). -/
theorem C12_time_strictly_increases (blocking coordinated coupled : Bool) (h : List Event) (hp : PositiveDurations h)
    (hmax : ∀ t ∈ steps (history (start blocking coordinated coupled) h).2, t.tp < maxNs) :
    (steps (history (start blocking coordinated coupled) h).2).Pairwise (fun a b => a.tp < b.tp) := by
  have hc := C12_steps_are_contiguous blocking coordinated coupled h hp
  have hpos := steps_positive (start blocking coordinated coupled) (start_dur ..) h hp hmax
  generalize steps (history (start blocking coordinated coupled) h).2 = l at hc hpos
  induction l with
  | nil => exact List.Pairwise.nil
  | cons a l ih =>
    have hc' : Contiguous l := by
      intro i hi
      have := hc (i + 1) (by simp; omega)
      simpa using this
    have ih := ih hc' (fun t ht => hpos t (List.mem_cons_of_mem _ ht))
    refine List.Pairwise.cons ?_ ih
    intro b hb
    cases l with
    | nil => simp at hb
    | cons c l =>
      have h0 := hc 0 (by simp)
      simp at h0
      have ha := hpos a (by simp)
      rcases List.mem_cons.mp hb with rfl | hb
      · omega
      · have := (List.pairwise_cons.mp ih).1 b hb
        omega

/-- A negative step duration is accepted and makes virtual time run backwards. -/
theorem C12_negative_duration_reverses_time :
    steps (history (start true false false)
      [.setStepDuration (-5), .lifecycle .running false false, .request, .poll, .stepReturned, .poll]).2 = [⟨0, -5⟩, ⟨-5, -5⟩] := by
  decide +kernel

/-- A history meeting the hypotheses of C12: another participant joins and is slower, the duration changes in between, the
participant is paused and continues. -/
example :
    let h : List Event := [.discovered "B", .setStepDuration 10, .lifecycle .running false false, .request, .receive "B" ⟨0, 15⟩,
      .stepReturned, .poll, .receive "B" ⟨15, 15⟩, .setStepDuration 3, .lifecycle .paused false true, .stepReturned,
      .lifecycle .running false false, .request, .poll, .stepReturned]
    PositiveDurations h ∧ steps (history (start true false false) h).2 = [⟨0, 10⟩, ⟨10, 10⟩] ∧
    (history (start true false false) (h ++ [.receive "B" ⟨30, 15⟩])).2.getLast? = some (.step 20 3) := by
  refine ⟨?_, by decide +kernel, by decide +kernel⟩
  intro d hd
  simp at hd
  omega

/-- **C16.** With dynamic step durations, an executed step is positive, no longer than the configured duration, and ends no
later than the earliest future start or end of a step announced by anybody else. Without, it has the configured duration. -/
theorem C16_dynamic_step_never_skips (blocking coordinated coupled : Bool) (h : List Event) (e : Event)
    (hp : PositiveDurations (h ++ [e])) (tp dur : Int)
    (hstep : Out.step tp dur ∈ (react (history (start blocking coordinated coupled) h).1 e).2) (hmax : tp < maxNs) :
    let events := occurred (start blocking coordinated coupled) (h ++ [e])
    0 < dur ∧ dur ≤ configuredDuration events ∧
    (dynamicEnabled events = true → ∀ q t, announced q events = some t → ∀ x ∈ announcedPoints t, tp < x → tp + dur ≤ x) ∧
    (dynamicEnabled events = false → dur = configuredDuration events) := by
  intro events
  obtain ⟨c, hc, h1, h2⟩ := step_from_react hstep
  have hinv := history_inv (start blocking coordinated coupled) (start_dur ..) (h ++ [e]) hp
  have hcfg := history_config blocking coordinated coupled (h ++ [e])
  rw [history_append] at hinv hcfg
  have hdur := hinv.dur
  dsimp only at hdur
  have hs := advance_spec c
  rw [hc, hs.2.2.1] at hdur
  have htp : tp = c.next.tp := h1.trans hs.1
  subst htp
  have e1 : c.next.dur = configuredDuration events := by rw [← hcfg.dur, ← hs.2.2.1]; exact congrArg (fun x => x.next.dur) hc.symm
  have e2 : c.dynamic = dynamicEnabled events := by rw [← hcfg.dynamic, ← hs.2.2.2.2.1]; exact congrArg (fun x => x.dynamic) hc.symm
  have e3 : Views c.others (fun q => announced q events) := by
    have := hcfg.views; dsimp only at this; rw [hc, hs.2.2.2.1] at this; exact this
  rw [← e1, ← e2, h2]
  exact ⟨advance_dur_pos c hdur hmax, advance_dur_le c,
    fun hd q t hq x hx hlt => advance_aligned c hd hmax (q, t) ((e3 q t).mpr hq) x hx hlt, advance_static c⟩

/-- **C16 (not shorter than necessary).** A step shorter than configured ends exactly at a point announced by somebody else
(unless the 64 bit range ends first). -/
theorem C16_dynamic_step_is_as_long_as_possible (blocking coordinated coupled : Bool) (h : List Event) (e : Event) (tp dur : Int)
    (hstep : Out.step tp dur ∈ (react (history (start blocking coordinated coupled) h).1 e).2) (hmax : tp < maxNs) :
    let events := occurred (start blocking coordinated coupled) (h ++ [e])
    dur = configuredDuration events ∨ (∃ q t, announced q events = some t ∧ tp + dur ∈ announcedPoints t) ∨
      maxNs ≤ tp + configuredDuration events ∨ maxNs < configuredDuration events := by
  intro events
  obtain ⟨c, hc, h1, h2⟩ := step_from_react hstep
  have hcfg := history_config blocking coordinated coupled (h ++ [e])
  rw [history_append] at hcfg
  have hs := advance_spec c
  have htp : tp = c.next.tp := h1.trans hs.1
  subst htp
  have e1 : c.next.dur = configuredDuration events := by rw [← hcfg.dur, ← hs.2.2.1]; exact congrArg (fun x => x.next.dur) hc.symm
  have e3 : Views c.others (fun q => announced q events) := by
    have := hcfg.views; dsimp only at this; rw [hc, hs.2.2.2.1] at this; exact this
  rw [← e1, h2]
  rcases advance_exact c hmax with h | ⟨_, ⟨e, h3, h4⟩ | h⟩
  · exact Or.inl h
  · exact Or.inr (Or.inl ⟨e.1, e.2, (e3 e.1 e.2).mp h3, h4⟩)
  · exact Or.inr (Or.inr h)

/-- A history meeting the hypotheses of C16: a step of configured length 10 is shortened to 4. -/
example :
    let h : List Event := [.discovered "B", .setDynamic true, .setStepDuration 10, .lifecycle .running false false, .request]
    PositiveDurations (h ++ [.receive "B" ⟨0, 4⟩]) ∧
    Out.step 0 4 ∈ (react (history (start true false false) h).1 (.receive "B" ⟨0, 4⟩)).2 ∧
    announced "B" (occurred (start true false false) (h ++ [.receive "B" ⟨0, 4⟩])) = some ⟨0, 4⟩ := by
  refine ⟨?_, by decide +kernel, by decide +kernel⟩
  intro d hd
  simp at hd
  omega

end SilKit.Props
