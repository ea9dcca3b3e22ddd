import Verif.Lemmas.StopSignal
/-!
# C66: ending a simulation with Ctrl-C
-/
namespace SilKit.Props
open SilKit.StopSignal SilKit.StopSignal.Spec

/-- What the handler does if the simulation is in the same state at every look at it. -/
def steady (st : ParticipantState) (final : Option Nat) : Env := { reads := fun _ => st, final := final }

/-- **C66, reaction (part).** While the system state does not change between the looks at it, the reaction to the signal is the right one for the
state; if the simulation ends within 15 s, nothing else is done. If it does not, a simulation that was not aborted is aborted after 15 s; if it has not
ended 15 s after the abortion was requested, an error is reported; and nothing else is ever done. Missing: states that change between the looks, for
which this is false (see below). -/
theorem C66_reaction_exact_partial (st : ParticipantState) (final : Option Nat) :
    (handler (steady st final)).1 = (response st).map (fun a => (0, a)) ++
      (if abortedAtOnce st then (if still final 15000 then [(15000, Act.reportError)] else [])
       else (if still final 15000 then [(15000, Act.abort)] else []) ++ (if still final 30000 then [(30000, Act.reportError)] else [])) := by
  have h1 : (stopOrAbort (steady st final).reads).1 = response st ∧ (stopOrAbort (steady st final).reads).2 = abortedAtOnce st := by
    cases st <;> exact ⟨rfl, rfl⟩
  rw [handler_eq, h1.1, h1.2]
  dsimp only
  congr 1
  rcases wait_eq (abortedAtOnce st) (steady st final).final with ⟨f, e, hf, hw⟩ | ⟨hs, ha, hw⟩ | ⟨f, e, h15, h30, ha, hw⟩ | ⟨hs, ha, hw⟩
  · have n1 : ¬ still final 15000 := by intro h; have := h f e; omega
    have n2 : ¬ still final 30000 := by intro h; have := h f e; omega
    rw [hw, if_neg n1, if_neg n1, if_neg n2]; cases abortedAtOnce st <;> rfl
  · have n1 : still final 15000 := hs
    rw [hw, ha, if_pos rfl, if_pos n1]
  · have n1 : still final 15000 := by intro g hg; have := Option.some.inj (hg.symm.trans e); omega
    have n2 : ¬ still final 30000 := by intro h; have := h f e; omega
    rw [hw, ha, if_neg (by simp), if_pos n1, if_neg n2]; rfl
  · have n2 : still final 30000 := hs
    have n1 : still final 15000 := by intro g hg; have := n2 g hg; omega
    rw [hw, ha, if_neg (by simp), if_pos n1, if_pos n2]; rfl

example : (handler (steady .running (some 2000))).1 = [(0, .stop)]
    ∧ (handler (steady .paused (some 17000))).1 = [(0, .stop), (15000, .abort)]
    ∧ (handler (steady .readyToRun none)).1 = [(0, .abort), (15000, .reportError)] := by decide +kernel

/-- **C66, bounded.** Whatever the states that are seen: the handler returns at most 30 s after the signal, and as soon as the simulation has ended; it
stops at most once, aborts at most once and reports at most one error. -/
theorem C66_bounded (env : Env) :
    (handler env).2 ≤ 30000 ∧ (∀ f, env.final = some f → (handler env).2 ≤ f) ∧
    ((handler env).1.map Prod.snd).count .stop ≤ 1 ∧ ((handler env).1.map Prod.snd).count .abort ≤ 1 ∧
    ((handler env).1.map Prod.snd).count .reportError ≤ 1 := by
  have h1 : stopOrAbort env.reads = ([.stop], false) ∨ stopOrAbort env.reads = ([], true) ∨ stopOrAbort env.reads = ([.abort], true)
      ∨ stopOrAbort env.reads = ([], false) := by
    unfold stopOrAbort
    split
    · exact Or.inl rfl
    · split
      · exact Or.inl rfl
      · split
        · exact Or.inr (Or.inl rfl)
        · split
          · exact Or.inr (Or.inr (Or.inl rfl))
          · exact Or.inr (Or.inr (Or.inr rfl))
  rw [handler_eq]
  dsimp only
  rcases wait_eq (stopOrAbort env.reads).2 env.final with ⟨f, e, hf, hw⟩ | ⟨hs, ha, hw⟩ | ⟨f, e, h15, h30, ha, hw⟩ | ⟨hs, ha, hw⟩
  · refine ⟨by rw [hw]; dsimp only; omega, fun g hg => ?_, ?_⟩
    · have := Option.some.inj (hg.symm.trans e)
      rw [hw]; dsimp only; omega
    · rw [hw]
      rcases h1 with h | h | h | h <;> rw [h] <;> dsimp only <;> decide
  · refine ⟨by rw [hw]; dsimp only; omega, fun g hg => ?_, ?_⟩
    · have := hs g hg
      rw [hw]; dsimp only; omega
    · rw [hw]
      rcases h1 with h | h | h | h <;> rw [h] at ha ⊢ <;> first | exact absurd ha (by decide) | (dsimp only; decide)
  · refine ⟨by rw [hw]; exact h30, fun g hg => ?_, ?_⟩
    · have := Option.some.inj (hg.symm.trans e)
      rw [hw]; dsimp only; omega
    · rw [hw]
      rcases h1 with h | h | h | h <;> rw [h] at ha ⊢ <;> first | exact absurd ha (by decide) | (dsimp only; decide)
  · refine ⟨by rw [hw]; exact Nat.le_refl _, fun g hg => ?_, ?_⟩
    · have := hs g hg
      rw [hw]; dsimp only; omega
    · rw [hw]
      rcases h1 with h | h | h | h <;> rw [h] at ha ⊢ <;> first | exact absurd ha (by decide) | (dsimp only; decide)

/-- **C66, stop and abort have a reason.** Whatever the states that are seen: the simulation is stopped only if it was seen running or paused, and then at
once; it is aborted at once only if it was not running at the first look, not paused at the second, not aborting at the third and not shut down at
the fourth; later it is aborted, or an error is reported, only if it has not ended 15 s after the signal. -/
theorem C66_reasons (env : Env) (t : Nat) :
    ((t, Act.stop) ∈ (handler env).1 → t = 0 ∧ (env.reads 0 = .running ∨ env.reads 1 = .paused)) ∧
    ((t, Act.abort) ∈ (handler env).1 → (t = 0 ∧ env.reads 0 ≠ .running ∧ env.reads 1 ≠ .paused ∧ env.reads 2 ≠ .aborting ∧ env.reads 3 ≠ .shutdown)
      ∨ (t = 15000 ∧ still env.final 15000)) ∧
    ((t, Act.reportError) ∈ (handler env).1 → (t = 15000 ∨ t = 30000) ∧ still env.final t ∧
      (env.reads 2 = .aborting ∨ ∃ t', (t', Act.abort) ∈ (handler env).1 ∧ t' + 15000 = t)) := by
  have hh := handler_eq env
  have hcases : (stopOrAbort env.reads = ([.stop], false) ∧ (env.reads 0 = .running ∨ env.reads 1 = .paused)) ∨
      (stopOrAbort env.reads = ([], true) ∧ env.reads 2 = .aborting) ∨
      (stopOrAbort env.reads = ([.abort], true) ∧ env.reads 0 ≠ .running ∧ env.reads 1 ≠ .paused ∧ env.reads 2 ≠ .aborting ∧ env.reads 3 ≠ .shutdown) ∨
      stopOrAbort env.reads = ([], false) := by
    unfold stopOrAbort
    split
    · rename_i h; exact Or.inl ⟨rfl, Or.inl h⟩
    · rename_i h0
      split
      · rename_i h; exact Or.inl ⟨rfl, Or.inr h⟩
      · rename_i h1
        split
        · rename_i h; exact Or.inr (Or.inl ⟨rfl, h⟩)
        · rename_i h2
          split
          · rename_i h; exact Or.inr (Or.inr (Or.inl ⟨rfl, h0, h1, h2, h⟩))
          · exact Or.inr (Or.inr (Or.inr rfl))
  rcases hcases with ⟨e, hr⟩ | ⟨e, hr⟩ | ⟨e, hr⟩ | e <;> rw [e] at hh <;> dsimp only at hh
  · rcases wait_eq false env.final with ⟨f, hf, hf', hw⟩ | ⟨_, ha, _⟩ | ⟨f, hf, h15, h30, ha, hw⟩ | ⟨hs, ha, hw⟩
    · rw [hh, hw]; simp; exact fun h => ⟨h, hr⟩
    · exact absurd ha (by decide)
    · have hst : still env.final 15000 := by intro g hg; have := Option.some.inj (hg.symm.trans hf); omega
      rw [hh, hw]
      simp
      exact ⟨fun h => ⟨h, hr⟩, fun h => Or.inr ⟨h, hst⟩⟩
    · have hst : still env.final 15000 := by intro g hg; have := hs g hg; omega
      rw [hh, hw]
      simp
      exact ⟨fun h => ⟨h, hr⟩, fun h => Or.inr ⟨h, hst⟩, fun h => by subst h; exact ⟨Or.inr rfl, hs, Or.inr rfl⟩⟩
  · rcases wait_eq true env.final with ⟨f, hf, hf', hw⟩ | ⟨hs, ha, hw⟩ | ⟨f, hf, h15, h30, ha, hw⟩ | ⟨hs, ha, hw⟩
    · rw [hh, hw]; simp
    · rw [hh, hw]; simp
      intro h; subst h; exact ⟨Or.inl rfl, hs, hr⟩
    · exact absurd ha (by decide)
    · exact absurd ha (by decide)
  · rcases wait_eq true env.final with ⟨f, hf, hf', hw⟩ | ⟨hs, ha, hw⟩ | ⟨f, hf, h15, h30, ha, hw⟩ | ⟨hs, ha, hw⟩
    · rw [hh, hw]; simp
      exact fun h => Or.inl ⟨h, hr⟩
    · rw [hh, hw]; simp
      exact ⟨fun h => Or.inl ⟨h, hr⟩, fun h => by subst h; exact ⟨Or.inl rfl, hs, Or.inr rfl⟩⟩
    · exact absurd ha (by decide)
    · exact absurd ha (by decide)
  · rcases wait_eq false env.final with ⟨f, hf, hf', hw⟩ | ⟨_, ha, _⟩ | ⟨f, hf, h15, h30, ha, hw⟩ | ⟨hs, ha, hw⟩
    · rw [hh, hw]; simp
    · exact absurd ha (by decide)
    · have hst : still env.final 15000 := by intro g hg; have := Option.some.inj (hg.symm.trans hf); omega
      rw [hh, hw]
      simp
      exact fun h => Or.inr ⟨h, hst⟩
    · have hst : still env.final 15000 := by intro g hg; have := hs g hg; omega
      rw [hh, hw]
      simp
      exact ⟨fun h => Or.inr ⟨h, hst⟩, fun h => by subst h; exact ⟨Or.inr rfl, hs, Or.inr rfl⟩⟩

example : (30000, Act.reportError) ∈ (handler (steady .running none)).1 ∧ (0, Act.abort) ∈ (handler (steady .error none)).1 := by decide +kernel

/-- **C66, the end.** The utility ends at the moment its final state is reached; the handler does not delay it. -/
theorem C66_exit_at_final_state (env : Env) : exitTime env = env.final := by
  unfold exitTime
  cases h : env.final with
  | none => rfl
  | some f =>
    have := (C66_bounded env).2.1 f h
    exact congrArg some (Nat.max_eq_left this)

example : exitTime (steady .running (some 1234)) = some 1234 := by decide +kernel

/-- **C66, one signal.** In every history of signals: the handler is called at most once, and with the number of a signal that was delivered. -/
theorem C66_handler_once (ops : List Op) :
    (Monitor.run ops).calls.length ≤ 1 ∧ ∀ x ∈ (Monitor.run ops).calls, ∃ k ∈ signals ops, x = (k : Int) :=
  ⟨(StopSignal.inv_run ops).once, (StopSignal.inv_run ops).calls⟩

/-- **C66, a signal is handled (part).** A signal that is delivered while the handler is installed is handled when the worker has run: then the handler has
been called once. Missing: signals just before the handler is removed, which may be lost (see below). -/
theorem C66_signal_is_handled_partial (ops : List Op) (hno : Op.shutdown ∉ ops) (hs : signals ops ≠ []) :
    (Monitor.run (ops ++ [.wake, .work])).calls.length = 1 := by
  have h := StopSignal.inv_run ops
  have hc := closing_iff ops hno
  have e : Monitor.run (ops ++ [.wake, .work]) = ((Monitor.run ops).step .wake).step .work := by
    unfold Monitor.run; rw [List.foldl_append]; rfl
  have e' : Monitor.run ((ops ++ [.wake]) ++ [.work]) = Monitor.run (ops ++ [.wake, .work]) := by rw [List.append_assoc]; rfl
  have h2 := StopSignal.inv_run ((ops ++ [.wake]) ++ [.work])
  rw [e'] at h2
  have hno2 : Op.shutdown ∉ (ops ++ [.wake]) ++ [.work] := by simp [hno]
  have hc2 := closing_iff _ hno2
  rw [e'] at hc2
  have hfin : (Monitor.run (ops ++ [.wake, .work])).finished = true := by
    rw [e]
    have hw : ((Monitor.run ops).step .wake).woken = true := by
      unfold Monitor.step
      dsimp only
      split
      · rfl
      · rename_i hn
        cases hwk : (Monitor.run ops).woken with
        | true => rfl
        | false =>
          exfalso
          apply hn
          refine ⟨hwk, ?_⟩
          rw [h.full hc hwk]
          cases hsg : signals ops with
          | nil => exact absurd hsg hs
          | cons a b => simp
    generalize (Monitor.run ops).step .wake = m at hw
    unfold Monitor.step
    dsimp only
    split
    · rfl
    · rename_i hn
      cases hf : m.finished with
      | true => rfl
      | false => exact absurd ⟨hw, hf⟩ hn
  have hne := h2.missed hc2 hfin
  have hle := h2.once
  cases hcl : (Monitor.run (ops ++ [.wake, .work])).calls with
  | nil => exact absurd hcl hne
  | cons a b => rw [hcl] at hle; simp at hle ⊢; exact hle

example : Op.shutdown ∉ [Op.signal 2, Op.wake, Op.signal 15] ∧ signals [Op.signal 2, Op.wake, Op.signal 15] ≠ [] := by decide

/-- **C66, documented levels.** `--log` accepts exactly the levels the help text names, and these with a capital first letter; each means the level it
names. -/
theorem C66_log_levels (s : List Char) (l : ConfigText.Level) :
    logOption s = .ok l ↔ ∃ t, (t, l) ∈ documented ∧ (s = t.toList ∨ s = configLevel t.toList) := by
  constructor
  · intro h
    unfold logOption at h
    split at h
    · exact nomatch h
    · rename_i hv
      have hr : ∃ v, ConfigText.readLevel .info (.val (String.ofList (configLevel s))) = .ok v ∧ v = l := by
        split at h
        · rename_i v hv'; exact ⟨v, hv', Except.ok.inj h⟩
        · exact nomatch h
      obtain ⟨v, hr, rfl⟩ := hr
      unfold ConfigText.readLevel ConfigText.readEnum at hr
      dsimp only at hr
      split at hr
      · rename_i w hl
        cases hr
        obtain ⟨a, b, e1, _⟩ := List.lookup_eq_some_iff.mp hl
        have hm : (String.ofList (configLevel s), v) ∈ [("Critical", ConfigText.Level.critical), ("Error", .error), ("Warn", .warn), ("Info", .info),
            ("Debug", .debug), ("Trace", .trace), ("Off", .off)] := by rw [e1]; simp
        have back : ∀ t : String, String.ofList (configLevel s) = t → configLevel s = t.toList := by
          intro t ht; rw [← ht, String.toList_ofList]
        simp only [List.mem_cons, Prod.mk.injEq, List.not_mem_nil, or_false] at hm
        rcases hm with ⟨e, rfl⟩ | ⟨e, rfl⟩ | ⟨e, rfl⟩ | ⟨e, rfl⟩ | ⟨e, rfl⟩ | ⟨e, rfl⟩ | ⟨e, rfl⟩
        · exact ⟨"critical", by simp [documented], (configLevel_cases s 2 _ (back _ e)).symm⟩
        · exact ⟨"error", by simp [documented], (configLevel_cases s 4 _ (back _ e)).symm⟩
        · exact ⟨"warn", by simp [documented], (configLevel_cases s 22 _ (back _ e)).symm⟩
        · exact ⟨"info", by simp [documented], (configLevel_cases s 8 _ (back _ e)).symm⟩
        · exact ⟨"debug", by simp [documented], (configLevel_cases s 3 _ (back _ e)).symm⟩
        · exact ⟨"trace", by simp [documented], (configLevel_cases s 19 _ (back _ e)).symm⟩
        · exact ⟨"off", by simp [documented], (configLevel_cases s 14 _ (back _ e)).symm⟩
      · exact nomatch hr
  · rintro ⟨t, hm, hs⟩
    simp only [documented, List.mem_cons, Prod.mk.injEq, List.not_mem_nil, or_false] at hm
    rcases hm with ⟨rfl, rfl⟩ | ⟨rfl, rfl⟩ | ⟨rfl, rfl⟩ | ⟨rfl, rfl⟩ | ⟨rfl, rfl⟩ | ⟨rfl, rfl⟩ | ⟨rfl, rfl⟩ <;> rcases hs with rfl | rfl <;> rfl

/-! ## Where the code deviates -/

/-- **C66, aborted though it runs (negation).** The state is looked at anew for every comparison: a simulation that is paused at the first look and has
been continued at the second is aborted, although it was running or paused all the time. -/
theorem C66_running_simulation_is_aborted :
    ∃ reads : Nat → ParticipantState, (∀ i, reads i = .running ∨ reads i = .paused) ∧ ∀ final, (0, Act.abort) ∈ (handler { reads := reads, final := final }).1 := by
  refine ⟨fun i => if i = 0 then .paused else .running, ?_, ?_⟩
  · intro i; by_cases h : i = 0 <;> simp [h]
  · intro final
    rw [handler_eq]
    exact List.mem_append_left _ (by dsimp only; decide)

/-- **C66, no way out (negation).** If the final state is not reached, the utility reports an error after 30 s at the latest and then waits for ever: the
worker has finished, so that further signals are ignored. -/
theorem C66_never_ends (env : Env) (h : env.final = none) (ops : List Op) (hf : (Monitor.run ops).finished = true) (later : List Op) :
    exitTime env = none ∧ (∃ t, t ≤ 30000 ∧ (t, Act.reportError) ∈ (handler env).1) ∧ (Monitor.run (ops ++ later)).calls = (Monitor.run ops).calls := by
  refine ⟨by rw [C66_exit_at_final_state, h], ?_, ?_⟩
  · rw [handler_eq]
    rcases wait_eq (stopOrAbort env.reads).2 env.final with ⟨f, e, hf, hw⟩ | ⟨hs, ha, hw⟩ | ⟨f, e, h15, h30, ha, hw⟩ | ⟨hs, ha, hw⟩
    · rw [h] at e; exact nomatch e
    · exact ⟨15000, by omega, by rw [hw]; simp⟩
    · rw [h] at e; exact nomatch e
    · exact ⟨30000, by omega, by rw [hw]; simp⟩
  · have : ∀ later : List Op, ∀ m : Monitor, m.finished = true → (later.foldl Monitor.step m).calls = m.calls := by
      intro later
      induction later with
      | nil => intro m _; rfl
      | cons o later ih =>
        intro m hm
        have hstep : (m.step o).finished = true ∧ (m.step o).calls = m.calls := by
          cases o with
          | signal k => unfold Monitor.step; dsimp only; split <;> exact ⟨hm, rfl⟩
          | wake => unfold Monitor.step; dsimp only; split <;> exact ⟨hm, rfl⟩
          | work => unfold Monitor.step; dsimp only; rw [if_neg (by simp [hm])]; exact ⟨hm, rfl⟩
          | shutdown => unfold Monitor.step; dsimp only; split <;> exact ⟨hm, rfl⟩
        rw [List.foldl_cons, ih _ hstep.1, hstep.2]
    unfold Monitor.run
    rw [List.foldl_append]
    exact this later _ hf

example : (steady .running none).final = none ∧ (Monitor.run [.signal 2, .wake, .work]).finished = true := by decide

/-- **C66, lost signal (negation).** A signal that arrives before the handler is removed is lost if the worker has not looked at it yet. -/
theorem C66_signal_lost : (Monitor.run [.signal 2, .shutdown, .wake, .work]).calls = [] := by decide

/-- **C66, accepted and refused (negation).** The check of `--log` does not look at the case of letters, the configuration does: `WARN` passes the check,
and then the configuration cannot be loaded. -/
theorem C66_log_upper_case : validLevel "WARN".toList = true ∧ logOption "WARN".toList = .error (-2) := by
  constructor <;> rfl

end SilKit.Props
