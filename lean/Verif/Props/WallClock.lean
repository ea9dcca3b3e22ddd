import Verif.Lemmas.WallClock
/-!
# C50: Coupling to the wall clock

The statements use `started` and `announced` of `Verif.Spec.WallClock`: the steps with the virtual time and the wall clock at
which they were started or announced. The animation factor is `num / den`: one nanosecond of virtual time takes `num / den`
nanoseconds of the wall clock.
-/
namespace SilKit.Props
open SilKit.TimeSync
open SilKit.WallClock
open SilKit.WallClock.Spec

/-! ## Steps do not start early -/

/-- With durations between `lo` and `hi`, no step starts earlier than its distance from the first step asks for by more than
the difference of the durations, whatever happens in whatever order. -/
theorem C50_steps_at_most_early {blocking coordinated : Bool} {num den lo hi d : Int} (hnum : 0 ≤ num) (hden : 0 ≤ den) (hlo : 0 ≤ lo) (hd : lo ≤ d ∧ d ≤ hi) {os : List Op} (ho : Durations lo hi os)
    {t0 w0 : Int} {rest : List (Int × Int)} (hs : started ((coupled blocking coordinated num den d).run os).log = (t0, w0) :: rest) {t w : Int} (h : (t, w) ∈ rest) :
    num * (t - t0) ≤ den * (w - w0) + num * (hi - lo) := by
  obtain ⟨hinv, hn, hdn⟩ : Inv lo hi ((coupled blocking coordinated num den d).run os) ∧ ((coupled blocking coordinated num den d).run os).num = num ∧ ((coupled blocking coordinated num den d).run os).den = den :=
    ⟨inv_run (inv_coupled blocking coordinated hnum hden hlo hd) ho, (run_num _ _).1, (run_num _ _).2⟩
  rcases hinv.state with ⟨-, -, h0, -⟩ | ⟨t1, w1, hl⟩
  · rw [h0] at hs
    cases hs
  · obtain ⟨rest', h1⟩ := hl.first
    rw [hs] at h1
    cases h1
    have := hl.steps (t, w) (by rw [hs]; exact List.mem_cons_of_mem _ h)
    rw [hn, hdn] at this
    exact this

/-- A participant with a constant step duration never starts a step before the wall clock has gone on, since its first step,
by the distance in virtual time times the animation factor. -/
theorem C50_never_early {blocking coordinated : Bool} {num den d : Int} (hnum : 0 ≤ num) (hden : 0 ≤ den) (hd : 0 ≤ d) {os : List Op} (ho : Durations d d os)
    {t0 w0 : Int} {rest : List (Int × Int)} (hs : started ((coupled blocking coordinated num den d).run os).log = (t0, w0) :: rest) {t w : Int} (h : (t, w) ∈ rest) :
    num * (t - t0) ≤ den * (w - w0) := by
  have := C50_steps_at_most_early hnum hden hd ⟨Int.le_refl d, Int.le_refl d⟩ ho hs h
  simpa using this

/-- Announcements after the first step are early by at most one step (and the difference of the durations). What is missing: they
are not always due, see `C50_announced_early_to_newcomer` and `C50_announced_while_executing`. -/
theorem C50_announced_at_most_a_step_early_partial {blocking coordinated : Bool} {num den lo hi d : Int} (hnum : 0 ≤ num) (hden : 0 ≤ den) (hlo : 0 ≤ lo) (hd : lo ≤ d ∧ d ≤ hi) {os : List Op} (ho : Durations lo hi os)
    {t0 w0 : Int} {rest : List (Int × Int)} (hs : started ((coupled blocking coordinated num den d).run os).log = (t0, w0) :: rest)
    {t w : Int} (h : (t, w) ∈ announced (fromFirst ((coupled blocking coordinated num den d).run os).log)) :
    num * (t - t0) ≤ den * (w - w0) + num * (hi - lo + hi) := by
  have hinv : Inv lo hi ((coupled blocking coordinated num den d).run os) := inv_run (inv_coupled blocking coordinated hnum hden hlo hd) ho
  have hn := (run_num (coupled blocking coordinated num den d) os).1
  have hdn := (run_num (coupled blocking coordinated num den d) os).2
  rcases hinv.state with ⟨-, -, h0, -⟩ | ⟨t1, w1, hl⟩
  · rw [h0] at hs
    cases hs
  · obtain ⟨rest', h1⟩ := hl.first
    rw [hs] at h1
    cases h1
    have := hl.told (t, w) h
    rw [hn, hdn] at this
    exact this

/-- The bound on the announcements is met: three steps, the others announced when they are due. -/
example : started ((coupled false false 1 1 5).run (startup false ++ rounds false 5 2)).log = [(0, 0), (5, 5), (10, 10)] ∧
    announced (fromFirst ((coupled false false 1 1 5).run (startup false ++ rounds false 5 2)).log) = [(5, 5), (10, 10)] ∧ Durations 5 5 (startup false ++ rounds false 5 2) := by
  refine ⟨by decide +kernel, by decide +kernel, ?_, ?_⟩ <;> intro _ <;> simp [startup, rounds, round]

/-- With animation factor 1/2, a late thread and a handler that takes long, steps start late, but never early. -/
example : started ((coupled true true 1 2 10).run (startup true ++ [.elapse 7, .tick, .check, .request, .event .poll, .elapse 20, .event .stepReturned, .tick, .check, .request, .event .poll, .event .stepReturned, .tick, .check, .request, .event .poll])).log = [(0, 0), (10, 7), (20, 27), (30, 27)] := by
  decide +kernel

/-- **Deviation.** With changing durations steps do start early: the duration is 10 when the thread wakes up and is set back to 1 (by another
thread) before the step is executed; the next message of the other participant starts step 2 at the wall clock time 1. -/
theorem C50_changed_duration_starts_early :
    started ((coupled false false 1 1 1).run [.event (.lifecycle .running false false), .event (.discovered "Q"), .ask, .request, .event (.receive "Q" ⟨0, 10⟩), .event (.receive "Q" ⟨10, 10⟩), .event .complete, .launch,
      .event (.setStepDuration 10), .elapse 1, .tick, .check, .event (.setStepDuration 1), .request, .event .poll, .event .complete, .event (.receive "Q" ⟨20, 10⟩)]).log = [(0, 0), (1, 1), (2, 1)] := by
  decide +kernel

/-- **Deviation.** A participant that is discovered is told the next step before it is due: at the wall clock time 0 for the step at 10. -/
theorem C50_announced_early_to_newcomer :
    announced (fromFirst ((coupled false false 1 1 10).run (startup false ++ [.event (.discovered "Q")])).log) = [(10, 0)] := by
  decide +kernel

/-- **Deviation.** The thread may ask for the next step just before another participant makes the step possible. Then the step that
is executing is announced as done: step 10 starts at the wall clock time 10 and is not completed, but step 20 is announced. -/
theorem C50_announced_while_executing :
    let w := (coupled false false 1 1 10).run [.event (.lifecycle .running false false), .event (.discovered "Q"), .ask, .request, .event (.receive "Q" ⟨0, 10⟩), .event .poll, .event .complete, .launch,
      .elapse 10, .tick, .check, .event (.receive "Q" ⟨10, 10⟩), .request]
    w.log.map (·.out) = [.send ⟨0, 10⟩, .step 0 10, .step 10 10, .send ⟨20, 10⟩] ∧ w.part.asyncExecuting = true := by
  decide +kernel

/-! ## A participant that works promptly keeps up -/

private theorem startup_end (blocking coordinated : Bool) (num den d : Int) :
    (coupled blocking coordinated num den d).run (startup blocking) =
      { part := { cfg := { blocking := blocking, current := ⟨0, d⟩, next := ⟨0 + d, d⟩ }, coordinated := coordinated, coupled := true, state := .running, hopOnEvaluated := true, lastSent := 0 }, num := num, den := den, phase := .waiting, due := d * num, log := [⟨.send ⟨0, d⟩, 0⟩, ⟨.step 0 d, 0⟩] } := by
  cases blocking <;>
    simp [coupled, startup, World.run, World.step, World.event, World.took, World.begin, Part.on, Part.requestNextStep, Part.process, Part.advancePossible, Part.advanceSync, Part.advanceAsync,
        Part.advanceAndExecute, Part.execute, Part.startWallClock, Part.afterSyncStep, Part.complete, TimeConfig.isHopOn, TimeConfig.ahead, TimeConfig.otherLower, TimeConfig.advance, TimeConfig.nextCurrent, Event.onIoThread]

private theorem startup_ready (blocking coordinated : Bool) (num den d : Int) :
    ∃ w, (coupled blocking coordinated num den d).run (startup blocking) = w ∧ Ready d w ∧ w.part.cfg.blocking = blocking ∧ w.wall = 0 ∧ w.start = 0 ∧ w.due = d * num ∧
      w.num = num ∧ w.den = den ∧ w.part.wallClock = 0 ∧ w.part.cfg.next.tp = 0 + d ∧ started w.log = [(0, 0)] := by
  exact ⟨_, startup_end blocking coordinated num den d, ⟨rfl, rfl, rfl, rfl, rfl, rfl, rfl, rfl, rfl, rfl, rfl, rfl, rfl, rfl⟩, rfl, rfl, rfl, rfl, rfl, rfl, rfl, rfl, rfl⟩

/-- If the thread wakes up every `e` nanoseconds, which is at least the animated step duration, and every step is executed and
completed at once, then step `i` starts exactly at the wall clock time `i * e`, for any number of steps. -/
theorem C50_prompt_participant_keeps_up (blocking coordinated : Bool) {num den d : Int} {e : Nat} (hd : 0 ≤ d ∧ d ≤ maxNs) (he : num * d ≤ den * e) (n : Nat) :
    started ((coupled blocking coordinated num den d).run (startup blocking ++ rounds blocking e n)).log = (List.range (n + 1)).map (fun (i : Nat) => ((i : Int) * d, (i : Int) * (e : Int))) := by
  obtain ⟨w, h1, hr, h2, h3, h4, h5, h6, h7, h8, h9, h10⟩ := startup_ready blocking coordinated num den d
  obtain ⟨w', g1, -, -, -, -, -, -, -, -, -, g2⟩ := rounds_spec hr hd.2 e (by rw [h6, h7]; exact he) (by rw [h3, h4, h5, h6]; simp [Int.mul_comm]) (by rw [h8, h9]; omega) n
  rw [run_append, h1]
  rw [h2] at g1
  rw [g1, g2, h10, h9, h3, List.range_succ_eq_map]
  simp only [List.map_cons, List.map_map, List.singleton_append]
  congr 1
  · simp
  · apply List.map_congr_left
    intro i _
    simp only [Function.comp, Nat.succ_eq_add_one, Int.natCast_add, Int.add_mul]
    simp
    omega

/-! ## A participant that was late once stays late -/

/-- However the steps and the wake-ups are interleaved, what a participant is behind never becomes less from one idle state to a
later one. -/
theorem C50_never_less_behind {d : Int} (hd : 0 ≤ d) {w : World} (h1 : w.part.coupled = true) (h2 : w.part.hopOnEvaluated = true) (h3 : w.part.cfg.next.dur = d) {os : List Op}
    (ho : ∀ o ∈ os, Ordinary o) (hi : Idle w) (hj : Idle (w.run os)) : behind w ≤ behind (w.run os) := by
  obtain ⟨g, hle⟩ := going_run hd ⟨h1, h2, h3⟩ ho
  have key : ∀ {v : World}, Idle v → debt v = behind v := by
    intro v ⟨a, b, c, e, f⟩
    unfold debt pend behind
    simp [a, b, c, e, f]
  rw [key hi, key hj] at hle
  exact hle

private theorem slow_ready (coordinated : Bool) {num den d : Int} {e : Nat} (hd : 0 ≤ d ∧ d ≤ maxNs) (he : num * d ≤ den * e) (k : Nat) :
    ∃ w, (coupled false coordinated num den d).run (slow e k) = w ∧ Ready d w ∧ w.part.cfg.blocking = false ∧ w.wall = (k + 2) * e ∧ w.due ≤ w.den * (w.wall - w.start) + w.num * d ∧
      w.num = num ∧ w.den = den ∧ w.part.wallClock = (k + 2) * d ∧ w.part.cfg.next.tp = 3 * d ∧
      started w.log = [(0, 0), (d, (e : Int)), (2 * d, (k + 2) * (e : Int))] := by
  unfold slow
  rw [run_append, run_append, run_append, startup_end]
  generalize hl0 : [Entry.mk (Out.send ⟨0, d⟩) 0, Entry.mk (Out.step 0 d) 0] = log0
  have hs0 : started log0 = [(0, 0)] := by rw [← hl0]; rfl
  have hdue : d * num ≤ den * (e : Int) := by rw [Int.mul_comm]; exact he
  obtain ⟨log2, hopen, hlog2⟩ : ∃ log2, World.run { part := { cfg := { blocking := false, current := ⟨0, d⟩, next := ⟨0 + d, d⟩ }, coordinated := coordinated, coupled := true, state := .running, hopOnEvaluated := true, lastSent := 0 }, num := num, den := den, phase := .waiting, due := d * num, log := log0 } [.elapse e, .tick, .check, .request, .event .poll]
      = { part := { cfg := { blocking := false, current := ⟨0 + d, d⟩, next := ⟨0 + d + d, d⟩ }, coordinated := coordinated, coupled := true, state := .running, hopOnEvaluated := true, lastSent := d, wallClock := d, asyncExecuting := true }, num := num, den := den, wall := e, phase := .waiting, due := d * num + d * num, log := log2 } ∧ started log2 = [(0, 0), (0 + d, (e : Int))] := by
    rw [run_cons _ _ _ rfl]
    rw [run_cons _ _ _ (w' := { part := { cfg := { blocking := false, current := ⟨0, d⟩, next := ⟨0 + d, d⟩ }, coordinated := coordinated, coupled := true, state := .running, hopOnEvaluated := true, lastSent := 0, wallClock := d }, num := num, den := den, wall := e, phase := .moved, due := d * num + d * num, log := log0 })
      (by simp [World.step, World.move, hdue])]
    rw [run_cons _ _ _ (w' := { part := { cfg := { blocking := false, current := ⟨0, d⟩, next := ⟨0 + d, d⟩ }, coordinated := coordinated, coupled := true, state := .running, hopOnEvaluated := true, lastSent := 0, wallClock := d }, num := num, den := den, wall := e, phase := .waiting, requests := 1, due := d * num + d * num, log := log0 })
      (by simp [World.step])]
    obtain ⟨log1, hreq, hlog1⟩ : ∃ log1, World.step { part := { cfg := { blocking := false, current := ⟨0, d⟩, next := ⟨0 + d, d⟩ }, coordinated := coordinated, coupled := true, state := .running, hopOnEvaluated := true, lastSent := 0, wallClock := d }, num := num, den := den, wall := e, phase := .waiting, requests := 1, due := d * num + d * num, log := log0 } .request
        = some { part := { cfg := { blocking := false, current := ⟨0, d⟩, next := ⟨0 + d, d⟩ }, coordinated := coordinated, coupled := true, state := .running, hopOnEvaluated := true, lastSent := d, polls := 1, wallClock := d }, num := num, den := den, wall := e, phase := .waiting, due := d * num + d * num, log := log1 } ∧ started log1 = started log0 := by
      refine ⟨log0 ++ (if 0 ≠ d then [Out.send ⟨0 + d, d⟩] else []).map (⟨·, (e : Int)⟩), ?_, ?_⟩
      · simp [World.step, Part.on, Part.requestNextStep, World.took]
      · rw [started_append]
        split <;> simp [started, stepOf]
    rw [run_cons _ _ _ hreq]
    have hproc := process_alone (p := { cfg := { blocking := false, current := ⟨0, d⟩, next := ⟨0 + d, d⟩ }, coordinated := coordinated, coupled := true, state := .running, hopOnEvaluated := true, lastSent := d, wallClock := d }) rfl rfl rfl rfl rfl rfl rfl hd.2 (by simp) rfl
    have hpoll : World.step { part := { cfg := { blocking := false, current := ⟨0, d⟩, next := ⟨0 + d, d⟩ }, coordinated := coordinated, coupled := true, state := .running, hopOnEvaluated := true, lastSent := d, polls := 1, wallClock := d }, num := num, den := den, wall := e, phase := .waiting, due := d * num + d * num, log := log1 } (.event .poll)
        = some { part := { cfg := { blocking := false, current := ⟨0 + d, d⟩, next := ⟨0 + d + d, d⟩ }, coordinated := coordinated, coupled := true, state := .running, hopOnEvaluated := true, lastSent := d, wallClock := d, asyncExecuting := true }, num := num, den := den, wall := e, phase := .waiting, due := d * num + d * num, log := log1 ++ [⟨.step (0 + d) d, e⟩] } := by
      have hon : Part.on { cfg := { blocking := false, current := ⟨0, d⟩, next := ⟨0 + d, d⟩ }, coordinated := coordinated, coupled := true, state := .running, hopOnEvaluated := true, lastSent := d, polls := 1, wallClock := d } .poll =
          some (Part.process { cfg := { blocking := false, current := ⟨0, d⟩, next := ⟨0 + d, d⟩ }, coordinated := coordinated, coupled := true, state := .running, hopOnEvaluated := true, lastSent := d, wallClock := d }) := by
        unfold Part.on
        rw [if_neg (by simp)]
        rfl
      simp only [World.step, World.event]
      rw [hon, hproc]
      rfl
    rw [run_cons _ _ _ hpoll]
    exact ⟨_, rfl, by rw [started_append, hlog1, hs0]; rfl⟩
  rw [hopen]
  obtain ⟨due', hlate, hdue'⟩ := latePeriods_spec (d := d) (w := { part := { cfg := { blocking := false, current := ⟨0 + d, d⟩, next := ⟨0 + d + d, d⟩ }, coordinated := coordinated, coupled := true, state := .running, hopOnEvaluated := true, lastSent := d, wallClock := d, asyncExecuting := true }, num := num, den := den, wall := e, phase := .waiting, due := d * num + d * num, log := log2 })
    rfl rfl rfl rfl e he (by dsimp only; rw [Int.sub_zero, Int.mul_comm num d]; omega) k
  have hwc : d + (↑k + 1) * d = (k + 2) * d := by rw [Int.add_mul, Int.add_mul]; omega
  have hwe : (e : Int) + (↑k + 1) * ↑e = (k + 2) * e := by rw [Int.add_mul, Int.add_mul]; omega
  rw [hlate]
  obtain ⟨w', g1, g2, g3, g4, g5, g6, g7, g8, g9, g10, g11⟩ := catchUp_spec (d := d)
    (w := { part := { cfg := { blocking := false, current := ⟨0 + d, d⟩, next := ⟨0 + d + d, d⟩ }, coordinated := coordinated, coupled := true, state := .running, hopOnEvaluated := true, lastSent := d, wallClock := d + (k + 1) * d, wallClockReached := true, asyncExecuting := true }, num := num, den := den, wall := e + (k + 1) * e, phase := .waiting, due := due', log := log2 })
    rfl rfl rfl rfl rfl rfl rfl rfl rfl rfl rfl rfl rfl rfl hd.2 (by
      have : (0 : Int) ≤ k * d := Int.mul_nonneg (Int.natCast_nonneg _) hd.1
      dsimp only; rw [Int.add_mul]; omega)
  refine ⟨w', g1, g2, g3, ?_, ?_, g7, g8, ?_, ?_, ?_⟩
  · rw [g4]; exact hwe
  · rw [g5, g6, g4, g8, g7]; exact hdue'
  · rw [g9]; exact hwc
  · rw [g10]; dsimp only; omega
  · rw [g11, hlog2]
    simp [hwe]
    omega

/-- A step handler that takes `k + 1` periods once leaves the participant `k` steps behind for ever: afterwards, with every
step executed at once, step `3 + i` starts when step `3 + i + k` is due. -/
theorem C50_late_once_late_for_ever (coordinated : Bool) {num den d : Int} {e : Nat} (hd : 0 ≤ d ∧ d ≤ maxNs) (he : num * d ≤ den * e) (k n : Nat) :
    started ((coupled false coordinated num den d).run (slow e k ++ rounds false e n)).log =
      [(0, 0), (d, (e : Int)), (2 * d, (k + 2) * (e : Int))] ++ (List.range n).map (fun (i : Nat) => (((3 + i : Nat) : Int) * d, ((3 + i + k : Nat) : Int) * (e : Int))) := by
  obtain ⟨w, h1, hr, h2, h3, h4, h6, h7, h8, h9, h10⟩ := slow_ready coordinated hd he k
  have hkd : (0 : Int) ≤ k * d := Int.mul_nonneg (Int.natCast_nonneg _) hd.1
  obtain ⟨w', g1, -, -, -, -, -, -, -, -, -, g2⟩ := rounds_spec hr hd.2 e (by rw [h6, h7]; exact he) h4 (by rw [h8, h9, Int.add_mul]; omega) n
  rw [run_append, h1]
  rw [h2] at g1
  rw [g1, g2, h10, h9, h3]
  congr 1
  apply List.map_congr_left
  intro i _
  simp only [Int.natCast_add, Int.add_mul]
  simp
  omega

example : started ((coupled false true 2 1 5).run (slow 10 2 ++ rounds false 10 2)).log = [(0, 0), (5, 10), (10, 40), (15, 50), (20, 60)] := by decide +kernel

/-- The idle states of `C50_never_less_behind` exist, and what is behind does grow. -/
example : let w := (coupled false true 2 1 5).run (startup false)
    w.part.hopOnEvaluated = true ∧ Idle w ∧ behind w = -5 ∧ Idle ((coupled false true 2 1 5).run (slow 10 2)) ∧ behind ((coupled false true 2 1 5).run (slow 10 2)) = 5 := by
  simp only [Idle]
  decide +kernel

end SilKit.Props
