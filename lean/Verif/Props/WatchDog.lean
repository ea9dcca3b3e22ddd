import Verif.Lemmas.WatchDog
/-!
# The watchdog (C35)

`run c h` is a watchdog with timeouts `c` to which `h` happens, and all it does. `warns k` and `errors k` are the calls of the warning handler and of the
timeout handler for the `k`-th step, `looks k` are the durations of this step that the watchdog sees when it looks. `spans h` are the beginnings and ends
of the steps.
-/
namespace SilKit.Props
open SilKit.WatchDog SilKit.WatchDog.Spec

variable {c : Config} {h a b : List In} {k : Nat}

/-- There is at most one warning and at most one timeout for each step. -/
theorem watchdog_at_most_once (hc : Clock h) (k : Nat) : (warns k (run c h).2).length ≤ 1 ∧ (errors k (run c h).2).length ≤ 1 :=
  ⟨(run_once c k h hc).w1, (run_once c k h hc).e1⟩

/-- What is reported: the first time that the watchdog sees that the step has taken longer than the soft timeout and not longer than the hard timeout, and
the first time that it sees that the step has taken longer than the hard timeout. The watchdog must have seen something that is in order before. -/
theorem watchdog_exact_partial (hc : Clock h) (hf : Fresh c k (run c h).2) :
    warns k (run c h).2 = ((looks k (run c h).2).find? fun d => decide (c.warn < d ∧ d ≤ c.error)).toList ∧
    errors k (run c h).2 = ((looks k (run c h).2).find? fun d => decide (c.error < d)).toList := by
  by_cases hn : looks k (run c h).2 = []
  · have := once_nil (run_once c k h hc) hn
    rw [hn, this.1, this.2]
    exact ⟨rfl, rfl⟩
  · have := run_exact c k h hc hf hn
    exact ⟨this.w, this.e⟩

/-- What the watchdog sees of a step is the time since the beginning of this step. -/
theorem watchdog_looks (hc : Clock h) {d : Int} (hd : Out.looked k d ∈ (run c h).2) :
    ∃ s T, (starts h)[k]? = some s ∧ (In.start T ∈ h ∨ In.reset T ∈ h ∨ In.look T ∈ h) ∧ d = millis s T := by
  obtain ⟨s, T, h1, h2, h3⟩ := (run_base c h hc).seen k d (mem_looks.2 hd)
  refine ⟨s, T, h1, ?_, h3⟩
  obtain ⟨x, hx, e⟩ := List.mem_filterMap.1 h2
  cases x <;> simp [timeOf] at e <;> subst e <;> simp [hx]

/-- What is reported was seen and is longer than the timeout. -/
theorem watchdog_reported (c : Config) (h : List In) (k : Nat) (d : Int) :
    (Out.warn k d ∈ (run c h).2 → Out.looked k d ∈ (run c h).2 ∧ c.warn < d ∧ d ≤ c.error) ∧
    (Out.error k d ∈ (run c h).2 → Out.looked k d ∈ (run c h).2 ∧ c.error < d) := ⟨(reported c h).1 k d, (reported c h).2 k d⟩

/-- The watchdog sees every step that is running when it looks. -/
theorem watchdog_sees {T : Int} (hc : Clock (a ++ .load :: .look T :: b)) (hp : Prompt (a ++ .load :: .look T :: b)) {l : List (Int × Option Int)} {s : Int}
    (hs : spans a = l ++ [(s, none)]) : Out.looked l.length (millis s T) ∈ (run c (a ++ .load :: .look T :: b)).2 := sees hc hp hs

/-- If the watchdog looks while a step has taken longer than the hard timeout, the timeout handler is called exactly once for this step. -/
theorem watchdog_timeout_partial {T : Int} (hc : Clock (a ++ .load :: .look T :: b)) (hp : Prompt (a ++ .load :: .look T :: b)) {l : List (Int × Option Int)}
    {s : Int} (hs : spans a = l ++ [(s, none)]) (hf : Fresh c l.length (run c (a ++ .load :: .look T :: b)).2) (hd : c.error < millis s T) :
    (errors l.length (run c (a ++ .load :: .look T :: b)).2).length = 1 := by
  have hm := mem_looks.2 (sees (c := c) hc hp hs)
  rw [(watchdog_exact_partial hc hf).2]
  cases hx : (looks l.length (run c (a ++ .load :: .look T :: b)).2).find? fun d => decide (c.error < d) with
  | some d => rfl
  | none => exact absurd hd (by simpa using List.find?_eq_none.1 hx _ hm)

/-- If the watchdog looks while a step has taken longer than the soft timeout and not longer than the hard timeout, the warning handler is called exactly
once for this step. -/
theorem watchdog_warning_partial {T : Int} (hc : Clock (a ++ .load :: .look T :: b)) (hp : Prompt (a ++ .load :: .look T :: b)) {l : List (Int × Option Int)}
    {s : Int} (hs : spans a = l ++ [(s, none)]) (hf : Fresh c l.length (run c (a ++ .load :: .look T :: b)).2) (hd : c.warn < millis s T)
    (hd' : millis s T ≤ c.error) : (warns l.length (run c (a ++ .load :: .look T :: b)).2).length = 1 := by
  have hm := mem_looks.2 (sees (c := c) hc hp hs)
  rw [(watchdog_exact_partial hc hf).1]
  cases hx : (looks l.length (run c (a ++ .load :: .look T :: b)).2).find? fun d => decide (c.warn < d ∧ d ≤ c.error) with
  | some d => rfl
  | none =>
    have := List.find?_eq_none.1 hx _ hm
    simp only [decide_eq_true_eq] at this
    exact absurd ⟨hd, hd'⟩ this

/-- A step that ends in time is never reported, as long as the watchdog reads the clock at once after it has loaded the start time. -/
theorem watchdog_in_time_partial (hc : Clock h) (hp : Prompt h) {s e : Int} (hs : (spans h)[k]? = some (s, some e)) :
    (0 ≤ c.warn → e - s < (c.warn + 1) * 1000000 → warns k (run c h).2 = []) ∧
    (0 ≤ c.error → e - s < (c.error + 1) * 1000000 → errors k (run c h).2 = []) := by
  have sn := (run_seen c h hc hp).2.2
  constructor
  · intro h0 ht
    apply Classical.byContradiction
    intro hn
    obtain ⟨d, hd⟩ := List.exists_mem_of_ne_nil _ hn
    obtain ⟨h1, h2, _⟩ := (reported c h).1 k d (mem_warns.1 hd)
    have := millis_lt h0 (Int.lt_of_lt_of_le h2 (sn k d (mem_looks.2 h1) s e hs))
    omega
  · intro h0 ht
    apply Classical.byContradiction
    intro hn
    obtain ⟨d, hd⟩ := List.exists_mem_of_ne_nil _ hn
    obtain ⟨h1, h2⟩ := (reported c h).2 k d (mem_errors.1 hd)
    have := millis_lt h0 (Int.lt_of_lt_of_le h2 (sn k d (mem_looks.2 h1) s e hs))
    omega

/-- Timeouts are positive; without a configuration they are as long as possible. -/
theorem watchdog_configure (soft hard : Option Int) :
    ((∃ t, (soft = some t ∨ hard = some t) ∧ t ≤ 0) → configure soft hard = none) ∧
    ((∀ t, soft = some t ∨ hard = some t → 0 < t) → configure soft hard = some ⟨soft.getD (2 ^ 63 - 1), hard.getD (2 ^ 63 - 1)⟩) := by
  unfold configure defaultTimeout
  have : ((soft.any (· ≤ 0) || hard.any (· ≤ 0)) = true) ↔ ∃ t, (soft = some t ∨ hard = some t) ∧ t ≤ 0 := by
    cases soft <;> cases hard <;> simp [or_and_right, exists_or]
  refine ⟨fun hh => by rw [if_pos (this.2 hh)], fun hh => ?_⟩
  rw [if_neg fun h => ?_]
  obtain ⟨t, h1, h2⟩ := this.1 h
  have := hh t h1
  omega

/-! ## What the code does not do -/

def ms (n : Int) : Int := n * 1000000

/-- A step of a millisecond is reported as a timeout: the watchdog has loaded the start time and reads the clock much later. -/
theorem watchdog_late_clock : Clock [.start 0, .load, .reset (ms 1), .look (ms 1000)] ∧ spans [.start 0, .load, .reset (ms 1), .look (ms 1000)] = [(0, some (ms 1))] ∧
    (run ⟨10, 50⟩ [.start 0, .load, .reset (ms 1), .look (ms 1000)]).2 = [.looked 0 1000, .error 0 1000] := by
  unfold Clock; decide +kernel

/-- Two steps take longer than both timeouts. The watchdog sees both of them and nothing in between: the second one is not reported. -/
theorem watchdog_second_step_unreported : ∃ h, Clock h ∧ Prompt h ∧ spans h = [(0, some (ms 100)), (ms 100, some (ms 200))] ∧
    (run ⟨10, 50⟩ h).2 = [.looked 0 60, .error 0 60, .looked 1 60] :=
  ⟨[.start 0, .load, .look (ms 60), .reset (ms 100), .start (ms 100), .load, .look (ms 160), .reset (ms 200)], by unfold Clock Prompt; decide +kernel⟩

/-- In the same way for the warning. -/
theorem watchdog_second_warning_unreported : ∃ h, Clock h ∧ Prompt h ∧ spans h = [(0, some (ms 40)), (ms 40, some (ms 80))] ∧
    (run ⟨10, 50⟩ h).2 = [.looked 0 30, .warn 0 30, .looked 1 30] :=
  ⟨[.start 0, .load, .look (ms 30), .reset (ms 40), .start (ms 40), .load, .look (ms 70), .reset (ms 80)], by unfold Clock Prompt; decide +kernel⟩

/-- The timeout handler is called and the warning handler is not. -/
theorem watchdog_no_warning_before_timeout : ∃ h, Clock h ∧ Prompt h ∧ spans h = [(0, some (ms 100))] ∧ (run ⟨10, 50⟩ h).2 = [.idle, .looked 0 60, .error 0 60] :=
  ⟨[.load, .look 0, .start 0, .load, .look (ms 60), .reset (ms 100)], by unfold Clock Prompt; decide +kernel⟩

/-- A step takes longer than both timeouts, but the watchdog does not look. -/
theorem watchdog_unseen : ∃ h, Clock h ∧ Prompt h ∧ spans h = [(0, some (ms 100))] ∧ (run ⟨1, 2⟩ h).2 = [.looked 0 1, .idle] :=
  ⟨[.start 0, .load, .look (ms 1), .reset (ms 100), .load, .look (ms 101)], by unfold Clock Prompt; decide +kernel⟩

/-! ## The hypotheses are met -/

def dogRun : List In := [.load, .look 0, .start (ms 1), .load, .look (ms 5), .load, .look (ms 31), .load, .look (ms 41), .load, .look (ms 61), .load, .look (ms 71),
  .reset (ms 80), .start (ms 81), .load, .look (ms 85), .reset (ms 86)]

example : Clock dogRun ∧ Prompt dogRun ∧ Fresh ⟨10, 50⟩ 0 (run ⟨10, 50⟩ dogRun).2 ∧ Fresh ⟨10, 50⟩ 1 (run ⟨10, 50⟩ dogRun).2 := by
  unfold Clock Prompt Fresh; decide +kernel

example : (run ⟨10, 50⟩ dogRun).2 = [.idle, .looked 0 4, .looked 0 30, .warn 0 30, .looked 0 40, .looked 0 60, .error 0 60, .looked 0 70, .looked 1 4] := by
  decide +kernel

example : spans dogRun = [(ms 1, some (ms 80)), (ms 81, some (ms 86))] := by decide +kernel

/-- `watchdog_timeout_partial` for the look at 61 ms. -/
example : ∃ a b, dogRun = a ++ .load :: .look (ms 61) :: b ∧ spans a = [] ++ [(ms 1, none)] ∧ 50 < millis (ms 1) (ms 61) :=
  ⟨[.load, .look 0, .start (ms 1), .load, .look (ms 5), .load, .look (ms 31), .load, .look (ms 41)], _, rfl, by decide +kernel, by decide +kernel⟩

example : ∃ a b, dogRun = a ++ .load :: .look (ms 31) :: b ∧ spans a = [] ++ [(ms 1, none)] ∧ 10 < millis (ms 1) (ms 31) ∧ millis (ms 1) (ms 31) ≤ 50 :=
  ⟨[.load, .look 0, .start (ms 1), .load, .look (ms 5)], _, rfl, by decide +kernel, by decide +kernel, by decide +kernel⟩

example : configure (some 10) none = some ⟨10, 2 ^ 63 - 1⟩ ∧ configure (some 10) (some 0) = none := by decide +kernel

end SilKit.Props
