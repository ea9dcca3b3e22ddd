import Verif.Lemmas.DynamicStep
/-!
# Who uses dynamic simulation steps (C80)

`run own ops` is what the participant `own` does in the schedule `ops` of its two threads: its state, and the trace of calls and effects. `enabled` is whether its steps
are shortened (what that means for the steps is C16). `calls` are the calls that have happened, `Documented` the rule of the documentation.
-/
namespace SilKit.Props
open SilKit.DynamicStep SilKit.DynamicStep.Spec

/-- If calls do not overlap, dynamic stepping is on exactly when the documentation says so, whenever no call is in progress: for all settings and all histories of
discoveries.

Missing: calls that overlap, see `C80_counterexample_opt_out_is_lost` and `C80_counterexample_driver_is_lost`. -/
theorem C80_dynamic_stepping_is_as_documented_partial (own : String) (ops : List Op) (ha : OneAtATime own ops) (hq : Quiet (run own ops).1) :
    Documented own (calls (run own ops).2) (run own ops).1.enabled := by
  rw [((serial_run own ops ha).quiet hq).1]
  exact (known_run own ops).shall

/-- The hypotheses: B requests, the own setting is made, C is seen, B leaves, on both threads. -/
private def dsOps : List Op := whole true (.seen "B" true) ++ whole false (.configure none) ++ whole true (.seen "C" false) ++ whole true (.seen "D" true) ++ whole true (.gone "B")

private theorem one_of_check {own : String} {ops : List Op}
    (h : (List.range (ops.length + 1)).all (fun i => decide ((run own (ops.take i)).1.pc true = .idle ∨ (run own (ops.take i)).1.pc false = .idle)) = true) : OneAtATime own ops := by
  intro a b e t t' h1 h2
  have : a = ops.take a.length := by rw [e]; simp
  have h3 := List.all_eq_true.1 h a.length (by rw [e]; simp; omega)
  rw [decide_eq_true_eq, ← this] at h3
  cases t <;> cases t'
  · rfl
  · rcases h3 with h3 | h3 <;> contradiction
  · rcases h3 with h3 | h3 <;> contradiction
  · rfl

example : OneAtATime "A" dsOps ∧ Quiet (run "A" dsOps).1 ∧ (run "A" dsOps).1.enabled = true ∧ (run "A" (dsOps ++ whole true (.gone "D"))).1.enabled = false ∧
    OneAtATime "A" (dsOps ++ whole true (.gone "D")) ∧
    calls (run "A" dsOps).2 = [.seen "B" true, .configure none, .seen "C" false, .seen "D" true, .gone "B"] :=
  ⟨one_of_check (by decide +kernel), (by unfold Quiet; decide +kernel), by decide +kernel, by decide +kernel, one_of_check (by decide +kernel), by decide +kernel⟩

/-- The documented rule determines the flag: it is not met by both values. -/
theorem C80_rule_is_definite {own : String} {cs : List Call} {x y : Bool} (hx : Documented own cs x) (hy : Documented own cs y) : x = y := by
  obtain ⟨c, hc⟩ := setting_exists cs
  rcases c with _ | _ | _
  · have := (hx.2.2 hc).trans (hy.2.2 hc).symm
    cases x <;> cases y <;> simp_all
  · rw [hx.2.1 hc, hy.2.1 hc]
  · rw [hx.1 hc, hy.1 hc]

/-- Whatever has happened before, in whatever interleaving: a further call that is not overlapped puts things right. -/
theorem C80_next_call_repairs (own : String) (ops : List Op) (hq : Quiet (run own ops).1) (t : Bool) {c : Call} (hs : c ≠ .start) (ho : ∀ d, c ≠ .seen own d) (hg : c ≠ .gone own) :
    Documented own (calls (run own (ops ++ whole t c)).2) (run own (ops ++ whole t c)).1.enabled := by
  have hc : (begin own (run own ops).1 t c).1.pc t = .entered := by
    cases c with
    | configure c => simp [begin, State.at]
    | start => exact absurd rfl hs
    | seen q d =>
      have hn : q ≠ own := fun e => ho d (by rw [e])
      simp [begin, State.at, hn]
    | gone q =>
      have hn : q ≠ own := fun e => hg (by rw [e])
      simp [begin, State.at, hn]
  rw [(run_whole own ops hq t c hc).1]
  exact (known_run own _).shall

/-- The hypotheses, in the state of `C80_counterexample_opt_out_is_lost`. -/
private def dsRace (setting : Option Bool) (request : Bool) : List Op :=
  [.call true (.seen "B" request), .compute true] ++ whole false (.configure setting) ++ [.store true, .notify true]

example : Quiet (run "A" (dsRace (some false) true)).1 ∧ (run "A" (dsRace (some false) true)).1.enabled = true ∧
    (run "A" (dsRace (some false) true ++ whole true (.seen "C" false))).1.enabled = false := ⟨by unfold Quiet; decide +kernel, by decide +kernel, by decide +kernel⟩

/-- `true` and `false` are kept for good if the setting is made while nothing else is going on: whatever happens afterwards, in whatever interleaving, and at every moment. -/
theorem C80_setting_is_kept (own : String) (before after : List Op) (hq : Quiet (run own before).1) (t : Bool) (b : Bool) (hn : ∀ t c, Op.call t (.configure c) ∉ after) :
    (run own (before ++ whole t (.configure (some b)) ++ after)).1.enabled = b := by
  have hc : (begin own (run own before).1 t (.configure (some b))).1.pc t = .entered := by simp [begin, State.at]
  obtain ⟨h1, h2, h3⟩ := run_whole own before hq t _ hc
  have hfix : Fixed b (run own (before ++ whole t (.configure (some b)))).1 := by
    refine ⟨h2, by rw [h1, fixed_shall h2], fun t' e r h => ?_⟩
    rw [h3 t'] at h
    cases h
  exact (run_append own _ after (Fixed b) hfix fun s op hop h => fixed_step h op fun t c e => hn t c (e ▸ hop)).enabled

/-- … which is so with a schedule of overlapping calls afterwards. -/
example : Quiet (run "A" []).1 ∧ (∀ t c, Op.call t (.configure c) ∉ [Op.call true (.seen "B" true), .call false (.gone "B"), .compute true, .compute false, .store false, .store true]) := by
  unfold Quiet
  exact ⟨by decide +kernel, by simp⟩

/-- What a participant publishes when its lifecycle starts: that it requests dynamic steps if and only if its setting is `true`, in every schedule. -/
theorem C80_request_is_advertised (own : String) (ops : List Op) {a b : List Out} {x : Bool} (h : (run own ops).2 = a ++ .advertised x :: b) :
    x = true ↔ Setting (calls a) (some true) := by
  obtain ⟨c, hc, hx⟩ := advertised_run own ops a b x h
  rw [hx, beq_iff_eq]
  constructor
  · rintro rfl; exact hc
  · intro h'; exact setting_unique _ _ _ hc h'

example : (run "A" (whole false (.configure (some true)) ++ [.call false .start])).2 = [.called (.configure (some true)), .called .start] ++ .advertised true :: [] := by decide +kernel

/-- The message that dynamic stepping was enabled by another participant is logged at most once, in every schedule; and if calls do not overlap, it has been logged when dynamic
stepping is on without an own setting. -/
theorem C80_remote_request_is_logged_once (own : String) (ops : List Op) :
    ((run own ops).2.filter (· = .info)).length ≤ 1 ∧
    (OneAtATime own ops → Quiet (run own ops).1 → Setting (calls (run own ops).2) none → (run own ops).1.enabled = true → .info ∈ (run own ops).2) := by
  refine ⟨by rw [info_run]; cases (run own ops).1.told <;> decide, fun ha hq hs he => ?_⟩
  obtain ⟨h1, h2⟩ := (serial_run own ops ha).quiet hq
  have hc := setting_unique _ _ _ (known_run own ops).setting hs
  have hr : (run own ops).1.byRemote = true := by
    rw [he] at h1
    simpa [State.shallBeEnabled, hc] using h1.symm
  have hl := info_run own ops
  rw [h2 hr] at hl
  have : (run own ops).2.filter (· = .info) ≠ [] := fun e => by rw [e] at hl; cases hl
  obtain ⟨o, ho⟩ := List.exists_mem_of_ne_nil _ this
  have := List.mem_filter.1 ho
  simp only [decide_eq_true_eq] at this
  rw [← this.2]
  exact this.1

example : (run "A" dsOps).2.filter (· = .info) = [.info] := by decide +kernel

/-- It is logged only if, at some time before, there was no own setting and another participant requested dynamic steps: in every schedule. -/
theorem C80_remote_request_is_logged_with_cause (own : String) (ops : List Op) {a b : List Out} (h : (run own ops).2 = a ++ .info :: b) : WasRequested own (calls a) :=
  (caused_run own ops).info a b h

example : (run "A" (whole true (.seen "B" true))).2 = [.called (.seen "B" true)] ++ .info :: [] := by decide +kernel

/-! ## Counterexamples: what the code does instead -/

/-- The setting is `false`, which is documented as "never enable dynamic stepping, even if a peer requests it". While it is being made, a participant that requests dynamic steps
is discovered: the value computed before is stored last, and dynamic stepping stays on. -/
theorem C80_counterexample_opt_out_is_lost :
    let r := run "A" (dsRace (some false) true)
    Quiet r.1 ∧ Setting (calls r.2) (some false) ∧ r.1.enabled = true :=
  ⟨by unfold Quiet; decide +kernel, .inr ⟨[.seen "B" true], [], by decide +kernel, by simp⟩, by decide +kernel⟩

/-- In the same way, the participant that drives dynamic stepping does not step dynamically itself, although it tells the others to. -/
theorem C80_counterexample_driver_is_lost :
    let r := run "A" (dsRace (some true) false ++ [.call false .start])
    Quiet r.1 ∧ Setting (calls r.2) (some true) ∧ .advertised true ∈ r.2 ∧ r.1.enabled = false :=
  ⟨by unfold Quiet; decide +kernel, .inr ⟨[.seen "B" false], [.start], by decide +kernel, by simp⟩, by decide +kernel, by decide +kernel⟩

end SilKit.Props
