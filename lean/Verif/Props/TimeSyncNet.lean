import Verif.Lemmas.TimeSyncNet
/-!
# C13, C15: conservative synchronization of virtual time between participants

`Reachable n tr` ranges over every schedule of every set of participants: steps of any (also changing) positive duration,
blocking and asynchronous handlers, pausing, stopping, joining, leaving, wall clock coupling, arbitrary delays of messages.
-/
namespace SilKit.Props
open TimeSync TimeSync.Spec

/-- **C13** (partial). When a participant starts a step at time `t`, no participant it synchronizes with is in the middle of
a step that started earlier than `t`, and none will ever start a step before `t`.

What is missing: the first step of a participant that joins a running simulation (its first step is not at time 0); for it
the claim is false, see `C13_hop_on_overtakes`. The assumption that asynchronous steps are not interrupted by `Continue`
(part of `Disciplined`) is necessary, see `C13_continue_during_async_step`. -/
theorem C13_no_participant_overtakes_partial {n n1 : Net} {tr obs : List Obs} {a : Act} {p q : String} {t : Int}
    (hr : Reachable n tr) (hd : Disciplined n a) (ha : n.act a = some (n1, obs))
    (hs : Starts p t obs) (hfirst : t = 0 ∨ ∃ t0, Starts p t0 tr) (hk : knows p q (tr ++ obs) = true) :
    (∀ t', inStep q (tr ++ obs) = some t' → t ≤ t') ∧
    ∀ n2 n3 a' obs' t', Later n1 n2 → Disciplined n2 a' → n2.act a' = some (n3, obs') → Starts q t' obs' → t ≤ t' := by
  have hi := act_inv (reachable_inv hr) hd ha
  obtain ⟨v, hv⟩ := (reachable_knows (Reachable.step hr hd ha) p q).mp hk
  have h1 : t ≤ v.tp := (hi.starts p t hs).2.2 (by
    rcases hfirst with h | ⟨t0, h⟩
    · exact Or.inr h
    · exact Or.inl (reachable_hop hr p t0 h)) _ hv
  have h2 := hi.inv.views p q v hv
  refine ⟨?_, ?_⟩
  · intro t' hin
    obtain ⟨hb, rfl, hc⟩ := reachable_inStep (Reachable.step hr hd ha) q t' hin
    have : (n1.part q).bound = (n1.part q).cfg.current.tp := by unfold Part.bound; rw [if_pos ⟨hb, hc⟩]
    omega
  · intro n2 n3 a' obs' t' hl hd' ha' hs'
    have hl := later_mono hl hi.inv
    have hi' := act_inv hl.1 hd' ha'
    have h3 := hl.2 q
    have h4 := (hi'.starts q t' hs').1
    omega

/-- **C15**: User data arrives in the order sent, without loss or duplication, and when a participant starts a step at time
`t` everything still on its way to it was sent in a step that starts at `t` or later: the data of all earlier steps has been
received. (Same restriction to non-joining steps as C13.) -/
theorem C15_data_of_earlier_steps_is_received_partial {n n1 : Net} {tr obs : List Obs} {a : Act} {p q : String} {t : Int}
    (hr : Reachable n tr) (hd : Disciplined n a) (ha : n.act a = some (n1, obs))
    (hs : Starts p t obs) (hfirst : t = 0 ∨ ∃ t0, Starts p t0 tr) (hk : knows p q (tr ++ obs) = true) (hqp : q ≠ p) :
    ∃ onTheWay, sentBy q (tr ++ obs) = receivedBy q p (tr ++ obs) ++ onTheWay ∧ ∀ d ∈ onTheWay, t ≤ d.2 := by
  have hi := act_inv (reachable_inv hr) hd ha
  refine ⟨_, reachable_data (Reachable.step hr hd ha) q p hqp, ?_⟩
  intro d hd'
  obtain ⟨pre, post, hc⟩ := inFlight_mem (x := d.1) (t := d.2) hd'
  obtain ⟨v, hv⟩ := (reachable_knows (Reachable.step hr hd ha) p q).mp hk
  have h1 : t ≤ v.tp := (hi.starts p t hs).2.2 (by
    rcases hfirst with h | ⟨t0, h⟩
    · exact Or.inr h
    · exact Or.inl (reachable_hop hr p t0 h)) _ hv
  have := (hi.inv.data q p pre d.1 d.2 post hc).2.2 v hv
  omega

/-! ## Concrete simulations -/

/-- Blocking autonomous participants. -/
def blockingNet : Net := { part := fun _ => start true false false }

theorem blockingNet_initial : Initial blockingNet := ⟨fun _ => ⟨true, false, false, rfl⟩, fun _ _ => rfl⟩

/-- Decidable form of `Disciplined`. -/
def disciplined (n : Net) : Act → Bool
  | .event _ (.setStepDuration d) => decide (0 < d)
  | .event p .request => !(n.part p).asyncExecuting
  | _ => true

theorem disciplined_iff {n : Net} {a : Act} (h : disciplined n a = true) : Disciplined n a := by
  cases a with
  | event p e => cases e <;> simp_all [disciplined, Disciplined]
  | deliver => trivial
  | data => trivial

/-- All actions of a run are disciplined. -/
def runDisciplined (n : Net) : List Act → Bool
  | [] => true
  | a :: l => disciplined n a && (match n.act a with | some r => runDisciplined r.1 l | none => false)

theorem run_reachable {n : Net} {tr} (hr : Reachable n tr) (l : List Act) {n' obs} (h : run n l = some (n', obs))
    (hd : runDisciplined n l = true) : Reachable n' (tr ++ obs) := by
  induction l generalizing n tr obs with
  | nil => simp only [run, Option.some.injEq, Prod.mk.injEq] at h; obtain ⟨rfl, rfl⟩ := h; simpa using hr
  | cons a l ih =>
    simp only [run, Option.bind_eq_some_iff, Option.map_eq_some_iff] at h
    obtain ⟨⟨n1, o1⟩, ha, ⟨n2, o2⟩, h2, h3⟩ := h
    simp only [Prod.mk.injEq] at h3
    obtain ⟨rfl, rfl⟩ := h3
    simp only [runDisciplined, ha, Bool.and_eq_true] at hd
    rw [← List.append_assoc]
    exact ih (Reachable.step hr (disciplined_iff hd.1) ha) h2 hd.2

/-- `p` enters `Running` and starts its time. -/
def go (p : String) : List Act := [.event p (.lifecycle .running false false), .event p .request]

/-- Two participants with steps of 1 and 2 ms that know each other have both executed step 0; the first one sends data in its
step 0 and both announce their next step. -/
def twoActs : List Act :=
  [.event "A" (.setStepDuration 1), .event "B" (.setStepDuration 2), .event "A" (.discovered "B"), .event "B" (.discovered "A")]
  ++ go "A" ++ go "B" ++
  [.deliver "A" "B", .deliver "B" "A", .data "A" 42, .event "B" .stepReturned, .event "A" .stepReturned, .deliver "B" "A",
   .event "A" .stepReturned, .deliver "A" "B", .deliver "A" "B"]

/-- A run followed by one more action, with a property that can be computed. -/
theorem witness {n0 : Net} (hi : Initial n0) (l : List Act) (a : Act) (c : Net → List Obs → Net → List Obs → Bool)
    (h : (match run n0 l with
      | some (n, tr) => runDisciplined n0 l && disciplined n a && (match n.act a with | some (n1, obs) => c n tr n1 obs | none => false)
      | none => false) = true) :
    ∃ n tr n1 obs, Reachable n tr ∧ Disciplined n a ∧ n.act a = some (n1, obs) ∧ c n tr n1 obs = true := by
  split at h
  · next n tr hr =>
    simp only [Bool.and_eq_true] at h
    obtain ⟨⟨h1, h2⟩, h3⟩ := h
    split at h3
    · next n1 obs ha =>
      exact ⟨n, tr, n1, obs, by simpa using run_reachable (Reachable.init hi) l hr h1, disciplined_iff h2, ha, h3⟩
    · cases h3
  · cases h

/-- The hypotheses of C13 and C15 are met: `B` starts its second step, at time 2, and has received what `A` sent at time 0. -/
example : ∃ n tr a n1 obs, Reachable n tr ∧ Disciplined n a ∧ n.act a = some (n1, obs) ∧ Starts "B" 2 obs ∧
    (∃ t0, Starts "B" t0 tr) ∧ knows "B" "A" (tr ++ obs) = true ∧ sentBy "A" (tr ++ obs) = [(42, 0)] ∧ receivedBy "A" "B" (tr ++ obs) = [(42, 0)] := by
  obtain ⟨n, tr, n1, obs, h1, h2, h3, h4⟩ := witness blockingNet_initial twoActs (.deliver "A" "B")
    (fun _ tr _ obs => decide (Obs.out "B" (.step 2 2) ∈ obs) && decide (Obs.out "B" (.step 0 2) ∈ tr) &&
      decide (knows "B" "A" (tr ++ obs) = true) && decide (sentBy "A" (tr ++ obs) = [(42, 0)]) &&
      decide (receivedBy "A" "B" (tr ++ obs) = [(42, 0)])) (by decide +kernel)
  simp only [Bool.and_eq_true, decide_eq_true_eq] at h4
  exact ⟨n, tr, _, n1, obs, h1, h2, h3, ⟨2, h4.1.1.1.1⟩, ⟨0, ⟨2, h4.1.1.1.2⟩⟩, h4.1.1.2, h4.1.2, h4.2⟩

/-! ## Where the full claims fail -/

/-- `K` (step duration 2) and `L` (step duration 1) run; `L` has executed its step at time 2 before `K` did, then `J` joins. -/
def hopOnActs : List Act :=
  [.event "K" (.setStepDuration 2), .event "L" (.setStepDuration 1), .event "K" (.discovered "L"), .event "L" (.discovered "K")]
  ++ go "K" ++ go "L" ++
  [.deliver "K" "L", .deliver "L" "K", .event "K" .stepReturned, .event "L" .stepReturned, .deliver "K" "L",
   .event "L" .stepReturned, .event "L" .poll, .event "L" .stepReturned,
   -- J joins; what K and L announced before is ignored
   .deliver "K" "J", .deliver "K" "J", .deliver "L" "J", .deliver "L" "J", .deliver "L" "J", .deliver "L" "J",
   .event "J" (.discovered "K"), .event "J" (.discovered "L"), .event "K" (.discovered "J"), .event "L" (.discovered "J")]
  ++ go "J" ++ [.deliver "K" "J"]

theorem run_later {n : Net} (l : List Act) {n' obs} (h : run n l = some (n', obs)) (hd : runDisciplined n l = true)
    {n0 : Net} (h0 : Later n0 n) : Later n0 n' := by
  induction l generalizing n obs with
  | nil => simp only [run, Option.some.injEq, Prod.mk.injEq] at h; obtain ⟨rfl, rfl⟩ := h; exact h0
  | cons a l ih =>
    simp only [run, Option.bind_eq_some_iff, Option.map_eq_some_iff] at h
    obtain ⟨⟨n1, o1⟩, ha, ⟨n2, o2⟩, h2, h3⟩ := h
    simp only [Prod.mk.injEq] at h3
    obtain ⟨rfl, rfl⟩ := h3
    simp only [runDisciplined, ha, Bool.and_eq_true] at hd
    exact ih h2 hd.2 (Later.step h0 (disciplined_iff hd.1) ha)

/-- **C13 fails for joining participants.** `J` joins, starts its first step at time 3, and `K`, which `J` knows, starts its
step at time 2 afterwards. (`IsHopOn` only looks at participants that announced a time point larger than their duration, and
the condition that nobody has a lower time point is not checked again after the hop.) -/
theorem C13_hop_on_overtakes : ∃ n tr a n1 obs n2 a' n3 obs', Reachable n tr ∧ Disciplined n a ∧ n.act a = some (n1, obs) ∧
    Starts "J" 3 obs ∧ knows "J" "K" (tr ++ obs) = true ∧
    Later n1 n2 ∧ Disciplined n2 a' ∧ n2.act a' = some (n3, obs') ∧ Starts "K" 2 obs' := by
  let l2 : List Act := [.event "J" .stepReturned, .deliver "L" "K", .deliver "L" "K", .deliver "J" "K"]
  obtain ⟨n, tr, n1, obs, h1, h2, h3, h4⟩ := witness blockingNet_initial hopOnActs (.deliver "L" "J")
    (fun _ tr n1 obs => decide (Obs.out "J" (.step 3 1000000) ∈ obs) && decide (knows "J" "K" (tr ++ obs) = true) &&
      (match run n1 l2 with
        | some (n2, _) => runDisciplined n1 l2 && (match n2.act (.deliver "J" "K") with
          | some (_, obs') => decide (Obs.out "K" (.step 2 2) ∈ obs')
          | none => false)
        | none => false)) (by decide +kernel)
  simp only [Bool.and_eq_true, decide_eq_true_eq] at h4
  obtain ⟨⟨h4, h5⟩, h6⟩ := h4
  split at h6
  · next n2 o2 hrun =>
    simp only [Bool.and_eq_true] at h6
    obtain ⟨h6, h7⟩ := h6
    split at h7
    · next n3 obs' ha =>
      exact ⟨n, tr, _, n1, obs, n2, .deliver "J" "K", n3, obs', h1, h2, h3, ⟨_, h4⟩, h5, run_later l2 hrun h6 Later.refl, trivial, ha,
        ⟨_, by simpa using h7⟩⟩
    · cases h7
  · cases h6

/-- Participants with asynchronous steps. -/
def asyncNet : Net := { part := fun _ => start false false false }

/-- `Q` pauses and continues during its asynchronous step at time 0. -/
def continueActs : List Act :=
  [.event "P" (.setStepDuration 1), .event "Q" (.setStepDuration 1), .event "P" (.discovered "Q"), .event "Q" (.discovered "P")]
  ++ go "P" ++ go "Q" ++
  [.deliver "P" "Q", .deliver "Q" "P", .event "P" .complete, .event "Q" (.lifecycle .paused false false),
   .event "Q" (.lifecycle .running false false), .event "Q" .request, .deliver "Q" "P"]

/-- **C13 needs the discipline.** `Continue` during an asynchronous step that is not yet completed announces the next step: `P`
starts its step at time 1 while `Q` is still in its step at time 0. -/
theorem C13_continue_during_async_step : ∃ n tr, run asyncNet continueActs = some (n, tr) ∧ knows "P" "Q" tr = true ∧
    Starts "P" 1 tr ∧ inStep "Q" tr = some 0 := by
  have h : (match run asyncNet continueActs with
    | some (n, tr) => decide (knows "P" "Q" tr = true) && decide (Obs.out "P" (.step 1 1) ∈ tr) &&
        decide (inStep "Q" tr = some 0)
    | none => false) = true := by decide +kernel
  split at h
  · next n tr hr =>
    simp only [Bool.and_eq_true, decide_eq_true_eq] at h
    exact ⟨n, tr, hr, h.1.1, ⟨_, h.1.2⟩, h.2⟩
  · cases h

end SilKit.Props
