import Verif.Lemmas.TimeSyncChanging
import Verif.Props.TimeSyncLive
/-!
# C14: the time synchronization makes progress although participants join, pause, continue and leave

`Changing ps held n tr` ranges over every history in which any number of participants join, start their time, pause, continue and
leave at any moment, discover each other in any order and after any delay, with every schedule, blocking and asynchronous handlers
and changing durations. Whenever nobody holds the others back (`held` contains none of `ps`), progress is possible; and once
everybody has noticed who takes part, virtual time grows as in a simulation without changes.
-/
namespace SilKit.Props
open TimeSync TimeSync.Spec

/-- **C14 (no deadlock, whatever has happened before).** If somebody takes part and nobody is held, something can happen without
any further action of the users: a step is finished, deferred work is done, a message arrives, or somebody notices that somebody
else has joined or left. -/
theorem C14_no_deadlock {ps held : List String} {n : Net} {tr : List Obs} (h : Changing ps held n tr) (hne : ps ≠ [])
    (hh : ∀ p ∈ ps, p ∉ held) : ∃ a, May ps held n a ∧ (n.act a).isSome ∧ Pending ps n a :=
  changing_no_deadlock (changing_inv h) hh hne

/-- **C14 (when everything has been delivered, somebody can execute its next step).** If somebody takes part, nobody is held,
everybody has noticed who takes part, no message is in flight and no step is being executed, the deferred work of some participant
starts its next step – unless that participant, being coordinated, aborts because it has joined too late. -/
theorem C14_quiet_means_somebody_steps {ps held : List String} {n : Net} {tr : List Obs} (h : Changing ps held n tr) (hne : ps ≠ [])
    (hh : ∀ p ∈ ps, p ∉ held) (hs : Settled ps n) (hchan : ∀ q ∈ ps, ∀ p ∈ ps, n.chan q p = [])
    (hidle : ∀ p ∈ ps, (n.part p).busy = false) :
    ∃ p ∈ ps, ∃ n' obs, n.act (.event p .poll) = some (n', obs) ∧
      ((∃ t d, .out p (.step t d) ∈ obs) ∨ (.out p .abort ∈ obs ∧ ¬ Engaged ps n)) := by
  have hi := changing_inv h
  obtain ⟨p, hp, n', obs, ha, hr⟩ := quiet_steps (live_of_settled hi hh hs) hne (fun p hp => (hi.started p hp (hh p hp)).2) hchan hidle
  refine ⟨p, hp, n', obs, ha, hr.imp_right (fun hx => ⟨hx, fun he => ?_⟩)⟩
  exact (act_engaged (held := held) hi.net he (show MayCore ps held n (.event p .poll) from hp) ha).2 p hx

/-- **C14 (virtual time grows without bound).** Once nobody is held and everybody has noticed who takes part, for every time `T` (of
the 64 bit range) there is a bound on the pieces of synchronization work after which every participant has executed a step that ends
at `T` or later. -/
theorem C14_time_grows {ps held : List String} {n : Net} {tr : List Obs} (h : Changing ps held n tr) (hh : ∀ p ∈ ps, p ∉ held)
    (hs : Settled ps n) (T : Int) (h0 : 0 < T) (hT : T ≤ maxNs) :
    ∃ N, ∀ k n' obs, Continues ps n k n' obs → N ≤ k → ∀ p ∈ ps, ∃ t d, .out p (.step t d) ∈ tr ++ obs ∧ T ≤ t + d :=
  time_grows (live_of_settled (changing_inv h) hh hs) T h0 hT

/-- **C14 (nobody gives up).** When everybody who has not begun its first step is autonomous, no action makes anybody abort the
simulation, and this remains so. -/
theorem C14_engaged_never_aborts {ps held : List String} {n : Net} {tr : List Obs} (h : Changing ps held n tr) (he : Engaged ps n)
    {a : Act} {n' : Net} {obs : List Obs} (hm : May ps held n a) (ha : n.act a = some (n', obs)) :
    (∀ p, .out p .abort ∉ obs) ∧ Engaged ps n' ∧ Changing ps held n' (tr ++ obs) := by
  have := act_engaged (changing_inv h).net he (may_core hm) ha
  exact ⟨this.2, this.1, Changing.step h hm ha this.2⟩

/-- **C14.** Together: once nobody is held, everybody has noticed who takes part, and nobody who could abort has yet to begin its
first step, the synchronization can go on for ever and reaches every time of the 64 bit range in every participant, whatever the
schedule. -/
theorem C14_synchronization_goes_on_forever {ps held : List String} {n : Net} {tr : List Obs} (h : Changing ps held n tr) (hne : ps ≠ [])
    (hh : ∀ p ∈ ps, p ∉ held) (hs : Settled ps n) (he : Engaged ps n) (T : Int) (h0 : 0 < T) (hT : T ≤ maxNs) :
    (∀ k, ∃ n' obs, Continues ps n k n' obs) ∧
    ∃ N, ∀ k n' obs, Continues ps n k n' obs → N ≤ k → ∀ p ∈ ps, ∃ t d, .out p (.step t d) ∈ tr ++ obs ∧ T ≤ t + d := by
  have hi := changing_inv h
  refine ⟨fun k => ?_, C14_time_grows h hh hs T h0 hT⟩
  obtain ⟨n', obs, h1, _⟩ := work_forever engaged_calm hne (live_of_settled hi hh hs) ⟨he, hi.loop, hs⟩
    (fun p hp => (hi.started p hp (hh p hp)).2) k
  exact ⟨n', obs, h1⟩

/-! ## A concrete history -/

/-- Decidable form of `Knows`. -/
def knows (n : Net) (p q : String) : Bool := (n.part p).cfg.others.any (fun e => e.1 == q)

theorem knows_iff {n p q} : knows n p q = true ↔ Knows n p q := by
  simp only [knows, List.any_eq_true, beq_iff_eq, Knows]
  constructor
  · rintro ⟨⟨k, t⟩, hm, rfl⟩; exact ⟨t, hm⟩
  · rintro ⟨t, hm⟩; exact ⟨_, hm, rfl⟩

/-- Sufficient, decidable form of `May`. -/
def may (ps held : List String) (n : Net) : Act → Bool
  | .event p (.setStepDuration d) => decide (p ∈ ps) && decide (0 < d)
  | .event p .request => decide (p ∈ ps) && decide (p ∉ held) && !(n.part p).asyncExecuting
  | .event p .poll => decide (p ∈ ps)
  | .event p .stepReturned => decide (p ∈ ps)
  | .event p .complete => decide (p ∈ ps) && (n.part p).asyncExecuting
  | .event p (.lifecycle _ _ _) => decide (p ∈ ps) && decide (p ∈ held)
  | .event p (.discovered q) => decide (p ∈ ps) && decide (q ∈ ps) && !knows n p q
  | .event p (.lost q) => decide (p ∈ ps) && decide (q ∉ ps)
  | .deliver x y => decide (y ∈ ps) && (knows n y x || (List.isSublist [y, x] ps && !knows n x y))
  | _ => false

theorem may_iff {ps held n a} (h : may ps held n a = true) : May ps held n a := by
  cases a with
  | event p e =>
    cases e <;> simp_all [may, May, ← knows_iff]
  | deliver x y =>
    simp only [may, Bool.and_eq_true, Bool.or_eq_true, Bool.not_eq_true', decide_eq_true_eq] at h
    refine ⟨h.1, ?_⟩
    rcases h.2 with hk | ⟨hs, hk⟩
    · exact Or.inr (Or.inl (knows_iff.mp hk))
    · exact Or.inr (Or.inr (Or.inr ⟨List.isSublist_iff_sublist.mp hs, Or.inl (fun hx => by rw [knows_iff.mpr hx] at hk; cases hk)⟩))
  | data p x => simp [may] at h

/-- What happens in a history. -/
inductive Cmd where
  | act (a : Act)
  | join (y : String) (blocking coordinated : Bool) (d : Int)
  | hold (p : String)
  | resume (p : String)
  | leave (p : String)

/-- The state of a history: participants, those held, everybody who ever joined, the simulation, the observations. -/
structure Hist where
  ps : List String := []
  held : List String := []
  seen : List String := []
  net : Net := { part := fun _ => start true true false }
  tr : List Obs := []

def Hist.cmd (h : Hist) : Cmd → Option Hist
  | .act a => if may h.ps h.held h.net a then
      (h.net.act a).bind (fun r => if r.2.all (fun o => match o with | .out _ .abort => false | _ => true) then
        some { h with net := r.1, tr := h.tr ++ r.2 } else none)
    else none
  | .join y blocking coordinated d => if y ∉ h.seen ∧ 0 < d then
      some { ps := y :: h.ps, held := y :: h.held, seen := y :: h.seen, tr := h.tr
             net := joined h.net y { cfg := { blocking := blocking, next := ⟨0, d⟩ }, state := .readyToRun, coordinated := coordinated } }
    else none
  | .hold p => if p ∈ h.ps then some { h with held := p :: h.held } else none
  | .resume p => if p ∈ h.ps ∧ (h.net.part p).state = .running ∧ (h.net.part p).stopRequested = false ∧
        (h.net.part p).pauseRequested = false ∧ (h.net.part p).asyncExecuting = false then
      (h.net.act (.event p .request)).map (fun r => { h with held := h.held.filter (· ≠ p), net := r.1, tr := h.tr ++ r.2 })
    else none
  | .leave p => some { h with ps := h.ps.filter (· ≠ p), held := h.held.filter (· ≠ p) }

def Hist.run (h : Hist) : List Cmd → Option Hist
  | [] => some h
  | c :: l => (h.cmd c).bind (fun h => h.run l)

structure Hist.Ok (h : Hist) : Prop where
  changing : Changing h.ps h.held h.net h.tr
  seen : ∀ p ∈ h.ps, p ∈ h.seen
  known : ∀ x q, Knows h.net x q → q ∈ h.seen

theorem Hist.cmd_ok {h h' : Hist} {c : Cmd} (ho : h.Ok) (hc : h.cmd c = some h') : h'.Ok := by
  have hinv := changing_inv ho.changing
  cases c with
  | act a =>
    simp only [Hist.cmd] at hc
    split at hc
    · next hm =>
      simp only [Option.bind_eq_some_iff] at hc
      obtain ⟨⟨n', obs⟩, ha, hc⟩ := hc
      split at hc
      · next hab =>
        cases hc
        have hab' : ∀ p, .out p .abort ∉ obs := by
          intro p hp
          have := List.all_eq_true.mp hab _ hp
          simp at this
        refine ⟨Changing.step ho.changing (may_iff hm) ha hab', ho.seen, fun x q hk => ?_⟩
        rcases knows_step hinv (may_core (may_iff hm)) ha hab' x q hk with hk | hk
        · exact ho.known x q hk
        · exact ho.seen q hk
      · cases hc
    · cases hc
  | join y b co d =>
    simp only [Hist.cmd] at hc
    split at hc
    · next hy =>
      cases hc
      have hky : ∀ x, ¬ Knows h.net x y := fun x hk => hy.1 (ho.known x y hk)
      refine ⟨Changing.join ho.changing (fun hx => hy.1 (ho.seen y hx)) hky ⟨b, co, false, d, .readyToRun, false, false, hy.2, rfl⟩, ?_, ?_⟩
      · intro p hp
        rcases List.mem_cons.mp hp with rfl | hp
        · exact List.mem_cons_self
        · exact List.mem_cons_of_mem _ (ho.seen p hp)
      · intro x q hk
        refine List.mem_cons_of_mem _ ?_
        simp only [Knows, joined] at hk
        split at hk
        · obtain ⟨t, ht⟩ := hk; cases ht
        · exact ho.known x q hk
    · cases hc
  | hold p =>
    simp only [Hist.cmd] at hc
    split at hc
    · next hp => cases hc; exact ⟨Changing.hold ho.changing hp, ho.seen, ho.known⟩
    · cases hc
  | resume p =>
    simp only [Hist.cmd] at hc
    split at hc
    · next hp =>
      simp only [Option.map_eq_some_iff] at hc
      obtain ⟨⟨n', obs⟩, ha, rfl⟩ := hc
      refine ⟨Changing.resume ho.changing hp.1 hp.2 ha, ho.seen, fun x q hk => ?_⟩
      have hab : ∀ q, .out q .abort ∉ obs := by
        intro q hq
        simp only [Net.act, Event.allowedFor, if_true, Option.map_eq_some_iff, Prod.mk.injEq] at ha
        obtain ⟨⟨s', outs⟩, hon, _, rfl⟩ := ha
        have hout : .abort ∈ outs := by
          simp only [Net.commit, List.mem_cons, reduceCtorEq, List.mem_map, Obs.out.injEq, false_or] at hq
          obtain ⟨o, hm, _, rfl⟩ := hq
          exact hm
        unfold Part.on at hon
        split at hon
        · cases hon
        · simp only [Option.some.injEq] at hon
          have := request_no_abort (h.net.part p); rw [hon] at this; exact this hout
      rcases knows_step hinv (a := .event p .request) ⟨hp.1, hp.2.2.2.2⟩ ha hab x q hk with hk | hk
      · exact ho.known x q hk
      · exact ho.seen q hk
    · cases hc
  | leave p =>
    cases hc
    exact ⟨Changing.leave ho.changing, fun x hx => ho.seen x (List.mem_filter.mp hx).1, ho.known⟩

theorem Hist.run_ok {h h' : Hist} {l : List Cmd} (ho : h.Ok) (hr : h.run l = some h') : h'.Ok := by
  induction l generalizing h with
  | nil => cases hr; exact ho
  | cons c l ih =>
    simp only [Hist.run, Option.bind_eq_some_iff] at hr
    obtain ⟨h1, hc, hr⟩ := hr
    exact ih (Hist.cmd_ok ho hc) hr

theorem Hist.init_ok : ({} : Hist).Ok where
  changing := Changing.init ⟨fun _ => ⟨true, true, false, rfl⟩, fun _ _ => rfl⟩
  seen := nofun
  known := by rintro x q ⟨t, ht⟩; cases ht

/-- A history with a property that can be computed. -/
theorem changing_witness (l : List Cmd) (c : Hist → Bool)
    (h : (match Hist.run {} l with | some h => c h | none => false) = true) : ∃ h : Hist, h.Ok ∧ c h = true := by
  split at h
  · next h' hr => exact ⟨h', Hist.run_ok Hist.init_ok hr, h⟩
  · cases h

/-- `A` (blocking handler, 10 ns) and `B` (asynchronous, 20 ns) run; `C`, autonomous, joins them at 20 ns and does not receive the
announcements of `A` before it has discovered it; `B` pauses and continues; `A` leaves; `C` and `B` go on. -/
def joinPauseLeave : List Cmd :=
  [.join "A" true false 10, .join "B" false false 20,
   .act (.event "A" (.discovered "B")), .act (.event "B" (.discovered "A")),
   .act (.event "A" (.lifecycle .running false false)), .act (.event "B" (.lifecycle .running false false)), .resume "A", .resume "B",
   .act (.deliver "B" "A"), .act (.deliver "A" "B"), .act (.event "A" .stepReturned), .act (.event "B" .complete),
   .act (.deliver "B" "A"), .act (.event "A" .stepReturned), .act (.deliver "A" "B"), .act (.deliver "A" "B"),
   .join "C" true false 4,
   -- `A` announces 30 before it has noticed `C`: `C`, who does not know `A` yet, ignores it
   .act (.event "A" .poll), .act (.event "A" .stepReturned), .act (.deliver "A" "C"),
   .act (.event "A" (.discovered "C")), .act (.event "B" (.discovered "C")), .act (.event "C" (.discovered "A")),
   .act (.event "C" (.discovered "B")), .act (.deliver "A" "C"), .act (.deliver "B" "C"),
   .act (.event "C" (.lifecycle .running false false)), .resume "C",
   .act (.deliver "C" "A"), .act (.deliver "C" "B"),
   -- `B` pauses after its step and continues
   .hold "B", .act (.event "B" (.lifecycle .paused false true)), .act (.event "B" .complete),
   .act (.event "B" (.lifecycle .running false false)), .resume "B",
   .leave "A", .act (.event "B" (.lost "A")), .act (.event "C" .poll), .act (.event "C" .stepReturned), .act (.event "C" (.lost "A")),
   .act (.deliver "B" "C"), .act (.event "C" .stepReturned), .act (.deliver "C" "B"), .act (.deliver "C" "B")]

theorem known_ids {n : Net} {p q : String} : Knows n p q ↔ q ∈ (n.part p).cfg.others.map (·.1) := by
  simp only [Knows, List.mem_map]
  constructor
  · rintro ⟨t, ht⟩; exact ⟨_, ht, rfl⟩
  · rintro ⟨⟨_, t⟩, ht, rfl⟩; exact ⟨t, ht⟩

/-- Every participant knows exactly the others, decidably. -/
def settled (ps : List String) (n : Net) : Bool :=
  ps.all fun p => (n.part p).cfg.others.map (·.1) == ps.filter (· ≠ p)

theorem settled_iff {ps n} (h : settled ps n = true) : Settled ps n := by
  intro p hp q
  have := List.all_eq_true.mp h p hp
  rw [beq_iff_eq] at this
  rw [known_ids, this]
  simp

def engaged (ps : List String) (n : Net) : Bool := ps.all fun p => (n.part p).hopOnEvaluated || !(n.part p).coordinated

theorem engaged_iff {ps n} (h : engaged ps n = true) : Engaged ps n := by
  intro p hp
  have := List.all_eq_true.mp h p hp
  simpa using this

/-- Nothing is in flight and no step is being executed. -/
def quiet (ps : List String) (n : Net) : Bool := ps.all fun p => !(n.part p).busy && ps.all fun q => (n.chan p q).isEmpty

/-- `C14_no_deadlock`: in the middle of the history (`A`, `B` and `C` take part, `C` has missed an announcement, nobody has noticed
anything), nobody is held. -/
example : ∃ h : Hist, Changing h.ps h.held h.net h.tr ∧ h.ps = ["C", "B", "A"] ∧ h.held = [] ∧ ¬ Settled h.ps h.net := by
  obtain ⟨h, ho, hc⟩ := changing_witness
    (joinPauseLeave.take 20 ++ [.act (.event "C" (.lifecycle .running false false)), .resume "C"])
    (fun h => h.ps == ["C", "B", "A"] && h.held == [] && !knows h.net "C" "A") (by decide +kernel)
  simp only [Bool.and_eq_true, beq_iff_eq, Bool.not_eq_true'] at hc
  refine ⟨h, ho.changing, hc.1.1, hc.1.2, fun hs => ?_⟩
  have := (hs "C" (by rw [hc.1.1]; simp) "A").mpr ⟨by rw [hc.1.1]; simp, by decide⟩
  rw [knows_iff.mpr this] at hc
  cases hc.2

/-- The hypotheses of all theorems above are met at the end of the history, after `C` has joined a running simulation and executed
steps, `B` has paused and continued, and `A` has left. -/
example : ∃ h : Hist, Changing h.ps h.held h.net h.tr ∧ h.ps = ["C", "B"] ∧ h.held = [] ∧ Settled h.ps h.net ∧ Engaged h.ps h.net ∧
    (∀ q ∈ h.ps, ∀ p ∈ h.ps, h.net.chan q p = []) ∧ (∀ p ∈ h.ps, (h.net.part p).busy = false) ∧
    .out "C" (.step 30 4) ∈ h.tr ∧ .out "C" (.step 34 4) ∈ h.tr ∧ .out "B" (.step 20 20) ∈ h.tr := by
  obtain ⟨h, ho, hc⟩ := changing_witness joinPauseLeave
    (fun h => h.ps == ["C", "B"] && h.held == [] && settled h.ps h.net && engaged h.ps h.net && quiet h.ps h.net &&
      decide (.out "C" (.step 30 4) ∈ h.tr ∧ .out "C" (.step 34 4) ∈ h.tr ∧ .out "B" (.step 20 20) ∈ h.tr)) (by decide +kernel)
  simp only [Bool.and_eq_true, beq_iff_eq, decide_eq_true_eq] at hc
  obtain ⟨⟨⟨⟨⟨h1, h2⟩, h3⟩, h4⟩, h5⟩, h6⟩ := hc
  have hq := fun p hp => List.all_eq_true.mp h5 p hp
  simp only [Bool.and_eq_true, Bool.not_eq_true', List.all_eq_true, List.isEmpty_iff] at hq
  exact ⟨h, ho.changing, h1, h2, settled_iff h3, engaged_iff h4, fun q hq' p hp => (hq q hq').2 p hp, fun p hp => (hq p hp).1, h6⟩

end SilKit.Props
