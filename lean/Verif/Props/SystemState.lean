import Verif.Lemmas.SystemState
/-!
# The system state (C20, C21)

A system monitor is told the states of the participants, the set of required participants and the disconnects
(`Spec.Op`, and for the monitor itself `Event`). It reports participant states, system states, connects and disconnects to the user's
handlers. `Spec.current` and `Spec.required` say what a history tells about a participant; `Spec.systemState` is the last system state
reported, Invalid before the first.
-/
namespace SilKit.Props
open SilKit.SystemState SilKit.SystemState.Spec

/-- C20. Whenever a system state is reported, the states of the required participants justify it at that moment: for Error and Aborting
some required participant is in that state; for a regular state some required participant is in it and all others are in one of its
`companions`. The only other reports are made when no participant's state is known any more: Invalid, or Shutdown after ShuttingDown. -/
theorem C20_reported_state_is_justified (h : List Op) (o : Op) (s : ParticipantState) (hr : reports (h ++ [o]) = reports h ++ [s]) :
    Justified (required (h ++ [o])) (current (h ++ [o])) s ∨
    ((∀ p, current (h ++ [o]) p = none) ∧ (s = .invalid ∨ (s = .shutdown ∧ systemState h = .shuttingDown))) := by
  rw [reports_append] at hr
  split at hr
  · rename_i hc
    have hsys : (step (run h) o).1.system = s := by simpa using hr
    have hk := run_knows (h ++ [o])
    rw [run_append] at hk
    have hst : (step (run h) o).1.status = current (h ++ [o]) := funext hk.1
    have := step_justified (run h) o hc
    rw [hst, hk.2, hsys] at this
    rw [systemState_run]
    rcases this with h | ⟨h1, h2⟩
    · exact Or.inl h
    · exact Or.inr ⟨h1, h2⟩
  · exact absurd (congrArg List.length hr) (by simp)

/-- A history in which two required participants go through their life; C reports too, without being required. -/
private def example20 : List Op :=
  [.require ["A", "B"], .update "A" .servicesCreated, .update "C" .error, .update "B" .servicesCreated,
   .update "A" .communicationInitializing, .update "B" .communicationInitializing, .update "A" .running, .update "B" .running]

example : reports example20 = [.servicesCreated, .communicationInitializing, .running] := by decide +kernel

/-- C20. Each operation reports at most one system state, and only if it differs from the one reported before. -/
theorem C20_reports_are_changes (h : List Op) (o : Op) :
    reports (h ++ [o]) = reports h ∨ ∃ s, s ≠ systemState h ∧ reports (h ++ [o]) = reports h ++ [s] := by
  rw [reports_append, systemState_run]
  split
  · rename_i hc
    refine Or.inr ⟨_, ?_, rfl⟩
    cases o with
    | update p s =>
      rw [step] at hc ⊢
      dsimp only at hc ⊢
      unfold Tracker.update at hc ⊢
      dsimp only at hc ⊢
      split at hc
      · cases hc
      · rename_i hs
        split at hc
        · cases hc
        · rename_i ho
          split at hc
          · cases hc
          · rename_i hos
            split at hc
            · rename_i hrq
              rw [if_neg hs, if_neg ho, if_neg hos, if_pos hrq]
              exact fun h => of_decide_eq_true hc h.symm
            · cases hc
    | remove p =>
      rw [step] at hc ⊢
      unfold Tracker.remove at hc ⊢
      split at hc
      · cases hc
      · rename_i hn
        rw [if_neg hn]
        exact fun h => of_decide_eq_true hc h.symm
    | require names => exact fun h => of_decide_eq_true hc h.symm
  · exact Or.inl rfl

/-- C20. When all required participants are in the same state, that is the system state. -/
theorem C20_unanimous_state_is_system_state (h : List Op) (s : ParticipantState) (hs : s ≠ .invalid) (hne : required h ≠ [])
    (hall : ∀ p ∈ required h, current h p = some s) : systemState h = s := by
  rw [systemState_run]
  obtain ⟨h1, h2⟩ := run_knows h
  exact run_unanimous h s (h2 ▸ hne) hs fun p hp => by rw [h1]; exact hall p (h2 ▸ hp)

example : required example20 ≠ [] ∧ (∀ p ∈ required example20, current example20 p = some .running) ∧
    systemState example20 = .running ∧ current example20 "C" = some .error := by decide +kernel

/-- C20. A required participant that enters Error or Aborting drives the system state there at once. -/
theorem C20_alarm_is_immediate (h : List Op) (p : String) (s : ParticipantState) (hs : s = .error ∨ s = .aborting)
    (hp : p ∈ required h) (hold : current h p ≠ some s) (hsd : current h p ≠ some .shutdown) :
    systemState (h ++ [.update p s]) = s := by
  obtain ⟨h1, h2⟩ := run_knows h
  rw [systemState_run, run_append, step]
  dsimp only
  unfold Tracker.update
  dsimp only
  have hsi : s ≠ .invalid := by rcases hs with rfl | rfl <;> decide
  have hnot : ∀ x, x ≠ .invalid → current h p ≠ some x → ((run h).status p).getD .invalid ≠ x := by
    intro x hx hc he
    rw [h1] at he
    rcases hcur : current h p with _ | y
    · rw [hcur] at he; exact hx he.symm
    · rw [hcur] at he hc; exact hc (by rw [← he]; rfl)
  rw [if_neg hsi, if_neg (hnot .shutdown (by decide) hsd), if_neg (hnot s hsi hold), if_pos]
  · rcases hs with rfl | rfl <;> rfl
  · simp [Tracker.setStatus, h2, hp]

example : systemState (example20 ++ [.update "B" .error]) = .error ∧ systemState (example20 ++ [.update "B" .aborting]) = .aborting := by
  decide +kernel

/-- C20 (partial). Once the set of required participants is fixed, as long as some required participant is in Error the system state
is Error, Aborting or ShuttingDown, and as long as some required participant is in Aborting it is Aborting or Error. The property claims
Error resp. Aborting outright; that fails, see the examples below. -/
theorem C20_alarm_dominates_partial (names : List String) (h : List Op) (hf : FixedRequired h) (p : String) (hp : p ∈ names) :
    (current (.require names :: h) p = some .error → systemState (.require names :: h) ∈ [.error, .aborting, .shuttingDown]) ∧
    (current (.require names :: h) p = some .aborting → systemState (.require names :: h) ∈ [.error, .aborting]) := by
  have hreq : required (.require names :: h) = names := by
    revert hf
    rw [← List.reverse_reverse h]
    induction h.reverse with
    | nil => intro _; rfl
    | cons o h ih =>
      intro hf
      rw [List.reverse_cons] at hf ⊢
      rw [← List.cons_append, required_append]
      cases o with
      | require n => exact absurd (by simp) (hf n)
      | _ => exact ih fun n hn => hf n (List.mem_append_left _ hn)
  have hal : Alarmed (run (.require names :: h)) := by
    clear hreq
    revert hf
    rw [← List.reverse_reverse h]
    induction h.reverse with
    | nil =>
      intro _
      constructor
      · intro q _ hq; cases hq
      · intro q _ hq; cases hq
    | cons o h ih =>
      intro hf
      rw [List.reverse_cons] at hf ⊢
      rw [← List.cons_append, run_append]
      refine step_alarmed _ _ (ih fun n hn => hf n (List.mem_append_left _ hn)) fun n hn => hf n (by simp [hn])
  obtain ⟨h1, h2⟩ := run_knows (.require names :: h)
  rw [systemState_run, ← h1]
  have hp' : p ∈ (run (.require names :: h)).required := by rw [h2, hreq]; exact hp
  refine ⟨fun he => ?_, fun ha => ?_⟩
  · simpa using hal.1 p hp' he
  · simpa using hal.2 p hp' ha

example : FixedRequired (example20.drop 1 ++ [.update "A" .error, .update "B" .stopping]) ∧
    current (example20 ++ [.update "A" .error, .update "B" .stopping]) "A" = some .error ∧
    systemState (example20 ++ [.update "A" .error, .update "B" .stopping]) = .error := by
  refine ⟨?_, by decide +kernel⟩
  intro n hn
  simp [example20] at hn

/-- C20, disagreement: a required participant is in Error, but the system state is Aborting because another one aborts later. -/
theorem C20_aborting_hides_error : ∃ h : List Op, "A" ∈ required h ∧ current h "A" = some .error ∧ systemState h = .aborting :=
  ⟨[.require ["A", "B"], .update "A" .running, .update "B" .running, .update "A" .error, .update "B" .aborting], by decide +kernel⟩

/-- C20, disagreement: a required participant is in Error, but the system state is ShuttingDown. -/
theorem C20_shutting_down_hides_error : ∃ h : List Op, "A" ∈ required h ∧ current h "A" = some .error ∧ systemState h = .shuttingDown :=
  ⟨[.require ["A", "B"], .update "A" .running, .update "B" .running, .update "B" .stopped, .update "A" .error,
    .update "B" .shuttingDown], by decide +kernel⟩

/-- C20, disagreement: a required participant is in Error before the set of required participants becomes known; the system state
stays Invalid, because only the state of one of them (whichever the hash set yields first) is looked at. -/
theorem C20_error_before_workflow_is_missed : ∃ h : List Op, "B" ∈ required h ∧ current h "B" = some .error ∧ systemState h = .invalid ∧
    ∃ h', (∀ p, current h' p = current h p) ∧ (∀ p, p ∈ required h' ↔ p ∈ required h) ∧ systemState h' = .error := by
  refine ⟨[.update "A" .running, .update "B" .error, .require ["A", "B"]], by decide +kernel, by decide +kernel, by decide +kernel,
    [.update "A" .running, .update "B" .error, .require ["B", "A"]], fun p => rfl, fun p => ?_, by decide +kernel⟩
  simp [required, or_comm]

/-- C20. A state published by a participant that is not required reports no system state. -/
theorem C20_others_do_not_matter (h : List Op) (p : String) (s : ParticipantState) (hp : p ∉ required h) :
    reports (h ++ [.update p s]) = reports h := by
  rw [reports_append, step]
  dsimp only
  rw [(update_not_required _ p s (by rw [(run_knows h).2]; exact hp)).1]
  rfl

/-- C20 (partial). While nobody disconnects, the system state is a function of what the required participants published: dropping
everything published by others does not change it. Missing: disconnects, for which it is false, see below. -/
theorem C20_depends_only_on_required_partial (names : List String) (h : List Op) (hu : ∀ o ∈ h, ∃ p s, o = .update p s) :
    systemState (.require names :: h) =
      systemState (.require names :: h.filter (fun o => match o with | .update p _ => names.contains p | _ => false)) := by
  have main : ∀ h : List Op, (∀ o ∈ h, ∃ p s, o = Op.update p s) → ∀ t u : Tracker, t.required = names → u.required = names →
      t.system = u.system → (∀ p ∈ names, t.status p = u.status p) →
      (h.foldl (fun t o => (step t o).1) t).system =
        ((h.filter (fun o => match o with | .update p _ => names.contains p | _ => false)).foldl (fun t o => (step t o).1) u).system := by
    intro h
    induction h with
    | nil => intro _ t u _ _ hs _; exact hs
    | cons o h ih =>
      intro hu t u ht hu' hs hst
      obtain ⟨p, s, rfl⟩ := hu o (by simp)
      rw [List.foldl_cons]
      have hu2 := fun o ho => hu o (List.mem_cons_of_mem _ ho)
      by_cases hp : p ∈ names
      · rw [List.filter_cons_of_pos (by simpa using hp), List.foldl_cons]
        refine ih hu2 _ _ ?_ ?_ ?_ ?_
        · rw [step]; dsimp only; rw [update_required, ht]
        · rw [step]; dsimp only; rw [update_required, hu']
        · exact update_congr t u p s (ht ▸ hp) (ht.trans hu'.symm) hs fun q hq => hst q (ht ▸ hq)
        · intro q hq
          rw [step, step]
          dsimp only
          rw [update_status, update_status, hst q hq]
      · rw [List.filter_cons_of_neg (by simpa using hp)]
        refine ih hu2 _ _ ?_ hu' ?_ ?_
        · rw [step]; dsimp only; rw [update_required, ht]
        · rw [step]; dsimp only; rw [(update_not_required t p s (ht ▸ hp)).2, hs]
        · intro q hq
          rw [step]
          dsimp only
          rw [update_status, if_neg, hst q hq]
          rintro rfl
          exact hp hq
  rw [systemState_run, systemState_run, run, run, List.foldl_cons, List.foldl_cons]
  exact main h hu _ _ rfl rfl rfl fun _ _ => rfl

example : ∀ o ∈ example20.drop 1, ∃ p s, o = Op.update p s := by
  intro o ho
  simp [example20] at ho
  rcases ho with rfl | rfl | rfl | rfl | rfl | rfl | rfl <;> exact ⟨_, _, rfl⟩

/-- C20, disagreement: the disconnect of a participant that is not required changes the system state. -/
theorem C20_disconnect_of_other_matters : ∃ h : List Op, "C" ∉ required h ∧ systemState h = .aborting ∧
    systemState (h ++ [.remove "C"]) = .error :=
  ⟨[.require ["A", "B"], .update "A" .running, .update "B" .running, .update "C" .running, .update "A" .error, .update "B" .aborting],
    by decide +kernel⟩

/-- C20, disagreement: the system state depends on more than the current states of the required participants. -/
theorem C20_state_depends_on_history : ∃ h h' : List Op, required h = required h' ∧ (∀ p, current h p = current h' p) ∧
    systemState h ≠ systemState h' := by
  refine ⟨[.require ["A", "B"], .update "A" .error, .update "B" .aborting], [.require ["A", "B"], .update "B" .aborting, .update "A" .error],
    rfl, fun p => ?_, by decide +kernel⟩
  by_cases ha : "A" = p
  · subst ha; decide
  · by_cases hb : "B" = p
    · subst hb; decide
    · simp [current, ha, hb]

/-- C20. A system monitor reports exactly these system states: `ops` says how its events act, in particular that the disconnect of a
participant that has not shut down counts as that participant's Error followed by its removal. -/
theorem C20_monitor_reports_system_state (h : List Event) :
    systemReports (monitor h).2 = reports (ops h) ∧ (∀ p, current (ops h) p = received h p) ∧ required (ops h) = requiredOf h :=
  ⟨(monitor_ops h).2, current_ops h, required_ops h⟩

/-- C21. When a participant disconnects whose last received state is neither absent nor Invalid nor Shutdown, the last state reported
for it before its disconnect is Error, whether the monitor reports it now or had already done so. -/
theorem C21_crash_is_reported_as_error (h : List Event) (p : String) (s : ParticipantState) (hr : received h p = some s)
    (hs : s ≠ .invalid) (hsd : s ≠ .shutdown) :
    ∃ mid, (monitor (h ++ [.disconnected p])).2 = (monitor h).2 ++ mid ++ [.disconnected p] ∧ Out.disconnected p ∉ mid ∧
      statusReport ((monitor h).2 ++ mid) p = some .error := by
  have hstat : (monitor h).1.tracker.status p = received h p := by rw [(monitor_ops h).1, (run_knows _).1, current_ops]
  have hcr : (monitor h).1.reportCrash p = (monitor h).1.receive p .error := by
    rw [reportCrash_eq, if_neg]
    rw [hstat, hr]
    simp [hs, hsd]
  let fg := ((monitor h).1.receive p .error).1.tracker.remove p
  refine ⟨((monitor h).1.receive p .error).2 ++ (if fg.2 then [.systemState fg.1.system] else []), ?_, ?_, ?_⟩
  · rw [monitor_append]
    change (monitor h).2 ++ (((monitor h).1.reportCrash p).2 ++ (((monitor h).1.reportCrash p).1.forget p).2) = _
    rw [hcr, Monitor.forget]
    simp only [List.append_assoc]
    rfl
  · intro hm
    rcases List.mem_append.mp hm with hm | hm
    · rw [Monitor.receive] at hm
      dsimp only at hm
      rcases List.mem_append.mp hm with hm | hm
      · rcases List.mem_append.mp hm with hm | hm
        · split at hm <;> simp at hm
        · split at hm <;> simp at hm
      · split at hm <;> simp at hm
    · split at hm <;> simp at hm
  · rw [← List.append_assoc, statusReport_append, statusReport_append]
    have h1 : statusReport (if fg.2 then [Out.systemState fg.1.system] else []) p = none := by split <;> simp [statusReport]
    rw [h1, receive_report, hstat, hr]
    by_cases he : s = .error
    · subst he
      rw [if_neg (by simp)]
      simp [statusReport_monitor h p .error (by decide) hr]
    · rw [if_pos ⟨rfl, by decide, by simpa using hsd, by simpa using he⟩]
      rfl

/-- A required participant crashes while the system runs. -/
private def example21 : List Event :=
  [.connected "A", .connected "B", .workflow ["A", "B"], .status "A" .running, .status "B" .running]

example : received example21 "B" = some .running ∧ (monitor (example21 ++ [.disconnected "B"])).2 =
    (monitor example21).2 ++ [.participantStatus "B" .error, .systemState .error, .disconnected "B"] := by decide +kernel

/-- C21. If such a participant is required and was not in Error yet, the system state reported last before its removal is Error; and it
stays Error through the disconnect, unless another required participant is in Aborting and the system state becomes Aborting. -/
theorem C21_crash_drives_system_to_error_partial (h : List Event) (p : String) (s : ParticipantState) (hr : received h p = some s)
    (hs : s ≠ .invalid) (hsd : s ≠ .shutdown) (hse : s ≠ .error) (hp : p ∈ requiredOf h) :
    ∃ a b, (monitor (h ++ [.disconnected p])).2 = (monitor h).2 ++ a ++ b ++ [.disconnected p] ∧ Out.disconnected p ∉ a ++ b ∧
      statusReport ((monitor h).2 ++ a) p = some .error ∧ (systemReports ((monitor h).2 ++ a)).getLast? = some .error ∧
      (b = [] ∨ (b = [.systemState .aborting] ∧ ∃ q ∈ requiredOf h, received h q = some .aborting)) := by
  have hk := run_knows (ops h)
  rw [← (monitor_ops h).1, required_ops] at hk
  have hstatus : ∀ q, (monitor h).1.tracker.status q = received h q := fun q => by rw [hk.1, current_ops]
  have hcr : (monitor h).1.reportCrash p = (monitor h).1.receive p .error := by
    rw [reportCrash_eq, if_neg]
    rw [hstatus, hr]
    simp [hs, hsd]
  have hupd : (monitor h).1.tracker.update p .error =
      { tracker := { ((monitor h).1.tracker.setStatus p .error) with system := .error }, participantChanged := true,
        systemChanged := decide ((monitor h).1.tracker.system ≠ .error) } := by
    unfold Tracker.update
    dsimp only
    rw [hstatus, hr, if_neg (by decide), if_neg (by simpa using hsd), if_neg (by simpa using hse), if_pos]
    · rfl
    · simp [Tracker.setStatus, hk.2, hp]
  generalize hT : ({ ((monitor h).1.tracker.setStatus p .error) with system := .error } : Tracker) = T at hupd
  have hTst : ∀ q, T.status q = if p = q then some .error else received h q := by
    intro q
    have := status_setStatus (monitor h).1.tracker p q .error
    rw [hstatus] at this
    rw [← hT, ← this]; rfl
  have hTreq : T.required = requiredOf h := by rw [← hT]; exact hk.2
  have hTsys : T.system = .error := by rw [← hT]
  -- the removal
  generalize hR : T.remove p = R
  have hrem : R.1.system = .error ∧ R.2 = false ∨
      (R.1.system = .aborting ∧ R.2 = true ∧ ∃ q ∈ requiredOf h, received h q = some .aborting) := by
    rw [← hR]
    have hrw : ∃ U : Tracker, { T with cache := T.cache.filter (fun e => e.1 ≠ p) } = U ∧
        T.remove p = ({ U with system := U.compute U.anyRequired }, decide (U.system ≠ U.compute U.anyRequired)) := by
      refine ⟨_, rfl, ?_⟩
      unfold Tracker.remove
      rw [if_neg (by rw [hTst, if_pos rfl]; simp)]
    obtain ⟨U, hU, hrw⟩ := hrw
    rw [hrw]
    dsimp only
    have hUreq : U.required = requiredOf h := by rw [← hU]; exact hTreq
    have hUst : ∀ q, U.status q = if p = q then none else received h q := by
      intro q
      rw [← hU]
      by_cases hq : p = q
      · subst hq; rw [if_pos rfl]; exact lookup_filter_self T.cache p
      · rw [if_neg hq]
        have := lookup_filter_ne T.cache p q (fun h => hq h.symm)
        have h2 := hTst q
        rw [if_neg hq] at h2
        exact this.trans h2
    have hUsys : U.system = .error := by rw [← hU]; exact hTsys
    have hbase : U.base = .error := by unfold Tracker.base; rw [hUsys]; split <;> rfl
    have hnotall : ∀ l, ¬ U.allIn l = true := by
      intro l hl
      obtain ⟨x, _, hx⟩ := (allIn_iff U l).mp hl p (hUreq ▸ hp)
      rw [hUst, if_pos rfl] at hx
      cases hx
    have hfirst : ∀ l, U.firstOf l = .error := by
      intro l
      rcases firstOf_cases U l with h | ⟨a, _, _, ha⟩
      · rw [h, hbase]
      · exact absurd ha (hnotall _)
    have hcomp : U.compute U.anyRequired = .error ∨ (U.compute U.anyRequired = .aborting ∧ U.anyRequired = .aborting) := by
      cases hany : U.anyRequired with
      | aborting => exact Or.inr ⟨rfl, rfl⟩
      | error => exact Or.inl rfl
      | _ => exact Or.inl (hfirst _)
    rcases hcomp with hc | ⟨hc, hany⟩
    · rw [hc, hUsys]; exact Or.inl ⟨rfl, rfl⟩
    · refine Or.inr ⟨hc, by rw [hc, hUsys]; rfl, ?_⟩
      unfold Tracker.anyRequired at hany
      split at hany
      · cases hany
      · rename_i q rest hq
        refine ⟨q, by rw [← hUreq, hq]; simp, ?_⟩
        rw [hUst] at hany
        split at hany
        · cases hany
        · rcases hx : received h q with _ | y
          · rw [hx] at hany; cases hany
          · rw [hx] at hany; exact congrArg some hany
  have hrecv : (monitor h).1.receive p .error = ({ (monitor h).1 with tracker := T },
      [.participantStatus p .error] ++ (if (monitor h).1.tracker.system ≠ .error then [.systemState .error] else [])) := by
    rw [Monitor.receive, hupd]
    simp [hTsys]
  have hsysold : (systemReports (monitor h).2).getLastD .invalid = (monitor h).1.tracker.system := by
    rw [(monitor_ops h).2, (monitor_ops h).1, ← systemState_run]
    rfl
  refine ⟨((monitor h).1.receive p .error).2, if R.2 then [.systemState R.1.system] else [], ?_, ?_, ?_, ?_, ?_⟩
  · rw [monitor_append]
    change (monitor h).2 ++ (((monitor h).1.reportCrash p).2 ++ (((monitor h).1.reportCrash p).1.forget p).2) = _
    rw [hcr, hrecv]
    simp only [Monitor.forget, hR, List.append_assoc]
  · rw [hrecv]
    intro hm
    rcases List.mem_append.mp hm with hm | hm
    · rcases List.mem_append.mp hm with hm | hm
      · simp at hm
      · split at hm <;> simp at hm
    · split at hm <;> simp at hm
  · rw [statusReport_append, receive_report, hstatus, hr, if_pos ⟨rfl, by decide, by simpa using hsd, by simpa using hse⟩]
    rfl
  · rw [systemReports_append, hrecv]
    by_cases he : (monitor h).1.tracker.system = .error
    · rw [he] at hsysold
      simp only [he, ne_eq, not_true_eq_false, if_false, List.append_nil]
      have h0 : systemReports [Out.participantStatus p .error] = [] := rfl
      rw [h0, List.append_nil]
      rcases hl : systemReports (monitor h).2 with _ | ⟨x, l⟩
      · rw [hl] at hsysold; cases hsysold
      · rw [hl] at hsysold
        rw [← hsysold]
        simp [List.getLast?_cons, List.getLastD_eq_getLast?]
    · rw [if_pos he]
      simp [systemReports]
  · rcases hrem with ⟨_, h2⟩ | ⟨h1, h2, h3⟩
    · rw [h2]; exact Or.inl rfl
    · rw [h2, h1]; exact Or.inr ⟨rfl, h3⟩

example : received example21 "B" = some .running ∧ "B" ∈ requiredOf example21 := by decide +kernel

/-- C21, disagreement: a required participant that crashes while it is in Error does not drive the system state to Error, if the
system state has moved on to ShuttingDown. -/
theorem C21_crash_in_error_goes_unnoticed : ∃ h : List Event, "A" ∈ requiredOf h ∧ received h "A" = some .error ∧
    systemReports (monitor h).2 ≠ [] ∧ (systemReports (monitor (h ++ [.disconnected "A"])).2).getLast? = some .shuttingDown :=
  ⟨[.workflow ["A", "B"], .status "A" .running, .status "B" .running, .status "B" .stopped, .status "A" .error,
    .status "B" .shuttingDown], by decide +kernel⟩

/-- C21. A participant that has reached Shutdown is not reported as Error when it disconnects. -/
theorem C21_clean_exit_is_not_an_error (h : List Event) (p : String) (hr : received h p = some .shutdown) :
    ∃ mid, (monitor (h ++ [.disconnected p])).2 = (monitor h).2 ++ mid ++ [.disconnected p] ∧
      (∀ q s, Out.participantStatus q s ∉ mid) ∧ statusReport ((monitor h).2 ++ mid) p = some .shutdown := by
  have hstat : (monitor h).1.tracker.status p = received h p := by rw [(monitor_ops h).1, (run_knows _).1, current_ops]
  have hcr : (monitor h).1.reportCrash p = ((monitor h).1, []) := by
    rw [reportCrash_eq, if_pos]
    rw [hstat, hr]
    simp
  let fg := (monitor h).1.tracker.remove p
  refine ⟨if fg.2 then [.systemState fg.1.system] else [], ?_, ?_, ?_⟩
  · rw [monitor_append]
    change (monitor h).2 ++ (((monitor h).1.reportCrash p).2 ++ (((monitor h).1.reportCrash p).1.forget p).2) = _
    rw [hcr, Monitor.forget]
    simp only [List.append_assoc, List.nil_append]
    rfl
  · intro q s hm
    split at hm <;> simp at hm
  · rw [statusReport_append]
    have h1 : statusReport (if fg.2 then [Out.systemState fg.1.system] else []) p = none := by split <;> simp [statusReport]
    rw [h1, statusReport_monitor h p .shutdown (by decide) hr]
    rfl

example : received (example21 ++ [.status "A" .stopped, .status "A" .shuttingDown, .status "A" .shutdown]) "A" = some .shutdown := by
  decide +kernel

/-- C21. Every disconnect is reported, and every connect that is not a repetition: for each participant, in order, and nothing else. -/
theorem C21_presence_is_reported (h : List Event) (p : String) : presenceReports (monitor h).2 p = newsFrom false (presence h p) := (presence_monitor h p).2

/-- … also with repeated connects, of several participants. -/
example : presence [.connected "A", .connected "B", .connected "A", .status "A" .running, .disconnected "A", .connected "A", .connected "B", .disconnected "B"] "A" = [true, true, false, true] ∧
    newsFrom false [true, true, false, true] = [true, false, true] := by decide +kernel

end SilKit.Props
