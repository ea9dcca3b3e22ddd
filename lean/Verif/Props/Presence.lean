import Verif.Lemmas.Presence
/-!
# C65: who is there

The connected and disconnected handlers of the system monitor, `IsParticipantConnected`, and the system controller that starts the simulation once all
required participants are there.
-/
namespace SilKit.Props
open SilKit.Presence SilKit.Presence.Spec

/-! ## Nothing happens while the user is in a function of the monitor -/

/-- **C65, reports (part).** If no connection changes while the user is in a function of the monitor, and a participant comes back only after its old
connection has been closed, then the handlers are told exactly what happens: first, in some order, every participant that is there when the handlers
are set, once; then every participant that comes and every participant that goes, once and in order. Missing: the other schedules, for which this is
false (see below). -/
theorem C65_reports_exact_partial (before between later : List Event) (ho : Orderly {} (before ++ between ++ later)) (hj : Joined (between ++ later))
    (hp : Proper (world (before ++ between)) later) :
    ∃ first : List Name, first.Perm (world (before ++ between)).names ∧
      (run (calm before between later)).calls = first.map Call.connected ++ news (world (before ++ between)) later :=
  ⟨_, List.Perm.refl _, (calm_state before between later ho hj hp).2.1⟩

/-- A simulation: A is there first, B joins before the monitor is created, C before the handlers are set; then B goes, D comes and B comes back. -/
def exBefore : List Event := [.connect 1 "A", .accept 2, .accept 7, .announce 2 "B", .close 7]
def exBetween : List Event := [.accept 3, .announce 3 "C", .accept 8]
def exLater : List Event := [.close 2, .announce 8 "D", .accept 9, .announce 9 "B", .close 3]

example : Orderly {} (exBefore ++ exBetween ++ exLater) ∧ Joined (exBetween ++ exLater) ∧ Proper (world (exBefore ++ exBetween)) exLater
    ∧ (world (exBefore ++ exBetween)).names = ["A", "B", "C"]
    ∧ news (world (exBefore ++ exBetween)) exLater = [.disconnected "B", .connected "D", .connected "B", .disconnected "C"] := by
  refine ⟨by decide +kernel, ?_, by decide +kernel, by decide +kernel, by decide +kernel⟩
  intro e he c n h
  subst h
  revert he
  simp [exBetween, exLater]

/-- **C65, presence (part).** In these schedules `IsParticipantConnected` tells the truth. -/
theorem C65_presence_exact_partial (before between later : List Event) (ho : Orderly {} (before ++ between ++ later)) (hj : Joined (between ++ later))
    (hp : Proper (world (before ++ between)) later) (n : Name) :
    isConnected (run (calm before between later)) n = true ↔ n ∈ (world (before ++ between ++ later)).names := by
  unfold isConnected
  rw [(calm_state before between later ho hj hp).1]
  simp

example : isConnected (run (calm exBefore exBetween exLater)) "D" = true ∧ isConnected (run (calm exBefore exBetween exLater)) "C" = false := by
  decide +kernel

/-- **C65, workflow (part).** In these schedules the system controller sets the workflow configuration exactly if all required participants have been
there at the same time, at the moment the handlers were set or later; and it sets it once, to the required participants and itself. -/
theorem C65_workflow_exact_partial (own : Name) (names : List Name) (hne : names ≠ []) (hnd : names.Nodup) (before between later : List Event)
    (ho : Orderly {} (before ++ between ++ later)) (hj : Joined (between ++ later)) (hp : Proper (world (before ++ between)) later) :
    ((∃ p, p <+: later ∧ ∀ r ∈ names, r ∈ (world (before ++ between ++ p)).names) →
      ∃ l : List Name, l.Perm names ∧ workflows own names (calm before between later) = [l ++ [own]]) ∧
    ((¬ ∃ p, p <+: later ∧ ∀ r ∈ names, r ∈ (world (before ++ between ++ p)).names) → workflows own names (calm before between later) = []) := by
  have hl : (toSet names).length = names.length := (toSet_length names).mpr hnd
  have hst : start own names = .ok { required := toSet names, own := own } := by
    unfold start; rw [if_neg hne, if_neg (by rw [hl]; simp)]
  have hk := start_ok own names _ hst
  have hperm : (toSet names).Perm names :=
    (List.perm_ext_iff_of_nodup (nodup_of_sorted _ (sorted_toSet names)) hnd).mpr (mem_toSet names)
  have h := workflows_after { required := toSet names, own := own } (sorted_toSet names) hk.2.2.2.2.2 rfl rfl (run (calm before between later)).calls
  have hq := calm_reports before between later ho hp (toSet names)
  rw [← (calm_state before between later ho hj hp).2.1] at hq
  have hs : ∀ p, (∀ r ∈ toSet names, r ∈ (world (before ++ between ++ p)).names) ↔ ∀ r ∈ names, r ∈ (world (before ++ between ++ p)).names := by
    intro p
    constructor
    · intro a r hr; exact a r ((mem_toSet names r).mpr hr)
    · intro a r hr; exact a r ((mem_toSet names r).mp hr)
  have hw : workflows own names (calm before between later) =
      (Controller.after { required := toSet names, own := own } (run (calm before between later)).calls).workflows := by
    unfold workflows; rw [hst]
  rw [hw]
  constructor
  · rintro ⟨p, hp1, hp2⟩
    obtain ⟨q, hq1, hq2⟩ := hq.mpr ⟨p, hp1, (hs p).mpr hp2⟩
    rcases h with h | h
    · exact ⟨toSet names, hperm, h.1⟩
    · exact absurd hq2 (h.2 q hq1)
  · intro hno
    rcases h with h | h
    · obtain ⟨p, hp1, hp2⟩ := hq.mp h.2
      exact absurd ⟨p, hp1, (hs p).mp hp2⟩ hno
    · exact h.1

example : workflows "Ctrl" ["D", "C", "A"] (calm exBefore exBetween exLater) = [["A", "C", "D", "Ctrl"]]
    ∧ workflows "Ctrl" ["D", "E"] (calm exBefore exBetween exLater) = [] := by decide +kernel

/-! ## All schedules -/

/-- **C65, comings are real.** In every schedule: who is reported as connected, and who `IsParticipantConnected` knows, has introduced itself or was
connected to. -/
theorem C65_connected_is_real (ops : List Op) (n : Name) :
    (Call.connected n ∈ (run ops).calls → introduced ops n) ∧ (isConnected (run ops) n = true → introduced ops n) := by
  have h := inv_run ops
  refine ⟨fun hc => h.calls _ hc, ?_⟩
  intro hc
  unfold isConnected at hc
  exact h.known n (by simpa using hc)

example : Call.connected "B" ∈ (run (calm exBefore exBetween exLater)).calls ∧ isConnected (run (calm exBefore exBetween exLater)) "B" = true := by
  decide +kernel

/-- **C65, departures are real.** In every schedule: no more departures are reported than connections have ended, and each has the name of a
participant that has introduced itself or was connected to, or the empty name. -/
theorem C65_disconnected_is_real (ops : List Op) :
    departures (run ops).calls ≤ closes ops ∧ ∀ n, Call.disconnected n ∈ (run ops).calls → n = "" ∨ introduced ops n := by
  have h := inv_run ops
  exact ⟨Nat.le_trans (Nat.le_add_right _ _) h.count, fun n hn => h.calls _ hn⟩

example : departures (run (calm exBefore exBetween exLater)).calls = 2 ∧ closes (calm exBefore exBetween exLater) = 3 := by decide +kernel

/-- **C65, news after the setup.** In every schedule: once both handlers are set, a participant that introduces itself is reported, in full before the
next event, unless `IsParticipantConnected` knew its name already; afterwards it is known. -/
theorem C65_told_after_setup (ops : List Op) (c : Nat) (n : Name) (hu : (run ops).todo = []) (hc : (run ops).onConnected = true)
    (hr : (run ops).receiver = true) (hi : (run ops).io = .idle) (hop : c ∈ (run ops).peers.map Prod.fst) :
    (run (ops ++ whole (.announce c n))).calls = (run ops).calls ++ (if isConnected (run ops) n then [] else [Call.connected n])
    ∧ isConnected (run (ops ++ whole (.announce c n))) n = true ∧ (run (ops ++ whole (.announce c n))).todo = [] := by
  have e : run (ops ++ whole (.announce c n)) = ioStep (ioStep (begin (run ops) (.announce c n))) := by
    rw [← steps_whole _ hi]; unfold run steps; rw [List.foldl_append]
  rw [e]
  generalize run ops = s at hu hc hr hi hop
  have ho := (any_id s.peers c).mpr hop
  unfold isConnected
  simp only [begin, ho, if_true, hr, ioStep, callConnected, hc, Bool.true_and, hu, and_true]
  cases hk : s.known.contains n
  · refine ⟨by simp, ?_⟩
    rw [(emplace_new s.known n (by simpa using hk)).1]; simp
  · refine ⟨by simp, ?_⟩
    unfold emplace; rw [if_pos hk]; exact hk

example : (run (calm exBefore exBetween exLater ++ whole (.accept 12))).todo = []
    ∧ (run (calm exBefore exBetween exLater ++ whole (.accept 12))).onConnected = true
    ∧ (run (calm exBefore exBetween exLater ++ whole (.accept 12))).receiver = true
    ∧ (run (calm exBefore exBetween exLater ++ whole (.accept 12))).io = .idle
    ∧ 12 ∈ (run (calm exBefore exBetween exLater ++ whole (.accept 12))).peers.map Prod.fst := by decide +kernel

/-- **C65, names on the command line.** The controller starts exactly if there is at least one name and no name is repeated. -/
theorem C65_start_iff (own : Name) (names : List Name) : (∃ k, start own names = .ok k) ↔ names ≠ [] ∧ names.Nodup := by
  unfold start
  constructor
  · rintro ⟨k, hk⟩
    split at hk
    · exact nomatch hk
    · split at hk
      · exact nomatch hk
      · rename_i h1 h2
        exact ⟨h1, (toSet_length names).mp (Classical.not_not.mp h2)⟩
  · rintro ⟨h1, h2⟩
    rw [if_neg h1, if_neg (by rw [(toSet_length names).mpr h2]; simp)]
    exact ⟨_, rfl⟩

example : (["B", "A"] : List Name) ≠ [] ∧ (["B", "A"] : List Name).Nodup := by decide

/-- **C65, workflow once.** In every schedule: the workflow configuration is set at most once, to the required participants and the controller itself,
and only after the calls of the handlers have reported all required participants as connected at the same time; as soon as they do, it is set. -/
theorem C65_workflow_once (own : Name) (names : List Name) (hne : names ≠ []) (hnd : names.Nodup) (ops : List Op) :
    ((∃ l : List Name, l.Perm names ∧ workflows own names ops = [l ++ [own]]) ∧
      ∃ p, p <+: (run ops).calls ∧ ∀ r ∈ names, reported p r = true) ∨
    (workflows own names ops = [] ∧ ∀ p, p <+: (run ops).calls → ¬ ∀ r ∈ names, reported p r = true) := by
  have hl : (toSet names).length = names.length := (toSet_length names).mpr hnd
  have hst : start own names = .ok { required := toSet names, own := own } := by
    unfold start; rw [if_neg hne, if_neg (by rw [hl]; simp)]
  have hk := start_ok own names _ hst
  have hperm : (toSet names).Perm names :=
    (List.perm_ext_iff_of_nodup (nodup_of_sorted _ (sorted_toSet names)) hnd).mpr (mem_toSet names)
  have h := workflows_after { required := toSet names, own := own } (sorted_toSet names) hk.2.2.2.2.2 rfl rfl (run ops).calls
  have hw : workflows own names ops = (Controller.after { required := toSet names, own := own } (run ops).calls).workflows := by
    unfold workflows; rw [hst]
  rw [hw]
  rcases h with ⟨h1, p, hp1, hp2⟩ | ⟨h1, h2⟩
  · exact Or.inl ⟨⟨toSet names, hperm, h1⟩, p, hp1, fun r hr => hp2 r ((mem_toSet names r).mpr hr)⟩
  · refine Or.inr ⟨h1, ?_⟩
    intro p hp hall
    exact h2 p hp (fun r hr => hall r ((mem_toSet names r).mp hr))

/-- **C65, required participants have been there.** In every schedule: when the workflow configuration has been set, every required participant has
introduced itself or was connected to. -/
theorem C65_workflow_needs_all (own : Name) (names : List Name) (ops : List Op) (h : workflows own names ops ≠ []) : ∀ r ∈ names, introduced ops r := by
  have hex : ∃ k, start own names = .ok k := by
    cases hs : start own names with
    | ok k => exact ⟨k, rfl⟩
    | error e => exact absurd (by unfold workflows; rw [hs]) h
  obtain ⟨hne, hnd⟩ := (C65_start_iff own names).mp hex
  rcases C65_workflow_once own names hne hnd ops with ⟨_, p, ⟨t, ht⟩, hall⟩ | h1
  · intro r hr
    refine (C65_connected_is_real ops r).1 ?_
    rw [← ht]
    exact List.mem_append_left _ (reported_mem r p (hall r hr))
  · exact absurd h1.1 h

example : workflows "Ctrl" ["D", "C", "A"] (calm exBefore exBetween exLater) ≠ [] := by decide +kernel

/-! ## Where the code deviates -/

/-- `k` steps of the user. -/
abbrev U (k : Nat) : List Op := List.replicate k Op.user

/-- A participant connects and introduces itself. -/
abbrev comes (c : Nat) (n : Name) : List Op := whole (.accept c) ++ whole (.announce c n)

/-- **C65, ghost (negation).** A participant goes after the snapshot of the participants has been taken and before its name is added: it is reported as
connected when the handlers are set, and stays connected for ever, though its connection has ended before. -/
theorem C65_ghost_after_snapshot :
    (run (comes 1 "A" ++ U 3 ++ [.registration] ++ whole (.close 1) ++ U 5)).calls = [.connected "A"]
    ∧ isConnected (run (comes 1 "A" ++ U 3 ++ [.registration] ++ whole (.close 1) ++ U 5)) "A" = true
    ∧ (run (comes 1 "A" ++ U 3 ++ [.registration] ++ whole (.close 1) ++ U 5)).peers = [] := by decide +kernel

/-- **C65, ghost (negation).** The registration of the shutdown callback is only posted: a participant that goes after all functions of the monitor have
returned, but before the I/O thread has carried out the registration, is never reported as disconnected and stays connected. -/
theorem C65_ghost_before_registration :
    (run (comes 1 "A" ++ U 8 ++ whole (.close 1) ++ [.registration])).calls = [.connected "A"]
    ∧ isConnected (run (comes 1 "A" ++ U 8 ++ whole (.close 1) ++ [.registration])) "A" = true
    ∧ (run (comes 1 "A" ++ U 8)).todo = [] := by decide +kernel

/-- **C65, missed (negation).** A participant introduces itself; the receivers are called before the monitor's is registered, and the name is entered
after the snapshot: the participant is there, and neither `IsParticipantConnected` nor the handler ever learns of it. -/
theorem C65_missed_between_receivers_and_name :
    let ops := whole (.accept 1) ++ [.event (.announce 1 "A")] ++ U 3 ++ [.io, .io, .registration] ++ U 3
    (run ops).calls = [] ∧ isConnected (run ops) "A" = false ∧ (run ops).names = [("A", 1)] ∧ (run ops).todo = [] ∧ (run ops).io = .idle := by
  decide +kernel

/-- **C65, missed (negation).** A participant that introduces itself after the handler has been called for the known participants and before it is
assigned is never reported. -/
theorem C65_missed_before_assignment :
    let ops := whole (.accept 1) ++ U 4 ++ whole (.announce 1 "A") ++ U 2 ++ [.registration]
    (run ops).calls = [] ∧ isConnected (run ops) "A" = true ∧ (run ops).todo = [] ∧ (run ops).io = .idle := by
  decide +kernel

/-- **C65, twice (negation).** A participant that is entered before the handler is called for the known participants, and whose entry is reported after
the handler has been assigned, is reported twice. -/
theorem C65_reported_twice :
    (run (whole (.accept 1) ++ U 3 ++ [.event (.announce 1 "A")] ++ U 2 ++ [.io, .io])).calls = [.connected "A", .connected "A"] := by
  decide +kernel

/-- **C65, back too early (negation).** A participant comes back before its old connection has been closed: its return is not reported, its departure is,
and from then on it is unknown although it is there. -/
theorem C65_reconnect_forgotten :
    let ops := calm [.accept 1, .announce 1 "A"] [] [] ++ comes 2 "A" ++ whole (.close 1)
    (run ops).calls = [.connected "A", .disconnected "A"] ∧ isConnected (run ops) "A" = false ∧ (run ops).peers = [(2, "A")] := by
  decide +kernel

/-- **C65, nobody goes (negation).** A connection that ends without having introduced itself is reported as the departure of a participant with an empty
name. -/
theorem C65_unknown_departure :
    (run (calm [] [] [] ++ whole (.accept 1) ++ whole (.close 1))).calls = [.disconnected ""] := by
  decide +kernel

/-- **C65, start without a participant (negation).** A required participant goes after it was reported and before the disconnected handler is set: the
controller never learns that it has gone, and starts the simulation with the next required participant. -/
theorem C65_workflow_without_participant :
    let ops := comes 1 "A" ++ U 5 ++ [.registration] ++ U 2 ++ whole (.close 1) ++ U 1 ++ comes 2 "B"
    workflows "Ctrl" ["A", "B"] ops = [["A", "B", "Ctrl"]] ∧ (run ops).peers = [(2, "B")] ∧ (run (comes 1 "A" ++ U 5 ++ [.registration] ++ U 2)).peers = [(1, "A")] := by
  decide +kernel

/-- **C65, own name (negation).** If the controller's own name is among the required names, then it never sets the workflow configuration, in any
schedule in which nobody else uses this name: the command line is accepted, and the simulation does not start. -/
theorem C65_own_name_never_starts (own : Name) (names : List Name) (hown : own ∈ names) (ops : List Op) (h : ¬ introduced ops own) :
    workflows own names ops = [] := by
  apply Classical.byContradiction
  intro hc
  exact h (C65_workflow_needs_all own names ops hc own hown)

example : (∃ k, start "Ctrl" ["A", "Ctrl"] = .ok k) ∧ ¬ introduced (comes 1 "A") "Ctrl" := by
  refine ⟨⟨_, rfl⟩, ?_⟩
  rintro ⟨c, h | h⟩ <;> simp [whole] at h

end SilKit.Props
