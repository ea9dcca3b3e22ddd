import Verif.Lemmas.Targeted
/-!
# C74: messages to one participant

Model: `Model/Targeted.lean`. `h` is any history of any number of participants on one link; `trace history h` is what happens; `history` says whether the type of
messages has a history.
-/
namespace SilKit.Props
open SilKit.Targeted SilKit.Targeted.Spec

variable {V : Type} {history : Bool}

/-- C74: after participant `p` has accepted the subscription of `q`, what arrives at `q` is what `p` has sent to all or to `q`, in the order of sending, nothing
left out, repeated or added, after at most one repeated message; all of it has arrived when everything is handled and `q` has not left. -/
theorem C74_arrive_in_order (h : List (Event V)) (p q : Nat) (hpq : p ≠ q) (a b : List (Out V)) (e : trace history h = a ++ .accepted p q :: b) :
    arrivals q p (trace history h) <+: repeated history p a ++ meantFor p q b ∧
    (Drained history h p q → Out.left p q ∉ trace history h → arrivals q p (trace history h) = repeated history p a ++ meantFor p q b) := by
  have i := run_inv (history := history) hpq h
  obtain ⟨_, f2, f3⟩ := i.since a b e
  refine ⟨(List.prefix_append ..).trans f2, ?_⟩
  intro hd hl
  have hq : q ∈ (run history h).1.remotes p := i.member.mpr ⟨by rw [show (run history h).2 = _ from e]; simp, hl⟩
  have := f3 hq
  rw [show (run history h).1.chan p q = [] from hd, List.append_nil] at this
  exact this

def targetedExample : List (Event Nat) :=
  [.subscribe 1 2, .subscribe 1 3, .call 1 (some 2) 10, .call 1 none 11, .work 1, .call 1 (some 3) 12, .work 1, .work 1, .call 1 (some 2) 13, .work 1,
    .deliver 1 2, .deliver 1 2, .deliver 1 2, .deliver 1 3, .deliver 1 3]

example : arrivals 2 1 (trace false targetedExample) = [10, 11, 13] ∧ arrivals 3 1 (trace false targetedExample) = [11, 12] := by decide
example : trace false targetedExample = [] ++ .accepted 1 2 :: (trace false targetedExample).drop 1 ∧ Drained false targetedExample 1 2
    ∧ Out.left 1 2 ∉ trace false targetedExample := by
  refine ⟨by decide, ?_, by decide⟩
  unfold Drained; decide

/-- C74: without a history (all types that are sent to simulators, but the configurations of LIN controllers) a message to one participant arrives nowhere else:
whatever arrives at `q` was sent to all or to `q`. -/
theorem C74_only_the_target (h : List (Event V)) (p q : Nat) (v : V) (hv : Out.arrived q p v ∈ trace false h) :
    v ∈ meantFor p q (trace false h) := by
  by_cases hpq : p = q
  · subst hpq
    exact absurd hv ((self_none p h).2.2 v)
  · have i := run_inv (history := false) hpq h
    have hm : v ∈ arrivals q p (run false h).2 := by
      unfold arrivals
      rw [List.mem_filterMap]
      exact ⟨_, hv, by simp⟩
    by_cases hacc : Out.accepted p q ∈ (run false h).2
    · obtain ⟨a, b, e⟩ := List.append_of_mem hacc
      obtain ⟨_, f2, _⟩ := i.since a b e
      have hm' := f2.subset (List.mem_append_left _ hm)
      simp only [repeated] at hm'
      show v ∈ meantFor p q (run false h).2
      rw [e, meantFor_append]
      exact List.mem_append_right _ hm'
    · rw [(i.before hacc).1] at hm
      cases hm

example : Out.arrived 2 1 13 ∈ trace false targetedExample := by decide

/-- C74: the calls of a participant are carried out once each and in the order in which they were made, whatever their targets; all of them, when its I/O thread
has nothing to do. -/
theorem C74_calls_in_order (h : List (Event V)) (p : Nat) :
    carriedOut p (trace history h) <+: calls p (trace history h) ∧ (Idle history h p → carriedOut p (trace history h) = calls p (trace history h)) := by
  have i := queue_inv (history := history) p h
  refine ⟨⟨_, i⟩, fun hi => ?_⟩
  rw [show (run history h).1.posted p = [] from hi, List.append_nil] at i
  exact i

example : carriedOut 1 (trace false targetedExample) = [(some 2, 10), (none, 11), (some 3, 12), (some 2, 13)] ∧ (run false targetedExample).1.posted 1 = [] := by
  decide

/-- The next call of `p` in the queue. -/
theorem next_call {h : List (Event V)} {p : Nat} {c : Option Nat × V} {cs : List (Option Nat × V)}
    (hc : calls p (trace history h) = carriedOut p (trace history h) ++ c :: cs) : (run history h).1.posted p = c :: cs := by
  have i := queue_inv (history := history) p h
  unfold trace at hc
  rw [hc] at i
  exact List.append_cancel_left i

/-- C74: when a call with the target `t` is carried out, the message is sent if the subscription of `t` is accepted and not ended, and refused otherwise. -/
theorem C74_refused_without_subscription (h : List (Event V)) (p t : Nat) (v : V) (cs : List (Option Nat × V)) (hpt : p ≠ t)
    (hc : calls p (trace history h) = carriedOut p (trace history h) ++ (some t, v) :: cs) :
    (Out.accepted p t ∈ trace history h ∧ Out.left p t ∉ trace history h →
      trace history (h ++ [.work p]) = trace history h ++ [.addressed p t v]) ∧
    (¬ (Out.accepted p t ∈ trace history h ∧ Out.left p t ∉ trace history h) →
      trace history (h ++ [.work p]) = trace history h ++ [.refused p t v]) := by
  have i := run_inv (history := history) hpt h
  have hp := next_call hc
  unfold trace
  rw [run_snoc]
  simp only [on, work, hp, sendTo]
  rw [if_neg hpt, (save_fields _ _ _).1]
  constructor
  · intro hx
    rw [if_pos (i.member.mpr hx)]
  · intro hx
    rw [if_neg (fun hm => hx (i.member.mp hm))]

example : calls 1 (trace false [.call 1 (some 2) (5 : Nat)]) = carriedOut 1 (trace false [.call 1 (some 2) (5 : Nat)]) ++ (some 2, 5) :: [] := by decide

/-- C74: a message to the own participant stays there: nothing is sent, and nothing is kept. -/
theorem C74_own_participant (h : List (Event V)) (p : Nat) (v : V) (cs : List (Option Nat × V))
    (hc : calls p (trace history h) = carriedOut p (trace history h) ++ (some p, v) :: cs) :
    trace history (h ++ [.work p]) = trace history h ++ [.toSelf p v] ∧
    (run history (h ++ [.work p])).1.chan = (run history h).1.chan ∧ (run history (h ++ [.work p])).1.last = (run history h).1.last := by
  have hp := next_call hc
  unfold trace
  rw [run_snoc]
  simp [on, work, hp, sendTo]

example : trace true [.call 1 (some 1) (5 : Nat), .work 1, .subscribe 1 2, .deliver 1 2] = [.returned 1 (some 1) 5, .toSelf 1 5, .accepted 1 2] := by decide

/-- C74 (negation): the caller never learns that the message is refused: the call returns in every state, also for a target that does not exist; and a message can
be refused although its target was subscribed when the call returned. -/
theorem C74_refusal_is_not_reported :
    (∀ (h : List (Event Nat)) (p t v : Nat), trace history (h ++ [.call p (some t) v]) = trace history h ++ [.returned p (some t) v]) ∧
    trace false [.call 1 (some 2) 5, .work 1] = [.returned 1 (some 2) 5, .refused 1 2 5] ∧
    trace false [.subscribe 1 2, .call 1 (some 2) 5, .leave 1 2, .work 1] = [.accepted 1 2, .returned 1 (some 2) 5, .left 1 2, .refused 1 2 5] := by
  refine ⟨fun h p t v => ?_, by decide, by decide⟩
  unfold trace
  rw [run_snoc]
  rfl

/-- C74 (negation): with a history, a message to one participant is repeated to whoever subscribes next, and so is one that was refused, in every state in which the
subscriber is new. -/
theorem C74_targeted_messages_are_repeated_to_others (h : List (Event V)) (p t q : Nat) (v : V) (cs : List (Option Nat × V)) (hpt : p ≠ t) (hpq : p ≠ q)
    (hc : calls p (trace true h) = carriedOut p (trace true h) ++ (some t, v) :: cs)
    (hn : Out.accepted p q ∉ trace true h) (hl : Out.left p q ∉ trace true h) (hqt : q ≠ t) :
    arrivals q p (trace true (h ++ [.work p] ++ [.subscribe p q] ++ [.deliver p q])) = [v] := by
  have i := run_inv (history := true) hpq h
  have hm : q ∉ (run true h).1.remotes p := fun hx => hn (i.member.mp hx).1
  have hg : ¬ (run true h).1.gone p q = true := fun hx => hl (i.gone.mp hx)
  have hp := next_call hc
  obtain ⟨h1, h2⟩ := i.before hn
  unfold trace
  rw [run_snoc, run_snoc, run_snoc]
  generalize (run true h).1 = s at *
  generalize (run true h).2 = tr at *
  have e0 : on true s (.work p) = sendTo true { s with posted := fun a => if a = p then cs else s.posted a } p t v := by
    simp only [on, work, hp]
  rw [e0]
  have r1 : ({ s with posted := fun a => if a = p then cs else s.posted a } : State V).remotes = s.remotes := rfl
  have r2 : ({ s with posted := fun a => if a = p then cs else s.posted a } : State V).gone = s.gone := rfl
  have r3 : ({ s with posted := fun a => if a = p then cs else s.posted a } : State V).chan = s.chan := rfl
  generalize ({ s with posted := fun a => if a = p then cs else s.posted a } : State V) = s' at *
  rw [← r1] at hm
  rw [← r2] at hg
  rw [← r3] at h2
  by_cases ht : t ∈ s'.remotes p
  · have e1 : sendTo true s' p t v = ((s'.save true p v).push p t [v], [.addressed p t v]) := by
      simp only [sendTo, if_neg hpt, (save_fields s' p v).1, if_pos ht]
    rw [e1]
    have e2 : on true ((s'.save true p v).push p t [v]) (.subscribe p q)
        = (State.push { (s'.save true p v).push p t [v] with remotes := fun a => if a = p then s'.remotes a ++ [q] else s'.remotes a } p q [v], [.accepted p q]) := by
      simp [on, subscribe, State.save, State.push, hpq, hg, hm]
    rw [e2]
    simp [on, deliver, State.push, State.save, h2, hqt, arrivals_append, h1]
    simp [arrivals]
  · have e1 : sendTo true s' p t v = (s'.save true p v, [.refused p t v]) := by
      simp only [sendTo, if_neg hpt, (save_fields s' p v).1, if_neg ht]
    rw [e1]
    have e2 : on true (s'.save true p v) (.subscribe p q)
        = (State.push { s'.save true p v with remotes := fun a => if a = p then s'.remotes a ++ [q] else s'.remotes a } p q [v], [.accepted p q]) := by
      simp [on, subscribe, State.save, State.push, hpq, hg, hm]
    rw [e2]
    simp [on, deliver, State.push, State.save, h2, arrivals_append, h1]
    simp [arrivals]

example : trace true [.subscribe 1 2, .call 1 (some 2) (5 : Nat), .work 1, .subscribe 1 3, .deliver 1 3]
    = [.accepted 1 2, .returned 1 (some 2) 5, .addressed 1 2 5, .accepted 1 3, .arrived 3 1 5] := by decide
example : trace true [.call 1 (some 2) (5 : Nat), .work 1, .subscribe 1 3, .deliver 1 3]
    = [.returned 1 (some 2) 5, .refused 1 2 5, .accepted 1 3, .arrived 3 1 5] := by decide

end SilKit.Props
