import Verif.Lemmas.LinksAccept
/-!
# Message links: late subscribers and separation of links (C27, C38)

A link is a type of messages on a network. `h` is an arbitrary history of any number of participants: services register as receivers,
participants connect and announce their subscribers, services send, participants handle the next message from another one, and connections
end. `trace off h` lists what happens; `off` says for which links the history is switched off.
-/
namespace SilKit.Props
open SilKit.Links SilKit.Links.Spec

variable {V : Type} {off : Nat → MsgType → String → Bool}

/-- What a subscriber gets first: the last value published before the subscription was accepted, unless there is no history. -/
def FromHistory (off : Nat → MsgType → String → Bool) (p : Nat) (ty : MsgType) (net : String) (before : List (Out V)) : List V :=
  if hasHistorySlot ty = true ∧ off p ty net = false then lastValue (published p ty net before) else []

theorem fromHistory_eq (off : Nat → MsgType → String → Bool) (p : Nat) (ty : MsgType) (net : String) (a : List (Out V)) :
    FromHistory off p ty net a = hist off p ty net a := by
  unfold FromHistory hist
  cases hasHistorySlot ty <;> cases off p ty net <;> simp

/-- Nothing else than messages from another participant comes in from another participant. -/
theorem incoming_remote {q svc : Nat} {ty : MsgType} {net : String} {p : Nat} (hpq : p ≠ q) (b : List (Out V)) :
    b.filterMap (incoming q svc ty net p) = arrived q p ty net b := by
  unfold arrived
  refine Links.filterMap_congr ?_
  intro o _
  cases o <;> simp [incoming, hpq]

/-- Suppose participant `p` accepts the subscription of participant `q` after `a`, and service `svc` of `q` is registered by then.
Then the service receives a prefix of: the last value published before (if there is a history), then all values published
after. Nothing is skipped, repeated or out of order; and once everything sent to `q` has been handled, it has received all of it. -/
theorem C27_late_subscriber_receives_last_value_then_all_partial (h : List (Event V)) (p q svc : Nat) (ty : MsgType) (net : String) (a b : List (Out V))
    (hn : NamedUniquely ty) (hpq : p ≠ q) (e : trace off h = a ++ .accepted p q ty net :: b) (hr : Out.registered q ty net svc ∈ a) :
    received q svc ty net p (trace off h) <+: FromHistory off p ty net a ++ published p ty net b ∧
    (Drained off h p q → received q svc ty net p (trace off h) = FromHistory off p ty net a ++ published p ty net b) := by
  obtain ⟨a1, a2, ea, hna⟩ := List.eq_append_cons_of_mem hr
  have f := run_F (off := off) (p := p) (q := q) (net := net) hn h
  obtain ⟨f1, f2, f3, f4⟩ := f.since a b e
  have hrec : received q svc ty net p (trace off h) = arrived q p ty net (trace off h) := by
    have e1 : trace off h = a1 ++ .registered q ty net svc :: (a2 ++ .accepted p q ty net :: b) := by rw [e, ea]; simp
    rw [show received q svc ty net p (trace off h) = _ from (run_R (off := off) q svc ty net p h).since a1 _ e1 hna, incoming_remote hpq]
    have h0 : arrived q p ty net a1 = [] := by
      rw [ea, arrived_append] at f1
      exact (List.append_eq_nil_iff.1 f1).1
    rw [e1, arrived_append (t := a1), h0, List.nil_append]; rfl
  rw [hrec, fromHistory_eq]
  refine ⟨(List.prefix_append _ _).trans f2, ?_⟩
  rintro ⟨ho, hc⟩
  rcases f4 with hs | hs
  · have := f3 hs
    have hfl : flight (run off h).1 p q ty net = [] := by unfold flight; rw [hc]; rfl
    rw [hfl, List.append_nil] at this
    exact this
  · rw [ho] at hs; cases hs

/-- The types of data messages, participant states and workflow configurations are uniquely named. -/
theorem C27_data_messages_are_named_uniquely :
    NamedUniquely .dataMessage ∧ NamedUniquely .participantStatus ∧ NamedUniquely .workflowConfiguration ∧ NamedUniquely .participantDiscovery := by
  refine ⟨?_, ?_, ?_, ?_⟩ <;> intro ty' e <;> cases ty' <;> first | rfl | exact absurd e (by decide +kernel)

/-- If all is acknowledged, the subscription is accepted: a service registers at any time before or after its participant `q` has announced
its subscribers to `p`; once `p` has handled everything from `q`, the subscription is accepted. -/
theorem C27_subscription_is_accepted (h1 h2 : List (Event V)) (p q svc : Nat) (ty : MsgType) (net : String) (hn : NamedUniquely ty)
    (ho : (run off h1).1.status q p = .isOpen) (hr : Out.registered q ty net svc ∈ trace off (h1 ++ .announce q p :: h2))
    (hd : Drained off (h1 ++ .announce q p :: h2) q p) : Out.accepted p q ty net ∈ trace off (h1 ++ .announce q p :: h2) := by
  obtain ⟨i, hi⟩ := registered_receiver hn _ hr
  rcases (run_Asked (net := net) hn h1 h2 ho).ask hd.1 i hi with h | h
  · rw [hd.2] at h; cases h
  · exact h

/-- A subscription is accepted at most once: nobody is sent anything twice. -/
theorem C27_accepted_once [DecidableEq V] (h : List (Event V)) (p q : Nat) (ty : MsgType) (net : String) (hn : NamedUniquely ty) :
    (trace off h).count (.accepted p q ty net) ≤ 1 := run_count hn h

/-- A service that registers after another one of the same participant receives the end of what the other one receives. -/
theorem C27_further_subscriber_receives_the_rest_partial (h : List (Event V)) (p q svc svc' : Nat) (ty : MsgType) (net : String) (a b : List (Out V))
    (hpq : p ≠ q) (e : trace off h = a ++ .registered q ty net svc' :: b) (hr : Out.registered q ty net svc ∈ a)
    (hnew : Out.registered q ty net svc' ∉ a) :
    received q svc ty net p (trace off h) = received q svc ty net p a ++ received q svc' ty net p (trace off h) := by
  obtain ⟨a1, a2, ea, hna⟩ := List.eq_append_cons_of_mem hr
  have e1 : trace off h = a1 ++ .registered q ty net svc :: (a2 ++ .registered q ty net svc' :: b) := by rw [e, ea]; simp
  have r' := (run_R (off := off) q svc' ty net p h).since a b e hnew
  have r := (run_R (off := off) q svc ty net p h).since a1 _ e1 hna
  obtain ⟨h1, e2⟩ := registered_boundary h a b e
  have r1 := (run_R (off := off) q svc ty net p h1).since a1 a2 (by rw [e2, ea]) hna
  rw [e2] at r1
  rw [show received q svc ty net p (trace off h) = _ from r, show received q svc' ty net p (trace off h) = _ from r', r1]
  rw [incoming_remote hpq, incoming_remote hpq, incoming_remote hpq, arrived_append]; rfl

/-- A subscriber in the publisher's own participant receives exactly the values that other services of the participant publish
on the link after it has registered. -/
theorem C27_local_subscriber_receives_later_values_partial (h : List (Event V)) (p svc : Nat) (ty : MsgType) (net : String) (a b : List (Out V))
    (e : trace off h = a ++ .registered p ty net svc :: b) (hnew : Out.registered p ty net svc ∉ a) :
    received p svc ty net p (trace off h) = b.filterMap (fun
      | .published p' svc' ty' net' v => if p' = p ∧ ty' = ty ∧ net' = net ∧ SelfReceives ty svc svc' then some v else none
      | _ => none) := by
  rw [show received p svc ty net p (trace off h) = _ from (run_R (off := off) p svc ty net p h).since a b e hnew]
  refine Links.filterMap_congr ?_
  intro o ho
  cases o with
  | arrived q' p' ty' net' v =>
      have hno : ¬ (q' = p ∧ p' = p ∧ ty' = ty ∧ net' = net) := by
        rintro ⟨rfl, rfl, rfl, rfl⟩
        have : Out.arrived p' p' ty' net' v ∈ trace off h := by rw [e]; exact List.mem_append_right _ (List.mem_cons_of_mem _ ho)
        exact no_self_arrival h this
      simp [incoming, hno]
  | _ => simp [incoming]

/-! ## What does not hold -/

/-- Participant 1 publishes 7 and 8; participant 2 joins with the subscribing service 5. -/
def joinLate : List (Event Nat) :=
  [.send 1 0 .dataMessage "net" 7, .send 1 0 .dataMessage "net" 8, .connect 2 1, .register 2 .dataMessage "net" 5,
   .announce 2 1, .deliver 2 1, .deliver 2 1, .deliver 1 2, .send 1 0 .dataMessage "net" 9, .deliver 1 2]

/-- Non-vacuity: the late subscriber receives the last value and then all later ones. -/
example : received 2 5 .dataMessage "net" 1 (trace (fun _ _ _ => false) joinLate) = [8, 9] := by decide +kernel
example : received 2 5 .dataMessage "net" 1 (trace (fun _ _ _ => true) joinLate) = [9] := by decide +kernel
example : ∃ a b, trace (fun _ _ _ => false) joinLate = a ++ .accepted 1 2 .dataMessage "net" :: b ∧ Out.registered 2 .dataMessage "net" 5 ∈ a :=
  ⟨(trace (fun _ _ _ => false) joinLate).take 3, (trace (fun _ _ _ => false) joinLate).drop 4, by decide +kernel, by decide +kernel⟩
example : Drained (fun _ _ _ => false) joinLate 1 2 := by constructor <;> decide +kernel
example : Drained (fun _ _ _ => false) joinLate 2 1 := by constructor <;> decide +kernel

/-- A second late subscriber of the same participant does not receive the most recently published value. -/
theorem C27_second_subscriber_gets_no_history :
    ∃ (h : List (Event Nat)), 9 ∈ published 1 .dataMessage "net" (trace (fun _ _ _ => false) h) ∧
      Out.registered 2 .dataMessage "net" 6 ∈ trace (fun _ _ _ => false) h ∧ Drained (fun _ _ _ => false) h 1 2 ∧ Drained (fun _ _ _ => false) h 2 1 ∧
      received 2 6 .dataMessage "net" 1 (trace (fun _ _ _ => false) h) = [] :=
  ⟨joinLate ++ [.register 2 .dataMessage "net" 6], by decide +kernel, by decide +kernel,
    by constructor <;> decide +kernel, by constructor <;> decide +kernel, by decide +kernel⟩

/-- A late subscriber in the publisher's own participant does not receive the most recently published value. -/
theorem C27_local_subscriber_gets_no_history :
    ∃ (h : List (Event Nat)), 7 ∈ published 1 .dataMessage "net" (trace (fun _ _ _ => false) h) ∧
      Out.registered 1 .dataMessage "net" 6 ∈ trace (fun _ _ _ => false) h ∧
      received 1 6 .dataMessage "net" 1 (trace (fun _ _ _ => false) h) = [] :=
  ⟨[.send 1 0 .dataMessage "net" 7, .register 1 .dataMessage "net" 6], by decide +kernel, by decide +kernel, by decide +kernel⟩

/-! ## Separation of links (C38) -/

/-- Whatever a service receives was published by the participant it is said to come from, on the same network and with the same type,
and the service had registered for just this. This holds for all types. -/
theorem C38_received_values_were_published (h : List (Event V)) (q svc : Nat) (ty : MsgType) (net : String) (p : Nat) (v : V)
    (hr : Out.received q svc ty net p v ∈ trace off h) :
    v ∈ published p ty net (trace off h) ∧ Out.registered q ty net svc ∈ trace off h := by
  have r := run_R (off := off) q svc ty net p h
  have hm : v ∈ received q svc ty net p (trace off h) := by
    unfold received
    rw [List.mem_filterMap]
    exact ⟨_, hr, by simp⟩
  by_cases hreg : Out.registered q ty net svc ∈ trace off h
  · refine ⟨?_, hreg⟩
    obtain ⟨a, b, e, hna⟩ := List.eq_append_cons_of_mem hreg
    rw [show received q svc ty net p (trace off h) = _ from r.since a b e hna, List.mem_filterMap] at hm
    obtain ⟨o, ho, he⟩ := hm
    have ho' : o ∈ trace off h := by rw [e]; exact List.mem_append_right _ (List.mem_cons_of_mem _ ho)
    cases o with
    | arrived q' p' ty' net' v' =>
        simp [incoming] at he
        obtain ⟨⟨rfl, rfl, rfl, rfl⟩, rfl⟩ := he
        exact (run_P h).arr _ _ _ _ _ ho'
    | published x svc' ty' net' v' =>
        simp [incoming] at he
        obtain ⟨⟨rfl, rfl, rfl, rfl, -⟩, rfl⟩ := he
        unfold published
        rw [List.mem_filterMap]
        exact ⟨_, ho', by simp⟩
    | _ => simp [incoming] at he
  · rw [show received q svc ty net p (trace off h) = [] from r.notYet hreg] at hm
    cases hm

/-- Bytes are decoded as another type than they were sent as only between the configurations of LIN and FlexRay controllers, and
therefore never where no network carries both. -/
theorem C38_decoded_as_sent_partial (h : List (Event V)) (q p : Nat) (ty ty' : MsgType) (net : String) (hg : Out.garbled q p ty ty' net ∈ trace off h) :
    (ty = .linControllerConfig ∧ ty' = .frControllerConfig) ∨ (ty = .frControllerConfig ∧ ty' = .linControllerConfig) := by
  obtain ⟨e, hne⟩ := (run_P h).garb q p ty ty' net hg
  have all : ∀ ty ∈ allTypes, ∀ ty' ∈ allTypes, serdesName ty = serdesName ty' → ty ≠ ty' →
      (ty = .linControllerConfig ∧ ty' = .frControllerConfig) ∨ (ty = .frControllerConfig ∧ ty' = .linControllerConfig) := by decide +kernel
  exact all ty (mem_allTypes ty) ty' (mem_allTypes ty') e hne

/-- With a LIN and a FlexRay bus of the same name, the configuration of a FlexRay controller is decoded as one of a LIN controller. -/
theorem C38_lin_and_flexray_networks_of_one_name_are_mixed_up :
    ∃ h : List (Event Nat), Out.garbled 2 1 .linControllerConfig .frControllerConfig "bus" ∈ trace (fun _ _ _ => false) h :=
  ⟨[.connect 2 1, .register 2 .linControllerConfig "bus" 5, .announce 2 1, .deliver 2 1, .deliver 2 1, .send 1 0 .frControllerConfig "bus" 7,
    .deliver 1 2, .deliver 1 2], by decide +kernel⟩

/-- And who registers for both never receives anything for the second one, although it is sent. -/
theorem C38_second_of_two_mixed_up_links_is_deaf :
    ∃ h : List (Event Nat), Out.registered 2 .frControllerConfig "bus" 6 ∈ trace (fun _ _ _ => false) h ∧ Drained (fun _ _ _ => false) h 1 2 ∧
      7 ∈ published 1 .frControllerConfig "bus" (trace (fun _ _ _ => false) h) ∧
      Out.accepted 1 2 .frControllerConfig "bus" ∈ trace (fun _ _ _ => false) h ∧
      received 2 6 .frControllerConfig "bus" 1 (trace (fun _ _ _ => false) h) = [] :=
  ⟨[.connect 2 1, .register 2 .linControllerConfig "bus" 5, .register 2 .frControllerConfig "bus" 6, .announce 2 1, .deliver 2 1, .deliver 2 1,
    .deliver 2 1, .send 1 0 .frControllerConfig "bus" 7, .deliver 1 2, .deliver 1 2],
    by decide +kernel, by constructor <;> decide +kernel, by decide +kernel, by decide +kernel, by decide +kernel⟩

/-- Non-vacuity of `C38_received_values_were_published`. -/
example : Out.received 2 5 .dataMessage "net" 1 9 ∈ trace (fun _ _ _ => false) joinLate := by decide +kernel

end SilKit.Props
