import Verif.Lemmas.DataFlow
import Verif.Props.Links
/-!
# Publish/subscribe from end to end (C56)

`h` is an arbitrary history of any number of participants: they create publishers and subscribers at any time, learn of each other's publishers
in any order, publish, connect, announce their subscriptions, handle the next message of a connection, and end connections. Publisher `u`
belongs to participant `p`; subscriber `j` belongs to participant `q`.
-/
namespace SilKit.Props
open SilKit.DataFlow SilKit.Discovery SilKit.Spec SilKit.Labels
open SilKit.Links (MsgType)

variable {V : Type} {off : Nat → MsgType → String → Bool}

/-! ## What the links make of it -/

theorem mem_handled {q j p u : Nat} {v : V} {t : List (Links.Out V)} (hv : v ∈ handled q j p u t) :
    Links.Out.received q (internal j) .dataMessage (channel u) p v ∈ t := by
  unfold handled Links.Spec.received at hv
  obtain ⟨o, ho, he⟩ := List.mem_filterMap.1 hv
  cases o <;> simp only [Option.ite_none_right_eq_some, reduceCtorEq] at he
  obtain ⟨⟨rfl, rfl, rfl, rfl, rfl⟩, he⟩ := he
  cases he
  exact ho

theorem mem_publishedBy {p u : Nat} {v : V} {t : List (Links.Out V)} (hv : v ∈ publishedBy p u t) :
    ∃ svc, Links.Out.published p svc .dataMessage (channel u) v ∈ t := by
  unfold publishedBy Links.Spec.published at hv
  obtain ⟨o, ho, he⟩ := List.mem_filterMap.1 hv
  cases o <;> simp only [Option.ite_none_right_eq_some, reduceCtorEq] at he
  obtain ⟨⟨rfl, rfl, rfl⟩, he⟩ := he
  cases he
  exact ⟨_, ho⟩

theorem publishedBy_append (p u : Nat) (t t' : List (Links.Out V)) : publishedBy p u (t ++ t') = publishedBy p u t ++ publishedBy p u t' :=
  Links.published_append _ _ _ _ _

theorem hist_suffix (p u : Nat) (a : List (Links.Out V)) : Links.hist off p .dataMessage (channel u) a <:+ publishedBy p u a := by
  unfold Links.hist
  split
  · unfold Links.Spec.lastValue
    show _ <:+ Links.Spec.published p .dataMessage (channel u) a
    generalize Links.Spec.published p .dataMessage (channel u) a = l
    rcases List.eq_nil_or_concat l with rfl | ⟨l', v, rfl⟩
    · exact List.suffix_refl _
    · simp
  · exact List.nil_suffix

/-- In its own participant, a subscriber gets exactly what is published after it has been connected. -/
theorem handled_local (h : List (Event V)) (p j u : Nat) (a b : List (Links.Out V))
    (e : trace off h = a ++ .registered p .dataMessage (channel u) (internal j) :: b) (hna : Links.Out.registered p .dataMessage (channel u) (internal j) ∉ a) :
    handled p j p u (trace off h) = publishedBy p u b := by
  unfold handled
  rw [show Links.Spec.received p (internal j) .dataMessage (channel u) p (trace off h) = _ from
    C27_local_subscriber_receives_later_values_partial (runControl h).2 p (internal j) .dataMessage (channel u) a b e hna]
  unfold publishedBy Links.Spec.published
  refine Links.filterMap_congr ?_
  intro o ho
  cases o with
  | published p' svc' ty' net' v =>
    simp only
    by_cases hc : p' = p ∧ ty' = .dataMessage ∧ net' = channel u
    · obtain ⟨rfl, rfl, rfl⟩ := hc
      have hm : Links.Out.published p' svc' .dataMessage (channel u) v ∈ Links.Spec.trace off (runControl h).2 := by
        rw [show Links.Spec.trace off (runControl h).2 = trace off h from rfl, e]
        exact List.mem_append_right _ (List.mem_cons_of_mem _ ho)
      have h0 := ((inv_run h).sent _ _ _ _ _ (published_event hm)).1
      subst h0
      rw [if_pos (show p' = p' ∧ MsgType.dataMessage = .dataMessage ∧ channel u = channel u ∧ Links.SelfReceives .dataMessage (internal j) 0 from
        ⟨rfl, rfl, rfl, by decide, Or.inr (by simp [internal])⟩), if_pos ⟨rfl, rfl, rfl⟩]
    · rw [if_neg hc, if_neg (fun x => hc ⟨x.1, x.2.1, x.2.2.1⟩)]
  | _ => rfl

/-- From another participant, a subscriber gets what arrives after it has been connected. -/
theorem handled_remote (h : List (Event V)) (p q j u : Nat) (hpq : p ≠ q) (a b : List (Links.Out V))
    (e : trace off h = a ++ .registered q .dataMessage (channel u) (internal j) :: b) (hna : Links.Out.registered q .dataMessage (channel u) (internal j) ∉ a) :
    handled q j p u (trace off h) = Links.arrived q p .dataMessage (channel u) b := by
  have := (Links.run_R (off := off) q (internal j) .dataMessage (channel u) p (runControl h).2).since a b e hna
  rw [incoming_remote hpq] at this
  exact this

theorem handled_suffix_arrived (h : List (Event V)) (p q j u : Nat) (hpq : p ≠ q) :
    handled q j p u (trace off h) <:+ Links.arrived q p .dataMessage (channel u) (trace off h) := by
  by_cases hr : Links.Out.registered q .dataMessage (channel u) (internal j) ∈ trace off h
  · obtain ⟨a, b, e, hna⟩ := List.eq_append_cons_of_mem hr
    rw [handled_remote h p q j u hpq a b e hna, e, show a ++ Links.Out.registered q .dataMessage (channel u) (internal j) :: b =
      (a ++ [.registered q .dataMessage (channel u) (internal j)]) ++ b by simp, Links.arrived_append]
    exact List.suffix_append _ _
  · rw [show handled q j p u (trace off h) = [] from (Links.run_R (off := off) q (internal j) .dataMessage (channel u) p (runControl h).2).notYet hr]
    exact List.nil_suffix

/-! ## The theorems -/

/-- Whatever a subscriber handles was published by the publisher it is attributed to, and this publisher matches the subscriber: same topic, the media
types agree, the labels agree. -/
theorem C56_only_matching_publishers_are_heard (h : List (Event V)) (q j p u : Nat) (v : V) (hv : v ∈ handled q j p u (trace off h)) :
    v ∈ publishedBy p u (trace off h) ∧
    ∃ s topic mediaType i, Created h u p s ∧ .subscribe topic mediaType i ∈ (runControl h).1.news q ∧ i.handler = j ∧ Matches topic mediaType i s := by
  obtain ⟨h1, h2⟩ := C38_received_values_were_published (off := off) _ _ _ _ _ _ _ (mem_handled hv)
  refine ⟨h1, ?_⟩
  obtain ⟨svc, h3⟩ := mem_publishedBy h1
  obtain ⟨-, -, u', s, e1, h4⟩ := (inv_run h).sent _ _ _ _ _ (published_event h3)
  cases channel_inj e1
  obtain ⟨-, j', u', t, m, i, p', s', e2, e3, h5, h6, h7, h8⟩ := (inv_run h).reg _ _ _ _ (registered_event.1 h2)
  cases channel_inj e3
  rw [h4] at h7
  cases h7
  exact ⟨s, t, m, i, h4, h5, by rw [h6]; simpa [internal] using e2.symm, h8⟩

/-- A subscriber handles a contiguous part of what a publisher publishes: in order, nothing twice, nothing left out in between. This holds at any time,
also if connections end, and for publishers and subscribers in one participant. -/
theorem C56_handled_in_order_without_gaps (h : List (Event V)) (q j p u : Nat) : handled q j p u (trace off h) <:+: publishedBy p u (trace off h) := by
  by_cases hpq : p = q
  · subst hpq
    by_cases hr : Links.Out.registered p .dataMessage (channel u) (internal j) ∈ trace off h
    · obtain ⟨a, b, e, hna⟩ := List.eq_append_cons_of_mem hr
      rw [handled_local h p j u a b e hna, e, show a ++ Links.Out.registered p .dataMessage (channel u) (internal j) :: b =
        (a ++ [.registered p .dataMessage (channel u) (internal j)]) ++ b by simp, publishedBy_append]
      exact (List.suffix_append _ _).isInfix
    · rw [show handled p j p u (trace off h) = [] from (Links.run_R (off := off) p (internal j) .dataMessage (channel u) p (runControl h).2).notYet hr]
      exact (List.nil_suffix).isInfix
  · have f := Links.run_F (off := off) (p := p) (q := q) (net := channel u) C27_data_messages_are_named_uniquely.1 (runControl h).2
    refine (handled_suffix_arrived h p q j u hpq).isInfix.trans ?_
    by_cases ha : Links.Out.accepted p q .dataMessage (channel u) ∈ trace off h
    · obtain ⟨a, b, e, -⟩ := List.eq_append_cons_of_mem ha
      obtain ⟨-, f2, -, -⟩ := f.since a b e
      refine ((List.prefix_append _ _).trans f2).isInfix.trans ?_
      rw [e, show a ++ Links.Out.accepted p q .dataMessage (channel u) :: b = (a ++ [.accepted p q .dataMessage (channel u)]) ++ b by simp,
        publishedBy_append]
      obtain ⟨l, hl⟩ := hist_suffix (off := off) p u a
      refine List.IsSuffix.isInfix ⟨l, ?_⟩
      rw [← List.append_assoc, hl, publishedBy_append]
      simp [publishedBy, Links.Spec.published]
    · rw [show Links.arrived q p .dataMessage (channel u) (trace off h) = [] from (f.notYet ha).1]
      exact (List.nil_suffix).isInfix

/-- Once everything that `p` has sent to `q` is handled, a subscriber of `q` has handled everything that the publisher has published, from some point on. -/
theorem C56_handled_up_to_the_end (h : List (Event V)) (q j p u : Nat) (hpq : p ≠ q) (hd : DataFlow.Drained off h p q) :
    handled q j p u (trace off h) <:+ publishedBy p u (trace off h) := by
  have f := Links.run_F (off := off) (p := p) (q := q) (net := channel u) C27_data_messages_are_named_uniquely.1 (runControl h).2
  refine (handled_suffix_arrived h p q j u hpq).trans ?_
  by_cases ha : Links.Out.accepted p q .dataMessage (channel u) ∈ trace off h
  · obtain ⟨a, b, e, -⟩ := List.eq_append_cons_of_mem ha
    obtain ⟨-, -, f3, f4⟩ := f.since a b e
    rcases f4 with f4 | f4
    · have f5 := f3 f4
      have hfl : Links.flight (Links.Spec.run off (runControl h).2).1 p q .dataMessage (channel u) = [] := by unfold Links.flight; rw [hd.2]; rfl
      rw [hfl, List.append_nil] at f5
      rw [show Links.arrived q p .dataMessage (channel u) (trace off h) = _ from f5, e,
        show a ++ Links.Out.accepted p q .dataMessage (channel u) :: b = (a ++ [.accepted p q .dataMessage (channel u)]) ++ b by simp, publishedBy_append]
      obtain ⟨l, hl⟩ := hist_suffix (off := off) p u a
      refine ⟨l, ?_⟩
      rw [← List.append_assoc, hl, publishedBy_append]
      simp [publishedBy, Links.Spec.published]
    · rw [hd.1] at f4; cases f4
  · rw [show Links.arrived q p .dataMessage (channel u) (trace off h) = [] from (f.notYet ha).1]
    exact List.nil_suffix

/-- A matching pair that discovery has brought together is connected. -/
theorem meets_registered {h : List (Event V)} {q : Nat} {topic mediaType : String} {i : Info} {s : Service} (hm : Meets h q topic mediaType i s) :
    Links.Event.register q .dataMessage (channel s.id) (internal i.handler) ∈ (runControl h).2 := by
  obtain ⟨h1, h2, h3, h4⟩ := hm
  obtain ⟨sub, g1, -, g2⟩ := connections_exact ((inv_run h).hist q) h1 h4
  exact (inv_run h).conn q i.handler sub s.id g1 ((g2 s.id).2 ⟨s, h2, rfl, h3.2.1, h3.2.2⟩)

theorem trace_split (h1 h2 : List (Event V)) : ∃ t, trace off (h1 ++ h2) = trace off h1 ++ t := by
  obtain ⟨es, e⟩ := runControl_split h1 h2
  unfold trace
  rw [e]
  exact links_split _ _

/-- Participants `p` and `q` are connected after `h1`: `q` has announced its subscriptions to `p`, and `p` has handled them. -/
def Acquainted (off : Nat → MsgType → String → Bool) (h1 : List (Event V)) (p q : Nat) : Prop :=
  DataFlow.Drained off h1 q p ∧ ∃ a b, h1 = a ++ .announce q p :: b ∧ (Links.Spec.run off (runControl a).2).1.status q p = .isOpen

theorem acquainted_accepted {h1 : List (Event V)} {p q : Nat} (ha : Acquainted off h1 p q) {net : String} {svc : Nat}
    (hr : Links.Event.register q .dataMessage net svc ∈ (runControl h1).2) : Links.Out.accepted p q .dataMessage net ∈ trace off h1 := by
  obtain ⟨hd, a, b, e, ho⟩ := ha
  have e1 : runControl (a ++ [.announce q p]) = ((runControl a).1, (runControl a).2 ++ [.announce q p]) := by rw [runControl_append]; rfl
  obtain ⟨es, e2⟩ := runControl_split (a ++ [.announce q p]) b
  have e3 : (runControl h1).2 = (runControl a).2 ++ .announce q p :: es := by
    rw [e, show a ++ Event.announce q p :: b = (a ++ [.announce q p]) ++ b by simp, e2, e1]; simp
  have hr' := registered_event (off := off).2 hr
  unfold trace
  unfold DataFlow.Drained at hd
  rw [e3] at hr' hd ⊢
  exact C27_subscription_is_accepted _ _ p q svc .dataMessage net C27_data_messages_are_named_uniquely.1 ho hr' hd

/-- Nothing is lost: suppose that after `h1` participant `q` has a subscriber and knows of a matching publisher of participant `p`, and that the two
participants are connected and `p` has handled the subscriptions of `q`. Then the subscriber handles every value that is published from then on, once
everything that `p` has sent to `q` is handled, whatever else happens in between. Partial: `Meets` excludes labels that discovery overlooks, see `C56_matching_subscriber_may_hear_nothing`. -/
theorem C56_matching_subscriber_handles_all_later_values_partial (h1 h2 : List (Event V)) (p q : Nat) (topic mediaType : String) (i : Info) (s : Service) (hpq : p ≠ q)
    (hm : Meets h1 q topic mediaType i s) (ha : Acquainted off h1 p q) (hd : DataFlow.Drained off (h1 ++ h2) p q) :
    ∃ t2, trace off (h1 ++ h2) = trace off h1 ++ t2 ∧ publishedBy p s.id t2 <:+ handled q i.handler p s.id (trace off (h1 ++ h2)) ∧
      handled q i.handler p s.id (trace off (h1 ++ h2)) <:+ publishedBy p s.id (trace off (h1 ++ h2)) := by
  obtain ⟨t2, et⟩ := trace_split (off := off) h1 h2
  refine ⟨t2, et, ?_, C56_handled_up_to_the_end _ _ _ _ _ hpq hd⟩
  have hreg := meets_registered hm
  have hacc := acquainted_accepted ha hreg
  obtain ⟨a, b, e, hna⟩ := List.eq_append_cons_of_mem (registered_event (off := off).2 hreg)
  have e' : trace off (h1 ++ h2) = a ++ .registered q .dataMessage (channel s.id) (internal i.handler) :: (b ++ t2) := by
    rw [et, show trace off h1 = _ from e]; simp
  rw [handled_remote _ p q _ _ hpq a _ e' hna, Links.arrived_append]
  refine List.IsSuffix.trans ?_ (List.suffix_append _ _)
  obtain ⟨a', b', e1, -⟩ := List.eq_append_cons_of_mem hacc
  have e1' : trace off (h1 ++ h2) = a' ++ .accepted p q .dataMessage (channel s.id) :: (b' ++ t2) := by rw [et, e1]; simp
  have f := Links.run_F (off := off) (p := p) (q := q) (net := channel s.id) C27_data_messages_are_named_uniquely.1 (runControl h1).2
  have f' := Links.run_F (off := off) (p := p) (q := q) (net := channel s.id) C27_data_messages_are_named_uniquely.1 (runControl (h1 ++ h2)).2
  obtain ⟨-, g2, -, -⟩ := f.since a' b' e1
  obtain ⟨-, -, k3, k4⟩ := f'.since a' _ e1'
  rcases k4 with k4 | k4
  · have k5 := k3 k4
    have hfl : Links.flight (Links.Spec.run off (runControl (h1 ++ h2)).2).1 p q .dataMessage (channel s.id) = [] := by unfold Links.flight; rw [hd.2]; rfl
    rw [hfl, List.append_nil] at k5
    have k6 : Links.arrived q p .dataMessage (channel s.id) (trace off (h1 ++ h2)) = _ := k5
    rw [et, Links.arrived_append, Links.published_append, ← List.append_assoc] at k6
    obtain ⟨l, hl⟩ := (List.prefix_append _ _).trans g2
    rw [← hl, List.append_assoc] at k6
    have k7 := List.append_cancel_left k6
    exact ⟨l, k7.symm⟩
  · rw [hd.1] at k4; cases k4

/-- The same within one participant, where there is nothing to wait for. -/
theorem C56_local_subscriber_handles_all_later_values_partial (h1 h2 : List (Event V)) (p : Nat) (topic mediaType : String) (i : Info) (s : Service)
    (hm : Meets h1 p topic mediaType i s) :
    ∃ t2, trace off (h1 ++ h2) = trace off h1 ++ t2 ∧ publishedBy p s.id t2 <:+ handled p i.handler p s.id (trace off (h1 ++ h2)) ∧
      handled p i.handler p s.id (trace off (h1 ++ h2)) <:+ publishedBy p s.id (trace off (h1 ++ h2)) := by
  obtain ⟨t2, et⟩ := trace_split (off := off) h1 h2
  refine ⟨t2, et, ?_⟩
  obtain ⟨a, b, e, hna⟩ := List.eq_append_cons_of_mem (registered_event (off := off).2 (meets_registered hm))
  have e' : trace off (h1 ++ h2) = a ++ .registered p .dataMessage (channel s.id) (internal i.handler) :: (b ++ t2) := by
    rw [et, show trace off h1 = _ from e]; simp
  rw [handled_local _ p _ _ a _ e' hna, e', show a ++ Links.Out.registered p .dataMessage (channel s.id) (internal i.handler) :: (b ++ t2) =
      (a ++ [.registered p .dataMessage (channel s.id) (internal i.handler)]) ++ (b ++ t2) by simp]
  refine ⟨?_, ?_⟩
  · rw [publishedBy_append]; exact List.suffix_append _ _
  · rw [publishedBy_append p s.id (a ++ _)]; exact List.suffix_append _ _

/-- A late joiner: if the subscriber is connected when `p` accepts the subscription of `q` after `a`, it handles the last value published before (unless the
history is switched off) and then all that is published later. -/
theorem C56_late_joiner_handles_last_value_then_all (h : List (Event V)) (p q j u : Nat) (a b : List (Links.Out V)) (hpq : p ≠ q)
    (e : trace off h = a ++ .accepted p q .dataMessage (channel u) :: b) (hr : Links.Out.registered q .dataMessage (channel u) (internal j) ∈ a)
    (hd : DataFlow.Drained off h p q) :
    handled q j p u (trace off h) = (if off p .dataMessage (channel u) then [] else (publishedBy p u a).getLast?.toList) ++ publishedBy p u b := by
  have := (C27_late_subscriber_receives_last_value_then_all_partial (off := off) (runControl h).2 p q (internal j) .dataMessage (channel u) a b
    C27_data_messages_are_named_uniquely.1 hpq e hr).2 hd
  refine this.trans ?_
  unfold FromHistory
  cases off p .dataMessage (channel u) <;> rfl

/-! ## Examples -/

/-- Participant 1 publishes topic "A"; participant 2 has a matching subscriber 5 and one for another topic, 6. -/
def pubA : Service := { id := 10, controllerType := dataPublisher, key := "A", mediaType := "m", labels := [{ key := "k", value := "v", kind := .mandatory }] }

def subA : Info := { handler := 5, labels := [{ key := "k", value := "v", kind := .mandatory }] }

def gatherA : List (Event Nat) :=
  [.createPublisher 1 pubA, .publish 10 7, .publish 10 8, .connect 1 2, .connect 2 1, .createSubscriber 2 "A" "" subA, .createSubscriber 2 "B" "" { subA with handler := 6 },
   .learn 2 10, .announce 2 1, .deliver 2 1, .deliver 2 1]

def tellA : List (Event Nat) := [.publish 10 9, .deliver 1 2, .deliver 1 2, .deliver 1 2, .deliver 1 2]

/-- Non-vacuity: the subscriber joins late, gets the last value and all later ones; the subscriber of another topic gets nothing. -/
example : handled 2 5 1 10 (trace (fun _ _ _ => false) (gatherA ++ tellA)) = [8, 9] ∧ handled 2 6 1 10 (trace (fun _ _ _ => false) (gatherA ++ tellA)) = [] := by
  decide +kernel

example : Meets gatherA 2 "A" "" subA pubA := by
  refine ⟨by decide +kernel, by decide +kernel, by unfold Matches; decide +kernel, ?_⟩
  intro s' hs _ _
  have : s' = pubA := by
    have e : (runControl gatherA).1.news 2 = [.subscribe "A" "" subA, .subscribe "B" "" { subA with handler := 6 }, .publish pubA] := by decide +kernel
    rw [e] at hs
    simpa using hs
  subst this
  simp [Indexable, OptionalKeysIn, subA, pubA]

example : Acquainted (fun _ _ _ => false) gatherA 1 2 :=
  ⟨by constructor <;> decide +kernel, gatherA.take 8, gatherA.drop 9, by decide +kernel, by decide +kernel⟩

example : DataFlow.Drained (fun _ _ _ => false) (gatherA ++ tellA) 1 2 := by constructor <;> decide +kernel

example : ∃ a b, trace (fun _ _ _ => false) (gatherA ++ tellA) = a ++ .accepted 1 2 .dataMessage (channel 10) :: b ∧
    Links.Out.registered 2 .dataMessage (channel 10) (internal 5) ∈ a :=
  ⟨(trace (fun _ _ _ => false) (gatherA ++ tellA)).take 3, (trace (fun _ _ _ => false) (gatherA ++ tellA)).drop 4, by decide +kernel, by decide +kernel⟩

/-- Within one participant. -/
def localA : List (Event Nat) := [.createPublisher 1 pubA, .learn 1 10, .publish 10 7, .createSubscriber 1 "A" "" subA]

example : handled 1 5 1 10 (trace (fun _ _ _ => false) (localA ++ [.publish 10 8, .publish 10 9])) = [8, 9] := by decide +kernel

/-- Whoever is in the publisher's own participant does not get the last value on joining late, unlike all others. -/
theorem C56_local_late_joiner_misses_the_last_value :
    handled 1 5 1 10 (trace (fun _ _ _ => false) (localA : List (Event Nat))) = [] ∧ publishedBy 1 10 (trace (fun _ _ _ => false) localA) = [7] := by decide +kernel

/-- Publishers 10 and 11 are alike, and all three subscribers of participant 2 match both. -/
def overlooked : List (Event Nat) :=
  [.createPublisher 1 { pubA with labels := [⟨"k", "v", .optional⟩] }, .createPublisher 1 { pubA with id := 11, labels := [⟨"k", "v", .optional⟩] }, .connect 1 2, .connect 2 1,
   .createSubscriber 2 "A" "" ⟨1, [⟨"x", "1", .optional⟩]⟩, .createSubscriber 2 "A" "" ⟨2, [⟨"y", "1", .optional⟩]⟩, .learn 2 10,
   .createSubscriber 2 "A" "" ⟨3, [⟨"k", "v", .optional⟩]⟩, .learn 2 11, .announce 2 1, .deliver 2 1, .deliver 2 1, .deliver 2 1, .deliver 2 1,
   .publish 10 7, .publish 11 8, .deliver 1 2, .deliver 1 2, .deliver 1 2, .deliver 1 2]

/-- Subscriber 1 matches publisher 11, discovery has told its participant of it, everything sent has been handled, and yet it hears only publisher 10. -/
theorem C56_matching_subscriber_may_hear_nothing :
    Matches "A" "" ⟨1, [⟨"x", "1", .optional⟩]⟩ { pubA with id := 11, labels := [⟨"k", "v", .optional⟩] } ∧
    handled 2 1 1 11 (trace (fun _ _ _ => false) overlooked) = [] ∧ handled 2 1 1 10 (trace (fun _ _ _ => false) overlooked) = [7] ∧
    handled 2 3 1 11 (trace (fun _ _ _ => false) overlooked) = [8] ∧ DataFlow.Drained (fun _ _ _ => false) overlooked 1 2 := by
  refine ⟨by unfold Matches; decide +kernel, by decide +kernel, by decide +kernel, by decide +kernel, ?_⟩
  constructor <;> decide +kernel

end SilKit.Props
