import Verif.Lemmas.CanBus
/-!
# CAN networks (C28, C29)

`h` is an arbitrary history of any number of participants with any number of CAN controllers: controllers are created on networks, their API is
called, participants connect, announce their subscribers and handle the next message from another one, and connections end. `trace off service h`
lists what happens. `transmitted p i t` are the frames controller `i` of participant `p` was asked to send while started, by the calls alone;
`takenFrom p i q j t` are the messages that controller `j` of `q` takes from controller `i` of `p`.
-/
namespace SilKit.Props
open SilKit.Can SilKit.Can.Spec SilKit.Bus SilKit.Bus.Spec
open SilKit.Links (MsgType)

variable {off : Nat → MsgType → String → Bool}

/-- CAN frames are the only messages of their serialized name, and links of CAN frames have no history. -/
theorem can_frames_are_named_uniquely : Links.Spec.NamedUniquely service.ty := by
  intro ty' e
  cases ty' <;> first | rfl | exact absurd e (by decide +kernel)

/-- What a controller puts onto the network is what it was asked to send while started, as received frames, in this order, and nothing else:
a controller that is not started sends nothing. -/
theorem C28_sends_exactly_while_started (h : List (Bus.Event Call)) (hn : NoSimulation h) (p i : Nat) (net : String)
    (hi : Created p i net (trace off service h)) :
    (Links.Spec.published p .canFrame net (linkPart (trace off service h))).filterMap (fun v => if v.1 = i then some v.2 else none) =
      (transmitted p i (trace off service h)).map (fun x => ⟨x.1, .rx, x.2⟩) := by
  obtain ⟨st, e⟩ := created_svc hi
  have h1 := published_sends (off := off) hS h (netOf_some.2 ⟨st, e⟩) (trace off service h) (fun _ hx => hx)
  rw [bus_sent hn] at h1
  exact h1

/-- The sender sees each of its frames once, with direction TX, followed by one acknowledge as transmitted that carries the
user context. -/
theorem C28_sender_sees_and_is_acknowledged_once (h : List (Bus.Event Call)) (hn : NoSimulation h) (p i : Nat) (net : String)
    (hi : Created p i net (trace off service h)) :
    takenFromSelf p i (trace off service h) =
      (transmitted p i (trace off service h)).flatMap (fun x => [.frame ⟨x.1, .tx, x.2⟩, .ack ⟨x.1.canId, .transmitted, x.2⟩]) := by
  obtain ⟨st, e⟩ := created_svc hi
  rw [takenFromSelf_eq, outs_view, (bus_T hn e).self]
  unfold transmitted
  rw [calls_view]; rfl

/-- Suppose participant `p` accepts the subscription of participant `q` after `a`, controller `j` of `q` having been created by then. Then `j`
takes a prefix of the frames that controller `i` of `p` transmits from then on, each once, in order, with direction RX; and once all that
`p` has sent to `q` has been handled, it has taken all of them. -/
theorem C28_other_participants_receive_once (h : List (Bus.Event Call)) (hn : NoSimulation h) (p i q j : Nat) (net : String) (a b : Trace) (hpq : p ≠ q)
    (e : trace off service h = a ++ .link (.accepted p q .canFrame net) :: b) (hi : Created p i net (trace off service h)) (hj : Created q j net a) :
    ∃ rest, transmitted p i (trace off service h) = transmitted p i a ++ rest ∧
      takenFrom p i q j (trace off service h) <+: rest.map (fun x => .frame ⟨x.1, .rx, x.2⟩) ∧
      (Drained off service h p q → takenFrom p i q j (trace off service h) = rest.map (fun x => .frame ⟨x.1, .rx, x.2⟩)) := by
  obtain ⟨sti, ei⟩ := created_svc hi
  have hj' : Created q j net (trace off service h) := by unfold Created at hj ⊢; rw [e]; exact List.mem_append_left _ hj
  obtain ⟨stj, ej⟩ := created_svc hj'
  obtain ⟨h1, h2, a', eh, ea, hv⟩ := accepted_boundary h a b e
  obtain ⟨rest, e1, e2⟩ := bus_sent_after (off := off) hn eh p i e ea (view_accepted p i a' hv) rfl
  have key := remote_delivery (off := off) hS can_frames_are_named_uniquely rfl h hpq (netOf_some.2 ⟨sti, ei⟩) (netOf_some.2 ⟨stj, ej⟩) e hj
  have et : takenFrom p i q j (trace off service h) = (recvs (p, i) (view q j (trace off service h))).map .frame := by
    rw [takenFrom_eq, outs_view, (bus_T hn ej).taken]
  have em : (rest.map asRx).map Msg.frame = rest.map (fun x => .frame ⟨x.1, .rx, x.2⟩) := by rw [List.map_map]; rfl
  refine ⟨rest, e1, ?_, ?_⟩
  · rw [et, ← em, ← e2]; exact key.1.map _
  · intro hd; rw [et, ← em, ← e2, key.2 hd]

/-- Subscriptions are accepted: once `q` has announced its subscribers to `p`, and `p` has handled all that `q` has sent, `p` has accepted the
subscription of every network on which `q` has a controller. -/
theorem C28_subscription_is_accepted (h1 h2 : List (Bus.Event Call)) (p q j : Nat) (net : String)
    (ho : (Bus.Spec.run off service h1).1.links.status q p = .isOpen) (hj : Created q j net (trace off service (h1 ++ .announce q p :: h2)))
    (hd : Drained off service (h1 ++ .announce q p :: h2) q p) :
    Bus.Out.link (.accepted p q .canFrame net) ∈ trace off service (h1 ++ .announce q p :: h2) :=
  subscription_accepted can_frames_are_named_uniquely h1 h2 p q j net ho hj hd

/-- Another controller of the same participant takes exactly the frames that are transmitted after it has been created, each once, in order,
with direction RX. -/
theorem C28_own_participant_receives_once (h : List (Bus.Event Call)) (hn : NoSimulation h) (p i j : Nat) (net : String) (a b : Trace) (hij : i ≠ j)
    (e : trace off service h = a ++ .link (.registered p .canFrame net j) :: b) (hi : Created p i net (trace off service h)) :
    ∃ rest, transmitted p i (trace off service h) = transmitted p i a ++ rest ∧
      takenFrom p i p j (trace off service h) = rest.map (fun x => .frame ⟨x.1, .rx, x.2⟩) := by
  obtain ⟨sti, ei⟩ := created_svc hi
  have hj' : Created p j net (trace off service h) := by unfold Created; rw [e]; simp
  obtain ⟨stj, ej⟩ := created_svc hj'
  obtain ⟨h1, h2, eh, ea, -⟩ := registered_boundary h a b e
  obtain ⟨rest, e1, e2⟩ := bus_sent_after (off := off) hn eh p i e (by rw [ea, List.append_nil]) rfl rfl
  have key := local_delivery (off := off) hS rfl h hij (netOf_some.2 ⟨sti, ei⟩) (netOf_some.2 ⟨stj, ej⟩) e
  refine ⟨rest, e1, ?_⟩
  rw [takenFrom_eq, outs_view, (bus_T hn ej).taken, key, e2, List.map_map]; rfl

/-- A controller takes from another one only frames that the other one transmitted, and only on its own network. -/
theorem C28_only_transmitted_frames_are_taken (h : List (Bus.Event Call)) (hn : NoSimulation h) (p i q j : Nat) (net : String) (m : Msg)
    (hj : Created q j net (trace off service h)) (hm : m ∈ takenFrom p i q j (trace off service h)) :
    ∃ x ∈ transmitted p i (trace off service h), m = .frame ⟨x.1, .rx, x.2⟩ ∧ ∃ st, (Bus.Spec.run off service h).1.svc p i = some (net, st) := by
  obtain ⟨stj, ej⟩ := created_svc hj
  rw [takenFrom_eq, outs_view, (bus_T hn ej).taken, List.mem_map] at hm
  obtain ⟨f, hf, rfl⟩ := hm
  obtain ⟨hnet, hs⟩ := recvs_mem_sends (off := off) hS h (netOf_some.2 ⟨stj, ej⟩) hf
  rw [bus_sent hn, List.mem_map] at hs
  obtain ⟨x, hx, rfl⟩ := hs
  exact ⟨x, hx, rfl, netOf_some.1 hnet⟩

/-! ## Non-vacuity: three controllers of two participants -/

private def frameA : Frame := ⟨17, 0, 2, 0, 0, 0, [1, 2]⟩
private def frameB : Frame := ⟨18, 0, 1, 0, 0, 0, [3]⟩

/-- A frame before the start, one after it, one when the other participant is there, one after the stop. -/
private def twoParticipants : List (Bus.Event Call) :=
  [.create 1 5 "CAN1", .call 1 5 (.addHandler .frame 3), .call 1 5 (.sendFrame frameB 4), .call 1 5 .start, .call 1 5 (.sendFrame frameA 5),
    .create 2 7 "CAN1", .connect 1 2, .announce 1 2, .announce 2 1, .deliver 2 1, .deliver 2 1, .deliver 1 2, .create 1 6 "CAN1",
    .call 1 5 (.sendFrame frameA 6), .call 1 5 (.sendFrame frameB 0), .call 1 5 .stop, .call 1 5 (.sendFrame frameA 7),
    .deliver 1 2, .deliver 1 2, .deliver 1 2, .deliver 1 2, .deliver 1 2]

private abbrev noneOff : Nat → MsgType → String → Bool := fun _ _ _ => false

example : NoSimulation twoParticipants := by intro p i x hm; simp [twoParticipants] at hm
example : transmitted 1 5 (trace noneOff service twoParticipants) = [(frameA, 5), (frameA, 6), (frameB, 0)] := by decide +kernel
example : takenFrom 1 5 2 7 (trace noneOff service twoParticipants) = [.frame ⟨frameA, .rx, 6⟩, .frame ⟨frameB, .rx, 0⟩] := by decide +kernel
example : takenFrom 1 5 1 6 (trace noneOff service twoParticipants) = [.frame ⟨frameA, .rx, 6⟩, .frame ⟨frameB, .rx, 0⟩] := by decide +kernel
example : (takenFromSelf 1 5 (trace noneOff service twoParticipants)).length = 6 := by decide +kernel
example : Created 1 5 "CAN1" (trace noneOff service twoParticipants) := by unfold Created; decide +kernel
example : ∃ a b, trace noneOff service twoParticipants = a ++ .link (.accepted 1 2 .canFrame "CAN1") :: b ∧ Created 2 7 "CAN1" a := by
  refine ⟨(trace noneOff service twoParticipants).take ((trace noneOff service twoParticipants).idxOf (.link (.accepted 1 2 .canFrame "CAN1"))),
    (trace noneOff service twoParticipants).drop ((trace noneOff service twoParticipants).idxOf (.link (.accepted 1 2 .canFrame "CAN1")) + 1), ?_, ?_⟩
  · decide +kernel
  · unfold Created; decide +kernel
example : ∃ a b, trace noneOff service twoParticipants = a ++ .link (.registered 1 .canFrame "CAN1" 6) :: b := by
  refine ⟨(trace noneOff service twoParticipants).take ((trace noneOff service twoParticipants).idxOf (.link (.registered 1 .canFrame "CAN1" 6))),
    (trace noneOff service twoParticipants).drop ((trace noneOff service twoParticipants).idxOf (.link (.registered 1 .canFrame "CAN1" 6)) + 1), ?_⟩
  decide +kernel
example : Drained noneOff service twoParticipants 1 2 := by constructor <;> decide +kernel
example : Drained noneOff service twoParticipants 2 1 := by constructor <;> decide +kernel
example : (Bus.Spec.run noneOff service (twoParticipants.take 8)).1.links.status 2 1 = .isOpen := by decide +kernel
example : twoParticipants = twoParticipants.take 8 ++ .announce 2 1 :: twoParticipants.drop 9 := by decide +kernel

/-! ## Handlers: any single controller, whatever it is told, with or without network simulation -/

/-- A handler is added after `a` and not removed in `b`. It is not called before, and from then on it is called with exactly those notices of its kind
that are contained in its mask, in order: frames and acknowledges that the controller takes, changes of the state, changes of the error state. -/
theorem C29_handler_sees_exactly_what_it_asked_for (i : Nat) (net : String) (h : List Input) (k : Kind) (id mask : Nat) (a b : List Can.Out)
    (e : ctlTrace i net h = a ++ .added k id mask :: b) (hr : Can.Out.removed k id ∉ b) :
    handlerCalls k id a = [] ∧ ∃ rest, notices (ctlTrace i net h) = notices a ++ rest ∧
      handlerCalls k id b = rest.filter (fun n => decide (n.kind = k) && inMask mask n) := by
  obtain ⟨-, h2, h3⟩ := (run_K i net h).live k id mask a b e hr
  refine ⟨h2, _, ?_, h3⟩
  rw [e]
  unfold notices
  rw [noticesFrom_append]; rfl

/-- A handler that has been removed is not called. -/
theorem C29_removed_handler_is_not_called (i : Nat) (net : String) (h : List Input) (k : Kind) (id : Nat) (a b : List Can.Out)
    (e : ctlTrace i net h = a ++ .removed k id :: b) (ha : ∃ mask, Can.Out.added k id mask ∈ a) : handlerCalls k id b = [] :=
  ((run_K i net h).dead k id a b e ha).2

/-- A handler that has not been added is not called. -/
theorem C29_only_added_handlers_are_called (i : Nat) (net : String) (h : List Input) (id : Nat) (n : Notice)
    (hm : Can.Out.called id n ∈ ctlTrace i net h) : ∃ mask, Can.Out.added n.kind id mask ∈ ctlTrace i net h :=
  (run_Q i net h).called id n hm

/-- Handlers of one kind have different identifiers. -/
theorem C29_handlers_are_added_once (i : Nat) (net : String) (h : List Input) (k : Kind) (id mask mask' : Nat) (a b : List Can.Out)
    (e : ctlTrace i net h = a ++ .added k id mask :: b) : Can.Out.added k id mask' ∉ a ∧ Can.Out.added k id mask' ∉ b := by
  have hk : (ctlTrace i net h).filterMap (addedId k) = List.range ((run i net h).1.handlers k).next := run_Ids i net h k
  have hd : List.Nodup ((ctlTrace i net h).filterMap (addedId k)) := by rw [hk]; exact List.nodup_range
  rw [e, List.filterMap_append, List.filterMap_cons] at hd
  simp only [addedId, if_true] at hd
  rw [List.nodup_append, List.nodup_cons] at hd
  refine ⟨fun hm => ?_, fun hm => ?_⟩
  · exact hd.2.2 id (List.mem_filterMap.2 ⟨_, hm, by simp [addedId]⟩) id (List.mem_cons_self) rfl
  · exact hd.2.1.1 (List.mem_filterMap.2 ⟨_, hm, by simp [addedId]⟩)

/-- A user context is visible on transmitted frames only. -/
theorem C29_context_is_visible_on_transmitted_frames_only (i : Nat) (net : String) (h : List Input) (id : Nat) (e : FrameEvent)
    (hm : Can.Out.called id (.frame e) ∈ ctlTrace i net h) (hc : e.ctx ≠ 0) : includesTx e.direction = true := by
  obtain ⟨src, f, -, rfl⟩ := frame_notice (run_proper i net h hm)
  simp only at hc ⊢
  cases hf : includesTx f.direction with
  | true => rfl
  | false => rw [hf] at hc; simp at hc

/-- On a network without simulation, a user context that a handler sees is the one the controller was given together with this frame. -/
theorem C29_context_is_the_controllers_own (h : List (Bus.Event Call)) (hn : NoSimulation h) (p i : Nat) (net : String) (id : Nat) (e : FrameEvent)
    (hi : Created p i net (trace off service h)) (hm : Can.Out.called id (.frame e) ∈ outs p i (trace off service h)) (hc : e.ctx ≠ 0) :
    (e.frame, e.ctx) ∈ transmitted p i (trace off service h) := by
  obtain ⟨st, es⟩ := created_svc hi
  have ht := bus_T hn es
  have hloc := localRun_eq i net (inputs (view p i (trace off service h)))
  rw [view_run hS h es] at hloc
  have ho : outs p i (trace off service h) = ctlTrace i net ((inputs (view p i (trace off service h))).map Can.toInput) := by
    rw [outs_view]; exact hloc.2
  rw [ho] at hm
  obtain ⟨src, f, hf, rfl⟩ := frame_notice (run_proper i net _ hm)
  rw [← ho, outs_view] at hf
  simp only at hc ⊢
  have htx : includesTx f.direction = true := by
    cases hf : includesTx f.direction with
    | true => rfl
    | false => rw [hf] at hc; simp at hc
  rw [htx]
  cases src with
  | none =>
      have hm' : Msg.frame f ∈ ((view p i (trace off service h)).filterMap viewOut).filterMap ownMsg := List.mem_filterMap.2 ⟨_, hf, rfl⟩
      rw [ht.self, List.mem_flatMap] at hm'
      obtain ⟨x, hx, hx2⟩ := hm'
      unfold transmitted
      rw [calls_view]
      simp only [asTx, List.mem_cons, Msg.frame.injEq, List.not_mem_nil, or_false, reduceCtorEq] at hx2
      rw [hx2]; exact hx
  | some s =>
      have hm' : Msg.frame f ∈ ((view p i (trace off service h)).filterMap viewOut).filterMap (srcMsg s) :=
        List.mem_filterMap.2 ⟨_, hf, by simp [srcMsg]⟩
      rw [ht.taken, List.mem_map] at hm'
      obtain ⟨f', hf', e'⟩ := hm'
      injection e' with e'; subst e'
      obtain ⟨s1, s2⟩ := s
      obtain ⟨-, hs⟩ := recvs_mem_sends (off := off) hS h (netOf_some.2 ⟨st, es⟩) hf'
      rw [bus_sent hn, List.mem_map] at hs
      obtain ⟨x, -, rfl⟩ := hs
      simp [asRx, includesTx] at htx

/-- While the network is simulated by participant `q`, a controller takes messages only from `q`, and only those meant for it. -/
theorem C29_simulated_controller_listens_to_the_simulation_only (i : Nat) (net : String) (h : List Input) (x : Input) (q : Nat)
    (hq : simulatorFrom net none h = some q) :
    ∃ u, ctlTrace i net (h ++ [x]) = ctlTrace i net h ++ u ∧ ∀ src m, Can.Out.takes src m ∈ u → src = some (q, i) := by
  obtain ⟨h1, -, h3⟩ := run_sim i net h
  obtain ⟨u, e, hu⟩ := step_simulated (r := run i net h) (h1.trans hq) x
  refine ⟨u, ?_, ?_⟩
  · unfold ctlTrace; rw [Can.run_snoc]; exact e
  · intro src m hm; rw [hu src m hm, h3]

/-- While the network is simulated by participant `q`, what the user asks of a controller goes to `q`, once and with the same contents, and has no other effect that can be seen;
and the controller takes every message of `q` that is meant for it. -/
theorem C29_simulated_controller_obeys_the_simulation (i : Nat) (net : String) (h : List Input) (q : Nat) (hq : simulatorFrom net none h = some q) :
    (∀ f ctx, ctlTrace i net (h ++ [.inl (.sendFrame f ctx)]) = ctlTrace i net h ++ [.toSim q (.frame ⟨f, .undefined, ctx⟩)]) ∧
    ctlTrace i net (h ++ [.inl .start]) = ctlTrace i net h ++ [.toSim q (.mode .started)] ∧
    ctlTrace i net (h ++ [.inl .stop]) = ctlTrace i net h ++ [.toSim q (.mode .stopped)] ∧
    ctlTrace i net (h ++ [.inl .sleep]) = ctlTrace i net h ++ [.toSim q (.mode .sleep)] ∧
    ctlTrace i net (h ++ [.inl .reset]) = ctlTrace i net h ++ [.toSim q (.mode .uninit)] ∧
    (∀ m, ∃ u, ctlTrace i net (h ++ [.inl (.sim (.msg (q, i) m))]) = ctlTrace i net h ++ .takes (some (q, i)) m :: u) := by
  obtain ⟨h1, -, h3⟩ := run_sim i net h
  have hs : (run i net h).1.sim = some q := h1.trans hq
  unfold ctlTrace
  simp only [Can.run_snoc]
  generalize run i net h = r at h3 hs ⊢
  refine ⟨fun f ctx => ?_, ?_, ?_, ?_, ?_, fun m => ?_⟩
  · simp [Can.Spec.step, Ctl.api, Ctl.sendFrame, hs, actOut]
  · simp [Can.Spec.step, Ctl.api, asActs, Ctl.setMode, hs, actOut]
  · simp [Can.Spec.step, Ctl.api, asActs, Ctl.setMode, hs, actOut]
  · simp [Can.Spec.step, Ctl.api, asActs, Ctl.setMode, hs, actOut]
  · simp [Can.Spec.step, Ctl.api, asActs, Ctl.setMode, hs, actOut]
  · have ha : r.1.allows (q, i) = true := by simp [Ctl.allows, hs, h3]
    simp only [Can.Spec.step, Ctl.api, asActs, Ctl.onSim, Ctl.receive, ha, if_true, Can.filterMap_out]
    cases m <;> exact ⟨_, rfl⟩

/-- While nobody simulates the network, a controller takes every frame that other controllers send, whoever sends it. -/
theorem C29_controller_without_simulation_takes_all_frames (i : Nat) (net : String) (h : List Input) (hq : simulatorFrom net none h = none) (src : Nat × Nat) (e : FrameEvent) :
    ∃ u, ctlTrace i net (h ++ [.inr (src, e)]) = ctlTrace i net h ++ .takes (some src) (.frame e) :: u := by
  obtain ⟨h1, -, -⟩ := run_sim i net h
  have hs : (run i net h).1.sim = none := h1.trans hq
  unfold ctlTrace
  rw [Can.run_snoc]
  have ha : (run i net h).1.allows src = true := by simp [Ctl.allows, hs]
  simp only [Can.Spec.step, Ctl.receive, ha, if_true]
  exact ⟨_, rfl⟩

/-- Non-vacuity: a handler for transmitted frames is added, sees one of two frames, and is removed. -/
private def oneController : List Input :=
  [.inl (.addHandler .frame 1), .inl (.addHandler .state 0), .inl .start, .inl (.sendFrame ⟨17, 0, 1, 0, 0, 0, [1]⟩ 9), .inr ((2, 4), ⟨⟨18, 0, 1, 0, 0, 0, [1]⟩, .rx, 5⟩),
    .inl .start, .inl .stop]

example : handlerCalls .frame 0 (ctlTrace 3 "CAN1" oneController) = [.frame ⟨⟨17, 0, 1, 0, 0, 0, [1]⟩, .tx, 9⟩] := by decide +kernel
example : handlerCalls .state 0 (ctlTrace 3 "CAN1" oneController) = [.state .started, .state .stopped] := by decide +kernel
example : notices (ctlTrace 3 "CAN1" oneController) = [.state .started, .frame ⟨⟨17, 0, 1, 0, 0, 0, [1]⟩, .tx, 9⟩, .ack ⟨17, .transmitted, 9⟩,
  .frame ⟨⟨18, 0, 1, 0, 0, 0, [1]⟩, .rx, 0⟩, .state .stopped] := by decide +kernel
example : ctlTrace 3 "CAN1" oneController = [] ++ .added .frame 0 1 :: (ctlTrace 3 "CAN1" oneController).drop 1 ∧
    Can.Out.removed .frame 0 ∉ (ctlTrace 3 "CAN1" oneController).drop 1 := by decide +kernel
example : ∃ a b, ctlTrace 3 "CAN1" (oneController ++ [.inl (.removeHandler .frame 0), .inl .start]) = a ++ .removed .frame 0 :: b ∧
    (∃ mask, Can.Out.added .frame 0 mask ∈ a) := by
  refine ⟨(ctlTrace 3 "CAN1" oneController), (ctlTrace 3 "CAN1" (oneController ++ [.inl (.removeHandler .frame 0), .inl .start])).drop ((ctlTrace 3 "CAN1" oneController).length + 1), ?_, 1, ?_⟩ <;> decide +kernel
example : simulatorFrom "CAN1" none [.inl (.sim (.linkCreated 8 "CAN2")), .inl (.sim (.linkCreated 9 "CAN1"))] = some 9 := by decide +kernel
example : simulatorFrom "CAN1" none [.inl (.sim (.linkCreated 9 "CAN1")), .inl .start, .inl (.sim (.linkRemoved 9 "CAN1"))] = none := by decide +kernel
example : ctlTrace 3 "CAN1" [.inl (.sim (.linkCreated 9 "CAN1")), .inl (.sim (.msg (9, 3) (.status .started .errorActive)))] = [.takes (some (9, 3)) (.status .started .errorActive)] := by decide +kernel
example : Can.Out.called 0 (.frame ⟨frameA, .tx, 6⟩) ∈ outs 1 5 (trace noneOff service twoParticipants) := by decide +kernel

end SilKit.Props
