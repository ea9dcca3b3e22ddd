import Verif.Lemmas.EthernetBus
/-!
# Ethernet networks (C30) and handlers of Ethernet controllers (C39)

`h` is an arbitrary history of any number of participants with any number of Ethernet controllers, as in `Props/Can.lean`. `requests p i t` are the
frames that controller `i` of participant `p` was asked to send, and whether it was active by then, by the calls alone; `transmitted p i t` are those
with an active controller.
-/
namespace SilKit.Props
open SilKit.Ethernet SilKit.Ethernet.Spec SilKit.Bus SilKit.Bus.Spec SilKit.Handling.Spec
open SilKit.Links (MsgType)

variable {off : Nat → MsgType → String → Bool}

/-- Ethernet frames are the only messages of their serialized name. -/
theorem ethernet_frames_are_named_uniquely : Links.Spec.NamedUniquely service.ty := by
  intro ty' e
  cases ty' <;> first | rfl | exact absurd e (by decide +kernel)

/-- What a controller puts onto the network is what it was asked to send while active, as received frames, in this order, and nothing else. -/
theorem C30_sends_exactly_while_active (h : List (Bus.Event Call)) (hn : NoSimulation h) (p i : Nat) (net : String)
    (hi : Created p i net (trace off service h)) :
    (Links.Spec.published p .ethFrame net (linkPart (trace off service h))).filterMap (fun v => if v.1 = i then some v.2 else none) =
      (transmitted p i (trace off service h)).map (fun x => ⟨x.raw, .rx, x.ctx⟩) := by
  obtain ⟨st, e⟩ := created_svc hi
  have h1 := published_sends (off := off) hS h (netOf_some.2 ⟨st, e⟩) (trace off service h) (fun _ hx => hx)
  rw [bus_sent hn] at h1
  exact h1

/-- What the sender is told about its frames: of an active controller, the frame with direction TX and one acknowledge as transmitted; of an inactive
one, only one acknowledge as inactive. Acknowledges carry the user context. -/
theorem C30_sender_is_acknowledged_once (h : List (Bus.Event Call)) (hn : NoSimulation h) (p i : Nat) (net : String)
    (hi : Created p i net (trace off service h)) :
    takenFromSelf p i (trace off service h) = (requests p i (trace off service h)).flatMap (fun x =>
      if x.active then [.frame ⟨x.raw, .tx, x.ctx⟩, .ack ⟨.transmitted, x.ctx⟩] else [.ack ⟨.controllerInactive, x.ctx⟩]) := by
  obtain ⟨st, e⟩ := created_svc hi
  rw [takenFromSelf_eq, outs_view, (bus_T hn e).self]
  unfold requests
  rw [calls_view]; rfl

/-- Exactly one acknowledge per request, in order; it says transmitted if and only if the controller was active. -/
theorem C30_one_acknowledge_per_frame (h : List (Bus.Event Call)) (hn : NoSimulation h) (p i : Nat) (net : String)
    (hi : Created p i net (trace off service h)) :
    (takenFromSelf p i (trace off service h)).filterMap (fun | .ack a => some a | _ => none) =
      (requests p i (trace off service h)).map (fun x => ⟨if x.active then .transmitted else .controllerInactive, x.ctx⟩) := by
  rw [C30_sender_is_acknowledged_once h hn p i net hi]
  induction requests p i (trace off service h) with
  | nil => rfl
  | cons x l ih =>
      rw [List.flatMap_cons, List.filterMap_append, ih, List.map_cons]
      cases x.active <;> rfl

/-- Suppose participant `p` accepts the subscription of participant `q` after `a`, controller `j` of `q` having been created by then. Then `j`
takes a prefix of the frames that controller `i` of `p` transmits from then on, being active, each once, in order, with direction RX; and once all that
`p` has sent to `q` has been handled, it has taken all of them. -/
theorem C30_other_participants_receive_once (h : List (Bus.Event Call)) (hn : NoSimulation h) (p i q j : Nat) (net : String) (a b : Trace) (hpq : p ≠ q)
    (e : trace off service h = a ++ .link (.accepted p q .ethFrame net) :: b) (hi : Created p i net (trace off service h)) (hj : Created q j net a) :
    ∃ rest, transmitted p i (trace off service h) = transmitted p i a ++ rest ∧
      takenFrom p i q j (trace off service h) <+: rest.map (fun x => .frame ⟨x.raw, .rx, x.ctx⟩) ∧
      (Drained off service h p q → takenFrom p i q j (trace off service h) = rest.map (fun x => .frame ⟨x.raw, .rx, x.ctx⟩)) := by
  obtain ⟨sti, ei⟩ := created_svc hi
  have hj' : Created q j net (trace off service h) := by unfold Created at hj ⊢; rw [e]; exact List.mem_append_left _ hj
  obtain ⟨stj, ej⟩ := created_svc hj'
  obtain ⟨h1, h2, a', eh, ea, hv⟩ := accepted_boundary h a b e
  obtain ⟨rest, e1, e2⟩ := bus_sent_after (off := off) hn eh p i e ea (view_accepted p i a' hv) rfl
  have key := remote_delivery (off := off) hS ethernet_frames_are_named_uniquely rfl h hpq (netOf_some.2 ⟨sti, ei⟩) (netOf_some.2 ⟨stj, ej⟩) e hj
  have et : takenFrom p i q j (trace off service h) = (recvs (p, i) (view q j (trace off service h))).map .frame := by
    rw [takenFrom_eq, outs_view, (bus_T hn ej).taken]
  have em : (rest.map asRx).map Msg.frame = rest.map (fun x => .frame ⟨x.raw, .rx, x.ctx⟩) := by rw [List.map_map]; rfl
  refine ⟨rest, e1, ?_, ?_⟩
  · rw [et, ← em, ← e2]; exact key.1.map _
  · intro hd; rw [et, ← em, ← e2, key.2 hd]

/-- Subscriptions are accepted: once `q` has announced its subscribers to `p`, and `p` has handled all that `q` has sent, `p` has accepted the
subscription of every network on which `q` has a controller. -/
theorem C30_subscription_is_accepted (h1 h2 : List (Bus.Event Call)) (p q j : Nat) (net : String)
    (ho : (Bus.Spec.run off service h1).1.links.status q p = .isOpen) (hj : Created q j net (trace off service (h1 ++ .announce q p :: h2)))
    (hd : Drained off service (h1 ++ .announce q p :: h2) q p) :
    Bus.Out.link (.accepted p q .ethFrame net) ∈ trace off service (h1 ++ .announce q p :: h2) :=
  subscription_accepted ethernet_frames_are_named_uniquely h1 h2 p q j net ho hj hd

/-- Another controller of the same participant takes exactly the frames that are transmitted after it has been created, each once, in order,
with direction RX. -/
theorem C30_own_participant_receives_once (h : List (Bus.Event Call)) (hn : NoSimulation h) (p i j : Nat) (net : String) (a b : Trace) (hij : i ≠ j)
    (e : trace off service h = a ++ .link (.registered p .ethFrame net j) :: b) (hi : Created p i net (trace off service h)) :
    ∃ rest, transmitted p i (trace off service h) = transmitted p i a ++ rest ∧
      takenFrom p i p j (trace off service h) = rest.map (fun x => .frame ⟨x.raw, .rx, x.ctx⟩) := by
  obtain ⟨sti, ei⟩ := created_svc hi
  have hj' : Created p j net (trace off service h) := by unfold Created; rw [e]; simp
  obtain ⟨stj, ej⟩ := created_svc hj'
  obtain ⟨h1, h2, eh, ea, -⟩ := registered_boundary h a b e
  obtain ⟨rest, e1, e2⟩ := bus_sent_after (off := off) hn eh p i e (by rw [ea, List.append_nil]) rfl rfl
  have key := local_delivery (off := off) hS rfl h hij (netOf_some.2 ⟨sti, ei⟩) (netOf_some.2 ⟨stj, ej⟩) e
  refine ⟨rest, e1, ?_⟩
  rw [takenFrom_eq, outs_view, (bus_T hn ej).taken, key, e2, List.map_map]; rfl

/-- A controller takes from another one only frames that the other one transmitted, and only on its own network. -/
theorem C30_only_transmitted_frames_are_taken (h : List (Bus.Event Call)) (hn : NoSimulation h) (p i q j : Nat) (net : String) (m : Msg)
    (hj : Created q j net (trace off service h)) (hm : m ∈ takenFrom p i q j (trace off service h)) :
    ∃ x ∈ transmitted p i (trace off service h), m = .frame ⟨x.raw, .rx, x.ctx⟩ ∧ ∃ st, (Bus.Spec.run off service h).1.svc p i = some (net, st) := by
  obtain ⟨stj, ej⟩ := created_svc hj
  rw [takenFrom_eq, outs_view, (bus_T hn ej).taken, List.mem_map] at hm
  obtain ⟨f, hf, rfl⟩ := hm
  obtain ⟨hnet, hs⟩ := recvs_mem_sends (off := off) hS h (netOf_some.2 ⟨stj, ej⟩) hf
  rw [bus_sent hn, List.mem_map] at hs
  obtain ⟨x, hx, rfl⟩ := hs
  exact ⟨x, hx, rfl, netOf_some.1 hnet⟩

/-! ## Non-vacuity: three controllers of two participants -/

/-- A frame before the activation, one after it, two when the other participant is there, one after the deactivation. -/
private def twoEthernetParticipants : List (Bus.Event Call) :=
  [.create 1 5 "ETH1", .call 1 5 (.addHandler .frame 3), .call 1 5 (.sendFrame [9] 4), .call 1 5 .activate, .call 1 5 (.sendFrame [1, 2] 5),
    .create 2 7 "ETH1", .call 2 7 (.addHandler .frame 2), .connect 1 2, .announce 1 2, .announce 2 1, .deliver 2 1, .deliver 2 1, .deliver 1 2, .create 1 6 "ETH1",
    .call 1 5 (.sendFrame [1, 2] 6), .call 1 5 (.sendFrame [3] 0), .call 1 5 .deactivate, .call 1 5 (.sendFrame [1] 7),
    .deliver 1 2, .deliver 1 2, .deliver 1 2, .deliver 1 2, .deliver 1 2]

private abbrev noneOff : Nat → MsgType → String → Bool := fun _ _ _ => false

example : NoSimulation twoEthernetParticipants := by intro p i x hm; simp [twoEthernetParticipants] at hm
example : requests 1 5 (trace noneOff service twoEthernetParticipants) =
  [⟨[9], 4, false⟩, ⟨[1, 2], 5, true⟩, ⟨[1, 2], 6, true⟩, ⟨[3], 0, true⟩, ⟨[1], 7, false⟩] := by decide +kernel
example : takenFrom 1 5 2 7 (trace noneOff service twoEthernetParticipants) = [.frame ⟨[1, 2], .rx, 6⟩, .frame ⟨[3], .rx, 0⟩] := by decide +kernel
example : takenFrom 1 5 1 6 (trace noneOff service twoEthernetParticipants) = [.frame ⟨[1, 2], .rx, 6⟩, .frame ⟨[3], .rx, 0⟩] := by decide +kernel
example : handlerCalls Notice.kind .frame 0 (outs 2 7 (trace noneOff service twoEthernetParticipants)) =
  [.frame ⟨1 :: 2 :: List.replicate 58 0, .rx, 0⟩, .frame ⟨3 :: List.replicate 59 0, .rx, 0⟩] := by decide +kernel
example : (takenFromSelf 1 5 (trace noneOff service twoEthernetParticipants)).length = 8 := by decide +kernel
example : Created 1 5 "ETH1" (trace noneOff service twoEthernetParticipants) := by unfold Created; decide +kernel
example : ∃ a b, trace noneOff service twoEthernetParticipants = a ++ .link (.accepted 1 2 .ethFrame "ETH1") :: b ∧ Created 2 7 "ETH1" a := by
  refine ⟨(trace noneOff service twoEthernetParticipants).take ((trace noneOff service twoEthernetParticipants).idxOf (.link (.accepted 1 2 .ethFrame "ETH1"))),
    (trace noneOff service twoEthernetParticipants).drop ((trace noneOff service twoEthernetParticipants).idxOf (.link (.accepted 1 2 .ethFrame "ETH1")) + 1), ?_, ?_⟩
  · decide +kernel
  · unfold Created; decide +kernel
example : ∃ a b, trace noneOff service twoEthernetParticipants = a ++ .link (.registered 1 .ethFrame "ETH1" 6) :: b := by
  refine ⟨(trace noneOff service twoEthernetParticipants).take ((trace noneOff service twoEthernetParticipants).idxOf (.link (.registered 1 .ethFrame "ETH1" 6))),
    (trace noneOff service twoEthernetParticipants).drop ((trace noneOff service twoEthernetParticipants).idxOf (.link (.registered 1 .ethFrame "ETH1" 6)) + 1), ?_⟩
  decide +kernel
example : Drained noneOff service twoEthernetParticipants 1 2 := by constructor <;> decide +kernel
example : Drained noneOff service twoEthernetParticipants 2 1 := by constructor <;> decide +kernel
example : (Bus.Spec.run noneOff service (twoEthernetParticipants.take 9)).1.links.status 2 1 = .isOpen := by decide +kernel
example : twoEthernetParticipants = twoEthernetParticipants.take 9 ++ .announce 2 1 :: twoEthernetParticipants.drop 10 := by decide +kernel

/-! ## Handlers: any single controller, whatever it is told, with or without network simulation -/

/-- A controller on a network is such a controller. -/
theorem C39_ethernet_controllers_on_networks (h : List (Bus.Event Call)) (p i : Nat) (net : String) (hi : Created p i net (trace off service h)) :
    ∃ h', outs p i (trace off service h) = ctlTrace i net h' := by
  obtain ⟨st, e⟩ := created_svc hi
  exact ⟨_, outs_solo hS h e⟩

/-- Frames reach handlers zero-padded to 60 bytes; longer ones are unchanged. A user context is visible on transmitted frames only. -/
theorem C30_handlers_see_padded_frames (i : Nat) (net : String) (h : List (Input Call FrameEvent)) (id : Nat) (e : FrameEvent)
    (hm : Handling.Out.called id (.frame e) ∈ ctlTrace i net h) :
    ∃ src f, Did.takes src (.frame f) ∈ dids (ctlTrace i net h) ∧ e.direction = f.direction ∧
      e.raw = f.raw ++ List.replicate (60 - f.raw.length) 0 ∧ e.ctx = (if includesTx f.direction then f.ctx else 0) := by
  have hk := solo_K i net h
  have ht := hk.handlers.called_told hm
  rw [hk.notes.all] at ht
  obtain ⟨src, f, h1, h2⟩ := frame_notice ht
  exact ⟨src, f, h1, by rw [h2], by rw [h2]; rfl, by rw [h2]⟩

/-- A handler is added after `a` and not removed in `b`. It is not called before, and from then on it is called with exactly those notices of its kind
that are contained in its mask, in order: frames and acknowledges that the controller takes, changes of the bit rate and of the state. -/
theorem C39_ethernet_handler_sees_exactly_what_it_asked_for (i : Nat) (net : String) (h : List (Input Call FrameEvent)) (k : Kind) (id mask : Nat) (a b : List Ethernet.Out)
    (e : ctlTrace i net h = a ++ .added k id mask :: b) (hr : Handling.Out.removed k id ∉ b) :
    handlerCalls Notice.kind k id a = [] ∧ ∃ rest, notices (ctlTrace i net h) = notices a ++ rest ∧
      handlerCalls Notice.kind k id b = rest.filter (fun n => decide (n.kind = k) && inMask mask n) := by
  have hk := solo_K i net h
  obtain ⟨h1, rest, h2, h3⟩ := Handling.asked hk.handlers hk.notes e hr
  refine ⟨h1, rest, h2, h3.trans ?_⟩
  congr 1
  funext n
  rw [← passes_eq]; rfl

/-- A handler that has been removed is not called. -/
theorem C39_ethernet_removed_handler_is_not_called (i : Nat) (net : String) (h : List (Input Call FrameEvent)) (k : Kind) (id : Nat) (a b : List Ethernet.Out)
    (e : ctlTrace i net h = a ++ .removed k id :: b) (ha : ∃ mask, Handling.Out.added k id mask ∈ a) : handlerCalls Notice.kind k id b = [] :=
  ((solo_K i net h).handlers.dead k id a b e ha).2

/-- Only handlers that have been added are called, and handlers of one kind have different identifiers. -/
theorem C39_ethernet_handlers_are_distinct (i : Nat) (net : String) (h : List (Input Call FrameEvent)) :
    (∀ id n, Handling.Out.called id n ∈ ctlTrace i net h → ∃ mask, Handling.Out.added n.kind id mask ∈ ctlTrace i net h) ∧
    (∀ k id mask mask' a b, ctlTrace i net h = a ++ .added k id mask :: b → Handling.Out.added k id mask' ∉ a ∧ Handling.Out.added k id mask' ∉ b) :=
  ⟨fun id n hm => (solo_K i net h).handlers.calledAdded id n hm, fun k id mask mask' a b e => (solo_K i net h).handlers.once k id mask mask' a b e⟩

/-- Non-vacuity: a handler for transmitted frames is added, sees one of two frames, and is removed. -/
private def oneEthernetController : List (Input Call FrameEvent) :=
  [.inl (.addHandler .frame 1), .inl (.addHandler .state 0), .inl .activate, .inl (.sendFrame (List.replicate 61 7) 9), .inr ((2, 4), ⟨[1], .rx, 5⟩),
    .inl .activate, .inl .deactivate]

example : handlerCalls Notice.kind .frame 0 (ctlTrace 3 "ETH1" oneEthernetController) = [.frame ⟨List.replicate 61 7, .tx, 9⟩] := by decide +kernel
example : handlerCalls Notice.kind .state 0 (ctlTrace 3 "ETH1" oneEthernetController) = [.state .linkUp, .state .inactive] := by decide +kernel
example : ctlTrace 3 "ETH1" oneEthernetController = [] ++ .added .frame 0 1 :: (ctlTrace 3 "ETH1" oneEthernetController).drop 1 ∧
    Handling.Out.removed .frame 0 ∉ (ctlTrace 3 "ETH1" oneEthernetController).drop 1 := by decide +kernel
example : ∃ a b, ctlTrace 3 "ETH1" (oneEthernetController ++ [.inl (.removeHandler .frame 0), .inl .activate]) = a ++ .removed .frame 0 :: b ∧
    (∃ mask, Handling.Out.added .frame 0 mask ∈ a) := by
  refine ⟨(ctlTrace 3 "ETH1" oneEthernetController), (ctlTrace 3 "ETH1" (oneEthernetController ++ [.inl (.removeHandler .frame 0), .inl .activate])).drop ((ctlTrace 3 "ETH1" oneEthernetController).length + 1), ?_, 1, ?_⟩ <;> decide +kernel
example : ctlTrace 3 "ETH1" [.inl (.sim (.linkCreated 9 "ETH1")), .inl .activate, .inl (.sim (.msg (9, 3) (.status .linkDown 100)))] =
  [.did (.toSim 9 (.mode true)), .did (.takes (some (9, 3)) (.status .linkDown 100)), .told (.bitrate 100), .told (.state .linkDown)] := by decide +kernel

/-! ## Network simulation -/

/-- While the network is simulated by `q`, a controller takes messages from the service of `q` with its own number only, and none from itself; what it sends goes to `q`.
Otherwise it takes all messages that are offered to it, and sends nothing to a simulator. This holds for every input `x` after every history `h`. -/
theorem C51_ethernet_controller_follows_its_simulator (i : Nat) (net : String) (h : List (Input Call FrameEvent)) (x : Input Call FrameEvent) :
    ∃ o, ctlTrace i net (h ++ [x]) = ctlTrace i net h ++ o ∧
      (∀ src m, Handling.Out.did (.takes (some src) m) ∈ o ↔ offers x src m ∧ ∀ q, simulator net h = some q → src = (q, i)) ∧
      (∀ m, Handling.Out.did (.takes none m) ∈ o → simulator net h = none) ∧
      (∀ q m, Handling.Out.did (.toSim q m) ∈ o → simulator net h = some q) ∧
      (∀ q raw ctx, simulator net h = some q → x = .inl (.sendFrame raw ctx) → o = [.did (.toSim q (.frame ⟨raw, .undefined, ctx⟩))]) := by
  have hk := solo_sim i net h
  have recv : ∀ (src : Nat × Nat) (m : Msg), offers x src m → (∀ src' m', offers x src' m' → src' = src ∧ m' = m) → (∀ raw ctx, x ≠ .inl (.sendFrame raw ctx)) →
      ctlTrace i net (h ++ [x]) = ctlTrace i net h ++ ((solo service i net h).1.receive src m).2 →
      ∃ o, ctlTrace i net (h ++ [x]) = ctlTrace i net h ++ o ∧
      (∀ src m, Handling.Out.did (.takes (some src) m) ∈ o ↔ offers x src m ∧ ∀ q, simulator net h = some q → src = (q, i)) ∧
      (∀ m, Handling.Out.did (.takes none m) ∈ o → simulator net h = none) ∧
      (∀ q m, Handling.Out.did (.toSim q m) ∈ o → simulator net h = some q) ∧
      (∀ q raw ctx, simulator net h = some q → x = .inl (.sendFrame raw ctx) → o = [.did (.toSim q (.frame ⟨raw, .undefined, ctx⟩))]) := by
    intro src m ho hu hs e
    refine ⟨_, e, fun src' m' => ?_, fun m' hm => ?_, fun q m' hm => ?_, fun q raw ctx _ hx => absurd hx (hs raw ctx)⟩
    · rw [receive_did, hk.sim, hk.id]
      constructor
      · rintro ⟨h1, h2⟩
        injection h1 with h1 h3
        injection h1 with h1
        subst h1 h3
        exact ⟨ho, h2⟩
      · rintro ⟨h1, h2⟩
        obtain ⟨rfl, rfl⟩ := hu _ _ h1
        exact ⟨rfl, h2⟩
    · have := ((receive_did _ _ _ _).1 hm).1; cases this
    · have := ((receive_did _ _ _ _).1 hm).1; cases this
  have other : ∀ o : List Ethernet.Out, ctlTrace i net (h ++ [x]) = ctlTrace i net h ++ o → (∀ src m, ¬ offers x src m) →
      (∀ d, Handling.Out.did d ∈ o → (simulator net h = none ∧ ∃ m, d = .takes none m) ∨ ∃ q m, simulator net h = some q ∧ d = .toSim q m) →
      (∀ q raw ctx, simulator net h = some q → x = .inl (.sendFrame raw ctx) → o = [.did (.toSim q (.frame ⟨raw, .undefined, ctx⟩))]) →
      ∃ o, ctlTrace i net (h ++ [x]) = ctlTrace i net h ++ o ∧
      (∀ src m, Handling.Out.did (.takes (some src) m) ∈ o ↔ offers x src m ∧ ∀ q, simulator net h = some q → src = (q, i)) ∧
      (∀ m, Handling.Out.did (.takes none m) ∈ o → simulator net h = none) ∧
      (∀ q m, Handling.Out.did (.toSim q m) ∈ o → simulator net h = some q) ∧
      (∀ q raw ctx, simulator net h = some q → x = .inl (.sendFrame raw ctx) → o = [.did (.toSim q (.frame ⟨raw, .undefined, ctx⟩))]) := by
    intro o e hn hd hf
    refine ⟨o, e, fun src m => ⟨fun hm => ?_, fun hm => absurd hm.1 (hn src m)⟩, fun m hm => ?_, fun q m hm => ?_, hf⟩
    · rcases hd _ hm with ⟨_, m', e'⟩ | ⟨q, m', _, e'⟩ <;> cases e'
    · rcases hd _ hm with ⟨h1, _⟩ | ⟨q, m', _, e'⟩
      · exact h1
      · cases e'
    · rcases hd _ hm with ⟨_, m', e'⟩ | ⟨q', m', h1, e'⟩
      · cases e'
      · injection e' with e1 _; rw [h1, e1]
  have mode : ∀ b d, Handling.Out.did d ∈ ((solo service i net h).1.setMode b).2 → (simulator net h = none ∧ ∃ m, d = .takes none m) ∨ ∃ q m, simulator net h = some q ∧ d = .toSim q m := by
    intro b d hd
    rw [← hk.sim]
    rcases setMode_did _ _ _ hd with h1 | ⟨q, h1, h2⟩
    · exact .inl h1
    · exact .inr ⟨q, _, h1, h2⟩
  have api : ∀ a, x = .inl a → ctlTrace i net (h ++ [x]) = ctlTrace i net h ++ ((solo service i net h).1.api a).2.filterMap actOut := by
    rintro a rfl; unfold ctlTrace; rw [solo_snoc]; rfl
  rcases x with a | ⟨src, e⟩
  · cases a with
    | activate =>
      have e := api _ rfl
      simp only [Ctl.api, asActs, filterMap_actOut] at e
      refine other _ e (by simp [offers]) ?_ (by simp)
      unfold Ctl.activate; split
      · simp
      · exact mode true
    | deactivate =>
      have e := api _ rfl
      simp only [Ctl.api, asActs, filterMap_actOut] at e
      refine other _ e (by simp [offers]) ?_ (by simp)
      unfold Ctl.deactivate; split
      · simp
      · exact mode false
    | sendFrame raw ctx =>
      have e := api _ rfl
      refine other _ e (by simp [offers]) ?_ ?_
      · intro d hd
        cases hs : (solo service i net h).1.sim with
        | none =>
          left
          refine ⟨hk.sim.symm.trans hs, ?_⟩
          simp only [Ctl.api] at hd
          rw [sendFrame_out _ raw ctx hs, List.mem_append] at hd
          rcases hd with hd | hd
          · split at hd
            · exact ⟨_, (take_did _ _ _ _).1 hd⟩
            · cases hd
          · exact ⟨_, (take_did _ _ _ _).1 hd⟩
        | some q =>
          right
          simp only [Ctl.api] at hd
          unfold Ctl.sendFrame at hd
          rw [hs] at hd
          exact ⟨q, _, hk.sim.symm.trans hs, by simpa [actOut] using hd⟩
      · intro q raw' ctx' hs hx
        injection hx with hx
        injection hx with h1 h2
        subst h1 h2
        simp only [Ctl.api]
        unfold Ctl.sendFrame
        rw [hk.sim, hs]
        rfl
    | addHandler k mask =>
      have e := api _ rfl
      simp only [Ctl.api, asActs, filterMap_actOut] at e
      exact other _ e (by simp [offers]) (by simp [Ctl.addHandler, Handling.add]) (by simp)
    | removeHandler k id =>
      have e := api _ rfl
      simp only [Ctl.api, asActs, filterMap_actOut] at e
      exact other _ e (by simp [offers]) (by simp [Ctl.removeHandler, Handling.remove]) (by simp)
    | sim y =>
      have e := api _ rfl
      simp only [Ctl.api, asActs, filterMap_actOut] at e
      cases y with
      | linkCreated q n => exact other _ e (by simp [offers]) (by simp only [Ctl.onSim]; split <;> simp) (by simp)
      | linkRemoved q n => exact other _ e (by simp [offers]) (by simp only [Ctl.onSim]; split <;> simp) (by simp)
      | msg src m =>
        refine recv src m (.inl rfl) ?_ (by simp) e
        rintro src' m' (h1 | ⟨e', h1, _⟩)
        · injection h1 with h1; injection h1 with h1; injection h1 with h1 h2; exact ⟨h1.symm, h2.symm⟩
        · cases h1
  · refine recv src (.frame e) (.inr ⟨e, rfl, rfl⟩) ?_ (by simp) (by unfold ctlTrace; rw [solo_snoc]; rfl)
    rintro src' m' (h1 | ⟨e', h1, h2⟩)
    · cases h1
    · injection h1 with h1; injection h1 with h1 h3; subst h1 h3; exact ⟨rfl, h2⟩

/-- A simulator appears on the network, one on another network, a second one; messages of others are refused; it is removed, and everybody is heard again. -/
example : ctlTrace 3 "ETH1" [.inl (.sim (.linkCreated 8 "ETH2")), .inl (.sim (.linkCreated 9 "ETH1")), .inl (.sim (.linkCreated 7 "ETH1")), .inl (.sendFrame [1] 5),
      .inl (.sim (.msg (9, 4) (.ack ⟨.transmitted, 5⟩))), .inl (.sim (.msg (7, 3) (.ack ⟨.transmitted, 5⟩))), .inl (.sim (.msg (9, 3) (.ack ⟨.transmitted, 5⟩))),
      .inl (.sim (.linkRemoved 8 "ETH2")), .inr ((2, 4), ⟨[1], .rx, 5⟩), .inl (.sim (.linkRemoved 9 "ETH1")), .inr ((2, 4), ⟨[2], .rx, 6⟩)] =
    [.did (.toSim 9 (.frame ⟨[1], .undefined, 5⟩)), .did (.takes (some (9, 3)) (.ack ⟨.transmitted, 5⟩)), .told (.ack ⟨.transmitted, 5⟩),
      .did (.takes (some (2, 4)) (.frame ⟨[2], .rx, 6⟩)), .told (.frame ⟨2 :: List.replicate 59 0, .rx, 0⟩)] := by decide +kernel

end SilKit.Props
