import Verif.Lemmas.LinReplay
/-!
# C76: the replay of LIN recordings

A master controller with a replay configuration replays the frames of a recording; `stepOf`, `replaying` and `byHand` in `Spec/LinReplay.lean` are the
histories of such a controller, and the same histories with the frames sent by the user. Which messages are replayed when is C45.
-/
namespace SilKit.Props
open SilKit.Lin SilKit.Lin.Spec

/-- A master, and a frame. -/
def replayMaster : Ctl := (solo 1 "LIN" [.call (.init .master [])]).1
def replayFrame : Frame := ⟨16, .enhanced, 2, [7, 8]⟩

/-- **C76.** Whatever happens in between, replaying sent frames is sending them: a master with a replay configuration does the same, and ends in the same state,
as one whose user calls `SendFrame` with each frame. Missing: received frames, and frames after a go-to-sleep frame (see below). -/
theorem C76_replaying_sent_frames_is_sending_them_partial (p : Replaying) (hp : p.direction ≠ .undefined ∧ p.source = true) (c : Ctl) (hc : Master c)
    (h : List Step) (hs : ∀ x ∈ h, Sending x) : replaying p c h = (h.map byHand).foldl onInput (c, []) := by
  have hp' : p.active = true := by simp [Replaying.active, hp.1, hp.2]
  suffices hh : replaying p c h = (h.map byHand).foldl onInput (c, []) ∧ Master (replaying p c h).1 from hh.1
  induction h using ConfigFiles.snoc_induction with
  | nil => exact ⟨rfl, hc⟩
  | snoc h x ih =>
    obtain ⟨ih1, ih2⟩ := ih (fun y hy => hs y (List.mem_append_left _ hy))
    obtain ⟨e, m⟩ := byHand_step hp' ih2 x (hs x (by simp))
    rw [replaying_snoc, e]
    refine ⟨?_, m⟩
    rw [List.map_append, List.foldl_append, ← ih1]
    rfl

example : Master replayMaster := by decide +kernel
example : sentBy (replaying ⟨.send, true⟩ replayMaster [.replay false replayFrame, .recv 1 (.header 16)]).2 = [.header 16, .transmission replayFrame .rxOk] := by
  decide +kernel
example : ∀ x ∈ [Step.replay false replayFrame, .recv 1 (.header 16)], Sending x := by
  intro x hx
  simp only [List.mem_cons, List.not_mem_nil, or_false] at hx
  rcases hx with rfl | rfl
  · exact ⟨rfl, by decide⟩
  · trivial

/-- **C76.** A recorded go-to-sleep frame puts the network to sleep as `GoToSleep` does. -/
theorem C76_go_to_sleep_is_replayed (p : Replaying) (hp : p.direction ≠ .undefined ∧ p.source = true) (c : Ctl) (hc : Master c) (hd : c.dead = false)
    (received : Bool) (f : Frame) (hf : f.id = 0x3c ∧ f.data = [0, 255, 255, 255, 255, 255, 255, 255]) :
    (c.replay p received f).2 = (c.api .goToSleep).2 ∧ (c.replay p received f).1.status = .sleep ∧ (c.api .goToSleep).1.status = .sleep ∧
      .transmission ⟨0x3c, .classic, 8, [0, 255, 255, 255, 255, 255, 255, 255]⟩ .rxOk ∈ sentBy (c.replay p received f).2 := by
  have hp' : p.active = true := by simp [Replaying.active, hp.1, hp.2]
  have hf' : isGoToSleep f = true := (isGoToSleep_iff f).mpr hf
  have e : ∀ d : Ctl, Master d → d.goToSleep = ({ d with status := .sleep },
      [.did (.send (.transmission goToSleepFrame .rxOk))] ++ Handling.tell events d.handlers (.frame goToSleepFrame .txOk) ++ [.did (.send (.status .sleep))]) := by
    intro d hd
    unfold Ctl.goToSleep
    rw [if_neg hd.2.1, if_neg (by simp [hd.1]), hd.2.2.2]
    simp [R.andThen, Ctl.send, Ctl.tell, Ctl.goToSleepInternal, hd.2.1, Ctl.setStatus, hd.2.2.2]
  have e1 : c.api .goToSleep = c.goToSleep := by unfold Ctl.api; rw [hd]; rfl
  unfold Ctl.replay
  rw [e1, e c hc, hd, hp', if_neg (by simp), if_neg (by simp), if_neg (by simp [hc.1]), update_master hc]
  unfold R.andThen
  simp only [hf', if_true]
  rw [e _ (show Master (c.setOwn _) from hc)]
  refine ⟨by simp [Ctl.setOwn], by first | rfl | trivial, by first | rfl | trivial, ?_⟩
  simp [sentBy, goToSleepFrame]

example : (⟨0x3c, .unknown, 8, [0, 255, 255, 255, 255, 255, 255, 255]⟩ : Frame).id = 0x3c ∧ replayMaster.dead = false := by decide +kernel

/-- **C76.** Without a valid configuration, and as a slave or before it is initialized, a controller replays nothing. -/
theorem C76_only_masters_replay (p : Replaying) (c : Ctl) (h : p.direction = .undefined ∨ p.source = false ∨ c.mode ≠ .master) (received : Bool) (f : Frame) :
    c.replay p received f = (c, []) := by
  unfold Ctl.replay
  split
  · rfl
  · rcases h with h | h | h
    · simp [Replaying.active, h]
    · simp [Replaying.active, h]
    · simp [h]

example : (solo 1 "LIN" [.call (.init .slave [])]).1.mode ≠ .master := by decide +kernel

/-- **C76.** While the controller replays sent frames, the user's frames, responses and `GoToSleep` do nothing; all other calls, and all calls if only received
frames are replayed, do what they do without a replay. -/
theorem C76_user_does_not_interfere (p : Replaying) (c : Ctl) (hc : Master c) :
    ((p.direction = .send ∨ p.direction = .both) → (∀ f ty, c.apiReplaying p (.sendFrame f ty) = (c, [])) ∧ (∀ r, c.apiReplaying p (.setFrameResponse r) = (c, [])) ∧
      c.apiReplaying p .goToSleep = (c, []) ∧
      ∀ a, (∀ f ty, a ≠ .sendFrame f ty) → (∀ r, a ≠ .setFrameResponse r) → a ≠ .goToSleep → c.apiReplaying p a = c.api a) ∧
    ((p.direction = .undefined ∨ p.direction = .receive) → ∀ a, c.apiReplaying p a = c.api a) := by
  constructor
  · intro hp
    have hp' : p.sends = true := by rcases hp with hp | hp <;> simp [Replaying.sends, hp]
    refine ⟨fun f ty => ?_, fun r => ?_, ?_, fun a h1 h2 h3 => apiReplaying_other p c a ⟨h1, h2, h3⟩⟩ <;>
      (unfold Ctl.apiReplaying; simp [hp', hc.1, hc.2.1, hc.2.2.1])
  · intro hp a
    have hp' : p.sends = false := by rcases hp with hp | hp <;> simp [Replaying.sends, hp]
    unfold Ctl.apiReplaying Ctl.api
    split
    · rfl
    · cases a <;> simp [hp', Ctl.apiAlive]

/-! ## Where the replay is not what was recorded -/

/-- **C76, violated.** The data of received frames is not replayed: whatever was recorded, the controller sends the same messages for all received frames with
the same identifier - none of them, if no slave is known to answer it. -/
theorem C76_received_data_is_not_replayed (p : Replaying) (c : Ctl) (hc : Master c) (f g : Frame)
    (hf : ¬ (f.id = 0x3c ∧ f.data = [0, 255, 255, 255, 255, 255, 255, 255])) (hg : ¬ (g.id = 0x3c ∧ g.data = [0, 255, 255, 255, 255, 255, 255, 255]))
    (hfg : f.id = g.id) (hid : f.id < 64) :
    sentBy (c.replay p true f).2 = sentBy (c.replay p true g).2 ∧
    (c.slaveIds = [] → (∀ x ∈ c.nodes, x.2.isDynamic = false) → sentBy (c.replay p true f).2 = []) := by
  have hf' : isGoToSleep f = false := by rw [Bool.eq_false_iff]; exact fun e => hf ((isGoToSleep_iff f).mp e)
  have hg' : isGoToSleep g = false := by rw [Bool.eq_false_iff]; exact fun e => hg ((isGoToSleep_iff g).mp e)
  by_cases hd : c.dead = true
  · unfold Ctl.replay; simp [hd, sentBy]
  have hd : c.dead = false := by simpa using hd
  by_cases hp : p.active = true
  case neg => unfold Ctl.replay; simp [hd, hp, sentBy]
  rw [replay_received hp hd hc hf' hid, replay_received hp hd hc hg' (hfg ▸ hid)]
  dsimp only
  have e2 : ∀ k : Frame, k.id < 64 → (c.setOwn (·.updateResponses [⟨k, .rx⟩])).hasDynamicNode = (c.setOwn id).hasDynamicNode := by
    intro k hk
    unfold Ctl.hasDynamicNode Ctl.setOwn
    exact any_updNode _ _ _ (·.isDynamic) (fun n => by simp [Node.updateResponses, Node.updateResponse]; split <;> rfl) _
  have e3 : ∀ k : Frame, (c.setOwn (·.updateResponses [⟨k, .rx⟩])).hasRespondingSlave k.id = c.hasRespondingSlave k.id := fun _ => rfl
  rw [e2 f hid, e2 g (hfg ▸ hid), e3, e3, ← hfg]
  constructor
  · split
    · rw [sent_tell, sent_tell]
    · unfold Ctl.requestFrame
      rw [show (c.setOwn (·.updateResponses [⟨f, .rx⟩])).sim = none from hc.2.2.2, show (c.setOwn (·.updateResponses [⟨g, .rx⟩])).sim = none from hc.2.2.2]
      dsimp only
      have es : ∀ k : Frame, (c.setOwn (·.updateResponses [⟨k, .rx⟩])).status = c.status := fun _ => rfl
      rw [es, es]
      split
      · rfl
      · exact requestHeader_rx c f g hfg hid
  · intro h1 h2
    have e4 : (c.setOwn id).hasDynamicNode = false := by
      unfold Ctl.hasDynamicNode Ctl.setOwn
      rw [any_updNode_id _ (·.isDynamic) (fun _ _ _ _ => rfl), List.any_eq_false]
      intro x hx
      simp [h2 x hx]
    rw [e4, if_pos (by simp [Ctl.hasRespondingSlave, h1]), sent_tell]

example : replayMaster.slaveIds = [] ∧ ∀ x ∈ replayMaster.nodes, x.2.isDynamic = false := by decide +kernel

/-- **C76, violated.** After a go-to-sleep frame, nothing of the recording is sent, however long it is: no frame of it wakes the controller up, and wake-ups are
not part of recordings. -/
theorem C76_nothing_is_replayed_after_sleep (p : Replaying) (c : Ctl) (hc : Master c) (hs : c.status = .sleep) (h : List (Bool × Frame))
    (hf : ∀ x ∈ h, ¬ (x.2.id = 0x3c ∧ x.2.data = [0, 255, 255, 255, 255, 255, 255, 255])) :
    sentBy (replaying p c (h.map fun x => .replay x.1 x.2)).2 = [] ∧ (replaying p c (h.map fun x => .replay x.1 x.2)).1.status = .sleep := by
  suffices hh : sentBy (replaying p c (h.map fun x => .replay x.1 x.2)).2 = [] ∧ (replaying p c (h.map fun x => .replay x.1 x.2)).1.status = .sleep ∧
      Master (replaying p c (h.map fun x => .replay x.1 x.2)).1 from ⟨hh.1, hh.2.1⟩
  induction h using ConfigFiles.snoc_induction with
  | nil => exact ⟨rfl, hs, hc⟩
  | snoc h x ih =>
    obtain ⟨i1, i2, i3⟩ := ih (fun y hy => hf y (List.mem_append_left _ hy))
    have hx : isGoToSleep x.2 = false := by rw [Bool.eq_false_iff]; exact fun e => hf x (by simp) ((isGoToSleep_iff x.2).mp e)
    obtain ⟨a1, a2, a3, _⟩ := replay_asleep p i3 i2 hx x.1
    rw [List.map_append, List.map_cons, List.map_nil, replaying_snoc]
    refine ⟨?_, a2, a1⟩
    dsimp only
    rw [sentBy_append, i1]
    exact a3

example : let c := (replaying ⟨.send, true⟩ replayMaster [.replay false ⟨0x3c, .classic, 8, [0, 255, 255, 255, 255, 255, 255, 255]⟩]).1
    Master c ∧ c.status = .sleep ∧ sentBy (replaying ⟨.send, true⟩ c [.call .wakeup, .replay false replayFrame]).2 = [.wakeup .rx, .status .operational, .header 16] := by
  decide +kernel

/-- **C76, violated.** The configured direction makes no difference to what is replayed: a controller that is to replay received frames only sends the recorded
frames, in addition to its user's. -/
theorem C76_direction_is_ignored (d d' : ReplayDirection) (hd : d ≠ .undefined) (hd' : d' ≠ .undefined) (s : Bool) (c : Ctl) (received : Bool) (f : Frame) :
    c.replay ⟨d, s⟩ received f = c.replay ⟨d', s⟩ received f := by
  have : (⟨d, s⟩ : Replaying).active = (⟨d', s⟩ : Replaying).active := by
    cases d <;> cases d' <;> first | rfl | exact absurd rfl hd | exact absurd rfl hd'
  unfold Ctl.replay
  rw [this]

example : sentBy (replaying ⟨.receive, true⟩ replayMaster [.replay false replayFrame, .call (.sendFrame ⟨17, .enhanced, 1, [1]⟩ .masterResponse)]).2 =
    [.header 16, .header 17] := by decide +kernel

/-- **C76, violated.** A recorded frame whose identifier is no LIN identifier makes the controller read outside of its table of responses. -/
theorem C76_invalid_identifier_is_undefined_behaviour (p : Replaying) (hp : p.direction ≠ .undefined ∧ p.source = true) (i : Nat) (net : String)
    (rs : List Response) (f : Frame) (hf : f.id ≥ 64) :
    .did .ub ∈ (replaying p { self := i, net := net } [.call (.init .master rs), .replay false f]).2 := by
  have hp' : p.active = true := by simp [Replaying.active, hp.1, hp.2]
  have hs : isGoToSleep f = false := by rw [Bool.eq_false_iff]; intro e; have := ((isGoToSleep_iff f).mp e).1; omega
  have hn : ∀ n : Node, n.updateResponses [⟨f, .tx⟩] = n := by
    intro n
    simp [Node.updateResponses, Node.updateResponse, hf]
  have hm : ∀ (l : List Response) (n : Node), (n.updateResponses l).mode = n.mode ∧ (n.updateResponses l).status = n.status := by
    intro l
    induction l with
    | nil => exact fun _ => ⟨rfl, rfl⟩
    | cons r l ih =>
      intro n
      show ((n.updateResponse r).updateResponses l).mode = _ ∧ ((n.updateResponse r).updateResponses l).status = _
      rw [(ih _).1, (ih _).2]
      unfold Node.updateResponse
      split <;> exact ⟨rfl, rfl⟩
  simp [replaying, stepOf, Ctl.apiReplaying, Ctl.apiAlive, Ctl.init, Ctl.distribute, Ctl.setOwn, updNode, Ctl.replay, hp', hs, R.andThen, Ctl.updateFrameResponse,
    Ctl.sendFrameInternal, hn, Ctl.requestFrame, Ctl.requestHeader, hf, Ctl.looksAtResponses, hm, Node.active, Ctl.ub]

end SilKit.Props
