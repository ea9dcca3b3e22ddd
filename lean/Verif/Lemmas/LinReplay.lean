import Verif.Spec.LinReplay
import Verif.Lemmas.Lin
import Verif.Lemmas.ConfigFiles
namespace SilKit.Lin
open Spec

/-- What a master keeps. -/
structure Keeps (c : Ctl) (r : R) : Prop where
  mode : r.1.mode = c.mode
  dyn : r.1.isDynamic = c.isDynamic
  sim : r.1.sim = c.sim
  status : c.status ≠ .unknown → r.1.status ≠ .unknown

theorem Keeps.refl (c : Ctl) (os : List Out) : Keeps c (c, os) := ⟨rfl, rfl, rfl, id⟩

theorem Keeps.andThen {c : Ctl} {r : R} {f : Ctl → R} (h : Keeps c r) (h' : Keeps r.1 (f r.1)) : Keeps c (r.andThen f) :=
  ⟨h'.mode.trans h.mode, h'.dyn.trans h.dyn, h'.sim.trans h.sim, fun hs => h'.status (h.status hs)⟩

theorem keeps_tell (c : Ctl) (n : Notice) : Keeps c (c.tell n) := .refl _ _
theorem keeps_send (c : Ctl) (m : Msg) : Keeps c (c.send m) := .refl _ _
theorem keeps_throw (c : Ctl) : Keeps c c.throw := .refl _ _
theorem keeps_ub (c : Ctl) : Keeps c c.ub := ⟨rfl, rfl, rfl, id⟩
theorem keeps_distribute (c : Ctl) (m : Msg) : Keeps c (c.distribute m) := by unfold Ctl.distribute; split <;> exact .refl _ _
theorem keeps_update (c : Ctl) (r : Response) : Keeps c (c.updateFrameResponse r) := by
  unfold Ctl.updateFrameResponse
  have := keeps_distribute (c.setOwn (·.updateResponses [r])) (.responses [r])
  exact ⟨this.mode, this.dyn, this.sim, this.status⟩
theorem keeps_setStatus (c : Ctl) (s : Status) (hs : s ≠ .unknown) : Keeps c (c.setStatus s) := ⟨rfl, rfl, rfl, fun _ => hs⟩
theorem keeps_sendError (c : Ctl) (n : Nat) (f : Frame) : Keeps c (c.sendError n f) := by
  unfold Ctl.sendError
  refine (keeps_send c _).andThen ?_
  split
  · exact keeps_ub _
  · exact keeps_tell _ _
theorem keeps_requestHeader (c : Ctl) (id : Nat) : Keeps c (c.requestHeader id) := by
  unfold Ctl.requestHeader
  split
  · exact .refl _ _
  · split
    · exact keeps_ub _
    · split
      · exact keeps_send _ _
      · exact keeps_sendError _ _ _
theorem keeps_requestFrame (c : Ctl) (f : Frame) (ty : RespType) : Keeps c (c.requestFrame f ty) := by
  unfold Ctl.requestFrame
  split
  · exact .refl _ _
  · split
    · exact .refl _ _
    · exact keeps_requestHeader _ _
theorem keeps_sendFrameSlave (c : Ctl) (f : Frame) : Keeps c (c.sendFrameSlave f) := by
  unfold Ctl.sendFrameSlave
  split
  · exact keeps_ub _
  · split
    · exact (keeps_update c _).andThen (keeps_requestFrame _ _ _)
    · exact .refl _ _
    · exact keeps_requestFrame _ _ _
theorem keeps_sendFrameInternal (c : Ctl) (f : Frame) (ty : RespType) : Keeps c (c.sendFrameInternal f ty) := by
  unfold Ctl.sendFrameInternal
  split
  · exact (keeps_update c _).andThen (keeps_requestFrame _ _ _)
  · split
    · exact keeps_tell _ _
    · exact keeps_sendFrameSlave _ _
  · split
    · exact keeps_tell _ _
    · exact (keeps_tell c _).andThen (keeps_requestFrame _ _ _)
theorem keeps_processHeader (c : Ctl) (id : Nat) : Keeps c (c.processHeader id) := by
  unfold Ctl.processHeader
  split
  · exact .refl _ _
  · split
    · exact keeps_ub _
    · split
      · exact .refl _ _
      · split
        · exact keeps_throw _
        · exact (keeps_send c _).andThen (keeps_tell _ _)
theorem keeps_slaveConfigured (c : Ctl) : Keeps c c.slaveConfigured := by
  unfold Ctl.slaveConfigured
  split
  · exact ⟨rfl, rfl, rfl, id⟩
  · exact keeps_tell _ _
theorem keeps_sleepFrame (c : Ctl) (f : Frame) : Keeps c (c.sleepFrame f) := by
  unfold Ctl.sleepFrame
  split
  · split
    · exact keeps_tell _ _
    · split
      · exact ⟨rfl, rfl, rfl, fun _ => by simp⟩
      · exact .refl _ _
    · exact .refl _ _
  · exact .refl _ _
theorem keeps_onTransmission (c : Ctl) (f : Frame) (s : FrameStatus) : Keeps c (c.onTransmission f s) := by
  unfold Ctl.onTransmission
  split
  · exact .refl _ _
  · split
    · exact .refl _ _
    · split
      · exact .refl _ _
      · split
        · exact .refl _ _
        · refine Keeps.andThen ?_ (keeps_sleepFrame _ _)
          split
          · exact keeps_tell _ _
          · exact .refl _ _
theorem keeps_take (c : Ctl) (src : Nat) (m : Msg) : Keeps c (c.take src m) := by
  cases m with
  | frameRequest f ty => exact .refl _ _
  | header id =>
    show Keeps c (c.onHeader id)
    unfold Ctl.onHeader
    split
    · exact keeps_tell _ _
    · exact keeps_processHeader _ _
  | transmission f s => exact keeps_onTransmission c f s
  | wakeup d => exact keeps_tell _ _
  | config mode dyn rs =>
    have := keeps_slaveConfigured (Ctl.learn { c with nodes := updNode src (fun n => { n with mode := mode, status := .operational, isDynamic := dyn }) c.nodes } src rs)
    exact ⟨this.mode, this.dyn, this.sim, this.status⟩
  | responses rs =>
    have := keeps_slaveConfigured (c.learn src rs)
    exact ⟨this.mode, this.dyn, this.sim, this.status⟩
  | status s => exact ⟨rfl, rfl, rfl, id⟩
theorem keeps_receive (c : Ctl) (src : Nat) (m : Msg) : Keeps c (c.receive src m) := by
  unfold Ctl.receive
  split
  · exact .refl _ _
  · split
    · exact .refl _ _
    · split
      · exact .refl _ _
      · exact keeps_take _ _ _
theorem keeps_goToSleep (c : Ctl) : Keeps c c.goToSleep := by
  unfold Ctl.goToSleep
  split
  · exact keeps_throw _
  · split
    · exact keeps_throw _
    · split
      · refine Keeps.andThen ((keeps_send c _).andThen (keeps_tell _ _)) ?_
        unfold Ctl.goToSleepInternal
        split
        · exact keeps_throw _
        · exact keeps_setStatus _ _ (by simp)
      · exact Keeps.andThen (.refl _ _) (keeps_setStatus _ _ (by simp))
theorem keeps_wakeupInternal (c : Ctl) : Keeps c c.wakeupInternal := by
  unfold Ctl.wakeupInternal
  split
  · exact keeps_throw _
  · exact keeps_setStatus _ _ (by simp)

/-- No call of an initialized controller changes what it is. -/
theorem keeps_api (c : Ctl) (a : Call) (hi : c.status ≠ .unknown) (hs : ∀ x, a ≠ .sim x) : Keeps c (c.apiAlive a) := by
  cases a with
  | init mode rs =>
    show Keeps c (c.init mode rs)
    unfold Ctl.init
    split
    · exact keeps_throw _
    · exact keeps_throw _
  | initDynamic mode =>
    show Keeps c (c.initDynamic mode)
    unfold Ctl.initDynamic
    split
    · exact keeps_throw _
    · exact keeps_throw _
  | sendDynamicResponse f =>
    show Keeps c (c.sendDynamicResponse f)
    unfold Ctl.sendDynamicResponse
    split
    · exact keeps_throw _
    · exact (keeps_update c _).andThen (keeps_processHeader _ _)
  | sendFrame f ty =>
    show Keeps c (c.sendFrame f ty)
    unfold Ctl.sendFrame
    repeat' split
    all_goals first | exact keeps_throw _ | exact keeps_sendFrameInternal _ _ _
  | sendFrameHeader id =>
    show Keeps c (c.sendFrameHeader id)
    unfold Ctl.sendFrameHeader
    repeat' split
    all_goals first | exact keeps_throw _ | exact keeps_requestHeader _ _
  | updateTxBuffer f =>
    show Keeps c (c.updateTxBuffer f)
    unfold Ctl.updateTxBuffer
    split
    · exact keeps_throw _
    · split
      · exact keeps_throw _
      · split
        · exact keeps_ub _
        · split
          · exact keeps_throw _
          · refine Keeps.andThen (r := (c.setOwn (·.updateTxBuffer f.id f.data), [])) ⟨rfl, rfl, rfl, id⟩ ?_
            split
            · exact .refl _ _
            · exact keeps_send _ _
  | setFrameResponse r =>
    show Keeps c (c.setFrameResponse r)
    unfold Ctl.setFrameResponse
    repeat' split
    all_goals first | exact keeps_throw _ | exact .refl _ _ | exact keeps_update _ _
  | goToSleep => exact keeps_goToSleep c
  | goToSleepInternal =>
    show Keeps c c.goToSleepInternal
    unfold Ctl.goToSleepInternal
    split
    · exact keeps_throw _
    · exact keeps_setStatus _ _ (by simp)
  | wakeup =>
    show Keeps c c.wakeup
    unfold Ctl.wakeup
    split
    · exact keeps_throw _
    · split
      · exact Keeps.andThen ((keeps_send c _).andThen (keeps_tell _ _)) (keeps_wakeupInternal _)
      · exact Keeps.andThen (.refl _ _) (keeps_wakeupInternal _)
  | wakeupInternal => exact keeps_wakeupInternal c
  | getSlaveConfiguration =>
    show Keeps c c.getSlaveConfiguration
    unfold Ctl.getSlaveConfiguration
    split
    · exact keeps_throw _
    · exact .refl _ _
  | addHandler k =>
    show Keeps c (c.addHandler k)
    unfold Ctl.addHandler
    refine Keeps.andThen (r := (_, _)) ⟨rfl, rfl, rfl, id⟩ ?_
    split
    · exact ⟨rfl, rfl, rfl, id⟩
    · exact .refl _ _
  | removeHandler k id => exact ⟨rfl, rfl, rfl, fun h => h⟩
  | sim x => exact absurd rfl (hs x)

theorem master_keeps {c : Ctl} {r : R} (h : Master c) (k : Keeps c r) : Master r.1 :=
  ⟨k.mode.trans h.1, k.status h.2.1, k.dyn.trans h.2.2.1, k.sim.trans h.2.2.2⟩

theorem Node.updateResponse_twice (n : Node) (r : Response) : (n.updateResponse r).updateResponse r = n.updateResponse r := by
  unfold Node.updateResponse
  split
  · rfl
  · congr 1
    funext i
    dsimp only
    split <;> rfl

theorem update_master {c : Ctl} (h : Master c) (r : Response) : c.updateFrameResponse r = (c.setOwn (·.updateResponses [r]), []) := by
  unfold Ctl.updateFrameResponse Ctl.distribute
  rw [if_neg]
  rintro (hs | hs)
  · exact hs h.2.2.2
  · have := h.1
    rw [show (c.setOwn (·.updateResponses [r])).mode = c.mode from rfl, this] at hs
    cases hs

theorem setOwn_twice (c : Ctl) (r : Response) : (c.setOwn (·.updateResponses [r])).setOwn (·.updateResponses [r]) = c.setOwn (·.updateResponses [r]) := by
  unfold Ctl.setOwn
  dsimp only
  rw [updNode_updNode]
  congr 2
  funext n
  simp only [Node.updateResponses, List.foldl_cons, List.foldl_nil]
  exact n.updateResponse_twice r

theorem isGoToSleep_iff (f : Frame) : isGoToSleep f = true ↔ f.id = 0x3c ∧ f.data = [0, 255, 255, 255, 255, 255, 255, 255] := by
  unfold isGoToSleep goToSleepFrame
  simp

theorem replaying_snoc (p : Replaying) (c : Ctl) (h : List Step) (x : Step) :
    replaying p c (h ++ [x]) = ((stepOf p (replaying p c h).1 x).1, (replaying p c h).2 ++ (stepOf p (replaying p c h).1 x).2) := by
  simp [replaying, List.foldl_append]

theorem apiReplaying_other (p : Replaying) (c : Ctl) (a : Call) (h : (∀ f ty, a ≠ .sendFrame f ty) ∧ (∀ r, a ≠ .setFrameResponse r) ∧ a ≠ .goToSleep) :
    c.apiReplaying p a = c.api a := by
  unfold Ctl.apiReplaying Ctl.api
  split
  · rfl
  · cases a with
    | sendFrame f ty => exact absurd rfl (h.1 f ty)
    | setFrameResponse r => exact absurd rfl (h.2.1 r)
    | goToSleep => exact absurd rfl h.2.2
    | _ => rfl

/-- Replaying a sent frame is sending it. -/
theorem replay_sent {p : Replaying} (hp : p.active = true) {c : Ctl} (h : Master c) {f : Frame} (hf : isGoToSleep f = false) :
    c.replay p false f = c.api (.sendFrame f .masterResponse) := by
  unfold Ctl.replay Ctl.api
  split
  · rfl
  · rw [hp, if_neg (by simp), if_neg (by simp [h.1])]
    show _ = c.sendFrame f .masterResponse
    unfold Ctl.sendFrame
    rw [if_neg h.2.1, if_neg (by simp [h.1]), if_neg (fun e => by simp [h.2.2.1] at e)]
    simp only [Bool.false_eq_true, if_false, hf]
    have h2 : Master (c.setOwn (·.updateResponses [⟨f, .tx⟩])) := h
    unfold Ctl.sendFrameInternal
    dsimp only
    rw [update_master h]
    unfold R.andThen
    dsimp only
    rw [update_master h2, setOwn_twice]
    simp [h.1, h.2.2.1]

theorem byHand_step {p : Replaying} (hp : p.active = true) {c : Ctl} (h : Master c) (x : Step) (hx : Sending x) :
    stepOf p c x = c.input (byHand x) ∧ Master (c.input (byHand x)).1 := by
  cases x with
  | recv src m => exact ⟨rfl, master_keeps h (keeps_receive c src m)⟩
  | replay received f =>
    obtain ⟨rfl, hf⟩ := hx
    have hf' : isGoToSleep f = false := by rw [Bool.eq_false_iff]; exact fun e => hf ((isGoToSleep_iff f).mp e)
    refine ⟨replay_sent hp h hf', master_keeps h ?_⟩
    show Keeps c (c.api _)
    unfold Ctl.api
    split
    · exact .refl _ _
    · exact keeps_api c _ h.2.1 (by simp)
  | call a =>
    have ha : (∀ f ty, a ≠ .sendFrame f ty) ∧ (∀ r, a ≠ .setFrameResponse r) ∧ a ≠ .goToSleep ∧ ∀ y, a ≠ .sim y := by
      refine ⟨fun f ty e => ?_, fun r e => ?_, fun e => ?_, fun y e => ?_⟩ <;> (subst e; exact hx)
    refine ⟨apiReplaying_other p c a ⟨ha.1, ha.2.1, ha.2.2.1⟩, master_keeps h ?_⟩
    show Keeps c (c.api a)
    unfold Ctl.api
    split
    · exact .refl _ _
    · exact keeps_api c a h.2.1 ha.2.2.2

/-! ## Received frames -/

theorem foldl_updNode (id a : Nat) (F G : Node → Node) (h : ∀ n r, responseStep id r (a, F n) = responseStep id r (a, G n)) (l : List (Nat × Node)) (r : Nat × Frame) :
    (updNode a F l).foldl (responseStep id) r = (updNode a G l).foldl (responseStep id) r := by
  induction l generalizing r with
  | nil => simp [updNode, h]
  | cons x t ih =>
    obtain ⟨b, n⟩ := x
    unfold updNode
    split
    · simp only [List.foldl_cons]; exact ih _
    · split
      · rename_i e; subst e; simp [h]
      · simp [h]

theorem any_updNode (a : Nat) (F G : Node → Node) (q : Node → Bool) (h : ∀ n, q (F n) = q (G n)) (l : List (Nat × Node)) :
    (updNode a F l).any (fun x => q x.2) = (updNode a G l).any (fun x => q x.2) := by
  induction l with
  | nil => simp [updNode, h]
  | cons x t ih =>
    obtain ⟨b, n⟩ := x
    unfold updNode
    split
    · simp only [List.any_cons, ih]
    · split <;> simp [h]

theorem any_updNode_id (a : Nat) (q : Node → Bool) (h : ∀ x y z r, q ⟨x, y, z, r⟩ = z) (l : List (Nat × Node)) : (updNode a id l).any (fun x => q x.2) = l.any (fun x => q x.2) := by
  induction l with
  | nil => simp [updNode, h]
  | cons x t ih =>
    obtain ⟨b, n⟩ := x
    unfold updNode
    split
    · simp only [List.any_cons, ih]
    · split <;> simp [h]

theorem getNode_updNode_some (a : Nat) (F : Node → Node) (l : List (Nat × Node)) : ∃ n, getNode a (updNode a F l) = F n := by
  induction l with
  | nil => exact ⟨{}, by simp [updNode, getNode]⟩
  | cons x t ih =>
    obtain ⟨b, n⟩ := x
    unfold updNode
    split
    · obtain ⟨m, hm⟩ := ih
      refine ⟨m, ?_⟩
      unfold getNode
      rw [if_neg (by omega), hm]
    · split
      · exact ⟨n, by unfold getNode; simp [*]⟩
      · exact ⟨{}, by unfold getNode; simp⟩

theorem sent_tell (c : Ctl) (n : Notice) : sentBy (c.tell n).2 = [] := by
  unfold Ctl.tell Handling.tell sentBy
  simp [List.filterMap_eq_nil_iff]

theorem sentBy_append (a b : List Out) : sentBy (a ++ b) = sentBy a ++ sentBy b := List.filterMap_append

theorem rx_resp (f : Frame) (hlt : f.id < 64) (n : Node) : (n.updateResponses [⟨f, .rx⟩]).resp f.id = ⟨f, .rx⟩ := by
  have : ¬ 64 ≤ f.id := by omega
  simp [Node.updateResponses, Node.updateResponse, this]

theorem rx_step (id a : Nat) (f : Frame) (hid : f.id = id) (hlt : id < 64) (n : Node) (r : Nat × Frame) :
    responseStep id r (a, n.updateResponses [⟨f, .rx⟩]) = r := by
  subst hid
  unfold responseStep
  dsimp only
  rw [rx_resp f hlt n]
  simp

/-- After a received frame, the header is requested as if the own response was a reception. -/
theorem requestHeader_rx (c : Ctl) (f g : Frame) (hid : f.id = g.id) (hlt : f.id < 64) :
    sentBy ((c.setOwn (·.updateResponses [⟨f, .rx⟩])).requestHeader f.id).2 = sentBy ((c.setOwn (·.updateResponses [⟨g, .rx⟩])).requestHeader g.id).2 := by
  unfold Ctl.requestHeader
  have e0 : (c.setOwn (·.updateResponses [⟨f, .rx⟩])).sim = (c.setOwn (·.updateResponses [⟨g, .rx⟩])).sim := rfl
  have e1 : (c.setOwn (·.updateResponses [⟨f, .rx⟩])).getResponse f.id = (c.setOwn (·.updateResponses [⟨g, .rx⟩])).getResponse g.id := by
    unfold Ctl.getResponse Ctl.setOwn
    dsimp only
    rw [← hid]
    exact foldl_updNode _ _ _ _ (fun n r => by rw [rx_step _ _ _ rfl hlt, rx_step _ _ _ hid.symm hlt]) _ _
  have e2 : (c.setOwn (·.updateResponses [⟨f, .rx⟩])).hasDynamicNode = (c.setOwn (·.updateResponses [⟨g, .rx⟩])).hasDynamicNode := by
    unfold Ctl.hasDynamicNode Ctl.setOwn
    exact any_updNode _ _ _ (·.isDynamic) (fun n => by simp [Node.updateResponses, Node.updateResponse, ← hid]; split <;> rfl) _
  rw [← hid] at *
  generalize c.setOwn (·.updateResponses [⟨f, .rx⟩]) = c1 at *
  generalize c.setOwn (·.updateResponses [⟨g, .rx⟩]) = c2 at *
  rw [e0]
  cases c2.sim with
  | some q => rfl
  | none =>
    dsimp only
    have hn : ∀ q : Prop, ¬ (f.id ≥ 64 ∧ q) := fun q e => by omega
    rw [if_neg (hn _), if_neg (hn _), e1, e2]
    split
    · rfl
    · unfold Ctl.sendError R.andThen
      dsimp only [Ctl.send]
      rw [sentBy_append, sentBy_append]
      congr 1
      split
      · rfl
      · rw [sent_tell, sent_tell]

/-- Replaying a received frame, for an identifier a slave answers. -/
theorem replay_received {p : Replaying} (hp : p.active = true) {c : Ctl} (hc : c.dead = false) (h : Master c) {f : Frame} (hf : isGoToSleep f = false) (hlt : f.id < 64) :
    c.replay p true f = (let c' := c.setOwn (·.updateResponses [⟨f, .rx⟩]);
      if !c'.hasRespondingSlave f.id && !c'.hasDynamicNode then c'.tell (.frame f .rxNoResponse) else c'.requestFrame f .slaveResponse) := by
  unfold Ctl.replay
  rw [hc, hp, if_neg (by simp), if_neg (by simp), if_neg (by simp [h.1])]
  simp only [if_true, hf, Bool.false_eq_true, if_false]
  rw [update_master h]
  unfold R.andThen Ctl.sendFrameInternal
  dsimp only
  simp only [List.nil_append]
  show _ = _
  split
  · rfl
  · unfold Ctl.sendFrameSlave
    rw [if_neg (by omega)]
    obtain ⟨n, hn⟩ := getNode_updNode_some c.self (·.updateResponses [⟨f, .rx⟩]) c.nodes
    have : (c.setOwn (·.updateResponses [⟨f, .rx⟩])).own.resp f.id = ⟨f, .rx⟩ := by
      show (getNode c.self (updNode c.self (·.updateResponses [⟨f, .rx⟩]) c.nodes)).resp f.id = _
      rw [hn]
      exact rx_resp f hlt n
    rw [this]

/-- What a sleeping master replays. -/
theorem replay_asleep (p : Replaying) {c : Ctl} (h : Master c) (hs : c.status = .sleep) {f : Frame} (hf : isGoToSleep f = false) (received : Bool) :
    Master (c.replay p received f).1 ∧ (c.replay p received f).1.status = .sleep ∧ sentBy (c.replay p received f).2 = [] ∧ (received = false → (c.replay p received f).2 = []) := by
  unfold Ctl.replay
  split
  · exact ⟨h, hs, rfl, fun _ => rfl⟩
  split
  · exact ⟨h, hs, rfl, fun _ => rfl⟩
  split
  · exact ⟨h, hs, rfl, fun _ => rfl⟩
  rw [update_master h]
  unfold R.andThen
  simp only [hf, Bool.false_eq_true, if_false, List.nil_append]
  generalize hc' : c.setOwn (·.updateResponses [⟨f, if received = true then RespMode.rx else RespMode.tx⟩]) = c'
  have h' : Master c' := by rw [← hc']; exact h
  have hs' : c'.status = .sleep := by rw [← hc']; exact hs
  have hq : ∀ (d : Ctl) (ty : RespType), Master d → d.status = .sleep → d.requestFrame f ty = (d, []) := by
    intro d ty hd hsd
    unfold Ctl.requestFrame
    rw [hd.2.2.2]
    simp [hsd]
  cases received with
  | false =>
    simp only [Bool.false_eq_true, if_false]
    unfold Ctl.sendFrameInternal
    dsimp only
    rw [update_master h']
    unfold R.andThen
    dsimp only
    rw [hq (c'.setOwn (·.updateResponses [⟨f, .tx⟩])) _ h' hs']
    exact ⟨h', hs', rfl, fun _ => rfl⟩
  | true =>
    simp only [if_true]
    unfold Ctl.sendFrameInternal
    dsimp only
    split
    · exact ⟨h', hs', sent_tell _ _, fun e => by cases e⟩
    · unfold Ctl.sendFrameSlave
      split
      · exact ⟨h', hs', rfl, fun e => by cases e⟩
      · split
        · rw [update_master h']
          unfold R.andThen
          dsimp only
          rw [hq (c'.setOwn (·.updateResponses [⟨f, .rx⟩])) _ h' hs']
          exact ⟨h', hs', rfl, fun e => by cases e⟩
        · exact ⟨h', hs', rfl, fun e => by cases e⟩
        · rw [hq _ _ h' hs']
          exact ⟨h', hs', rfl, fun e => by cases e⟩

end SilKit.Lin
