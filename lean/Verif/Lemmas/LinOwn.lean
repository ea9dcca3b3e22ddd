import Verif.Lemmas.Lin
/-!
# LIN controllers: identifiers, status, and what is reported
-/
namespace SilKit.Lin
open SilKit.Lin.Spec SilKit.Handling.Spec

/-! ## No undefined behaviour with valid identifiers -/

theorem responseStep_id (id : Nat) (l : List (Nat × Node)) (r : Nat × Frame) (hok : ∀ x ∈ l, x.2.Ok) (hr : r.2.id = id) : (l.foldl (responseStep id) r).2.id = id := by
  induction l generalizing r with
  | nil => exact hr
  | cons x t ih =>
    rw [List.foldl_cons]
    refine ih _ (fun y hy => hok y (by simp [hy])) ?_
    unfold responseStep
    split
    · rename_i h
      simp only [Bool.and_eq_true, beq_iff_eq] at h
      exact hok x (by simp) id (by simp [h.2])
    · exact hr

theorem getResponse_id (c : Ctl) (id : Nat) (hok : ∀ x ∈ c.nodes, x.2.Ok) : (c.getResponse id).2.id = id := responseStep_id id c.nodes _ hok rfl

theorem requestHeader_alive {c : Ctl} {id : Nat} (hid : id < 64) (hok : ∀ x ∈ c.nodes, x.2.Ok) : (c.requestHeader id).1 = c := by
  unfold Ctl.requestHeader
  split
  · rfl
  · rw [if_neg (by omega)]
    split
    · rfl
    · unfold Ctl.sendError R.andThen
      simp only
      rw [getResponse_id c id hok, if_neg (by omega)]
      rfl

theorem requestFrame_alive {c : Ctl} {f : Frame} {ty : RespType} (hid : f.id < 64) (hok : ∀ x ∈ c.nodes, x.2.Ok) : (c.requestFrame f ty).1 = c := by
  unfold Ctl.requestFrame
  split
  · rfl
  · split
    · rfl
    · exact requestHeader_alive hid hok

theorem processHeader_alive {c : Ctl} {id : Nat} (hid : id < 64) : (c.processHeader id).1 = c := by
  unfold Ctl.processHeader
  split
  · rfl
  · rw [if_neg (by omega)]
    split
    · rfl
    · split <;> rfl

theorem onHeader_alive {c : Ctl} {id : Nat} (hid : id < 64) : (c.onHeader id).1 = c := by
  unfold Ctl.onHeader
  split
  · rfl
  · exact processHeader_alive hid

theorem updateFrameResponse_ok {c : Ctl} {f : Conf} (h : I c f) (r : Response) : ∀ x ∈ (c.updateFrameResponse r).1.nodes, x.2.Ok := (h.updateFrameResponse r).ok

theorem sendFrameInternal_fst {c : Ctl} {f : Conf} (h : I c f) {fr : Frame} (hid : fr.id < 64) (ty : RespType) :
    (c.sendFrameInternal fr ty).1 = c ∨ ∃ r, (c.sendFrameInternal fr ty).1 = (c.updateFrameResponse r).1 := by
  cases ty with
  | masterResponse =>
    right
    simp only [Ctl.sendFrameInternal, R.andThen]
    exact ⟨_, requestFrame_alive hid (updateFrameResponse_ok h _)⟩
  | slaveResponse =>
    simp only [Ctl.sendFrameInternal]
    split
    · exact .inl rfl
    · unfold Ctl.sendFrameSlave
      rw [if_neg (by omega)]
      split
      · exact .inr ⟨_, requestFrame_alive hid (updateFrameResponse_ok h _)⟩
      · exact .inl rfl
      · exact .inl (requestFrame_alive hid h.ok)
  | slaveToSlave =>
    left
    simp only [Ctl.sendFrameInternal]
    split
    · rfl
    · exact requestFrame_alive hid h.ok

/-- A controller that has been configured as `f` without a network simulation. -/
structure Q (c : Ctl) (f : Conf) : Prop where
  sim : c.sim = none
  st : c.status = f.status
  own : f.mode ≠ .inactive → c.own.status = .operational

theorem Conf.status_ne (f : Conf) : f.status = .unknown ↔ f.mode = .inactive := by
  unfold Conf.status
  split
  · simp [*]
  · split <;> simp [*]

theorem Conf.status_sp (f : Conf) : f.status ≠ .sleepPending := by
  unfold Conf.status
  split
  · simp
  · split <;> simp

theorem setOwn_own {c : Ctl} (h : Sorted c.nodes) (u : Node → Node) : (c.setOwn u).own = u c.own := getNode_updNode_self h _ _

theorem Q.updateFrameResponse {c : Ctl} {f : Conf} (h : I c f) (q : Q c f) (r : Response) : Q (c.updateFrameResponse r).1 (f.set r) := by
  rw [updateFrameResponse_fst]
  have hs := same_set f r
  refine ⟨q.sim, ?_, ?_⟩
  · show c.status = _
    rw [q.st]
    simp only [Conf.status, hs.1, hs.2.2.1]
  · intro hm
    rw [setOwn_own h.sorted, (updateResponses_mode _ _).2.1]
    exact q.own (hs.1 ▸ hm)

theorem sleepFrame_same {c : Ctl} (h : c.status ≠ .sleepPending) (f : Frame) : (c.sleepFrame f).1 = c := by
  unfold Ctl.sleepFrame
  split
  · split
    · rfl
    · rfl
    · rfl
  · rfl

theorem onTransmission_same {c : Ctl} (h : c.status ≠ .sleepPending) (f : Frame) (s : FrameStatus) : (c.onTransmission f s).1 = c := by
  unfold Ctl.onTransmission
  split
  · rfl
  · split
    · rfl
    · split
      · rfl
      · split
        · rfl
        · simp only [R.andThen]
          split
          · exact sleepFrame_same h f
          · exact sleepFrame_same h f

theorem onTransmission_dead (c : Ctl) (f : Frame) (s : FrameStatus) : (c.onTransmission f s).1.dead = c.dead := by
  have hs : ∀ c : Ctl, (c.sleepFrame f).1.dead = c.dead := by
    intro c
    unfold Ctl.sleepFrame
    split
    · split
      · rfl
      · split <;> rfl
      · rfl
    · rfl
  unfold Ctl.onTransmission
  split
  · rfl
  · split
    · rfl
    · split
      · rfl
      · split
        · rfl
        · simp only [R.andThen]
          split
          · exact hs c
          · exact hs c

/-- Calls with valid identifiers. -/
theorem api_alive {c : Ctl} {f : Conf} (h : I c f) (a : Call) (hv : a.Valid) (hd : c.dead = false) : (c.apiAlive a).1.dead = false := by
  have uf : ∀ r, (c.updateFrameResponse r).1.dead = false := fun r => by rw [updateFrameResponse_fst]; exact hd
  cases a with
  | init mode rs =>
    simp only [Ctl.apiAlive, Ctl.init]
    split
    · exact hd
    · split
      · exact hd
      · rw [distribute_fst]; exact hd
  | initDynamic mode =>
    simp only [Ctl.apiAlive, Ctl.initDynamic]
    split
    · exact hd
    · split
      · exact hd
      · rw [distribute_fst]; exact hd
  | sendDynamicResponse fr =>
    simp only [Ctl.apiAlive, Ctl.sendDynamicResponse]
    split
    · exact hd
    · simp only [R.andThen]
      rw [processHeader_alive (show fr.id < 64 from hv)]
      exact uf _
  | sendFrame fr ty =>
    simp only [Ctl.apiAlive, Ctl.sendFrame]
    split
    · exact hd
    · split
      · exact hd
      · split
        · exact hd
        · rcases sendFrameInternal_fst h (show fr.id < 64 from hv) ty with e | ⟨r, e⟩
          · rw [e]; exact hd
          · rw [e]; exact uf r
  | sendFrameHeader id =>
    simp only [Ctl.apiAlive, Ctl.sendFrameHeader]
    split
    · exact hd
    · split
      · exact hd
      · rw [requestHeader_alive (show id < 64 from hv) h.ok]; exact hd
  | updateTxBuffer fr =>
    simp only [Ctl.apiAlive, Ctl.updateTxBuffer]
    split
    · exact hd
    · split
      · exact hd
      · have : fr.id < 64 := hv
        rw [if_neg (by omega)]
        split
        · exact hd
        · simp only [R.andThen]
          split <;> exact hd
  | setFrameResponse r =>
    simp only [Ctl.apiAlive, Ctl.setFrameResponse]
    split
    · exact hd
    · split
      · exact hd
      · split
        · exact hd
        · split
          · exact hd
          · split
            · exact hd
            · exact uf r
  | goToSleep =>
    simp only [Ctl.apiAlive, Ctl.goToSleep]
    split
    · exact hd
    · split
      · exact hd
      · split
        · show (c.goToSleepInternal).1.dead = false
          unfold Ctl.goToSleepInternal
          split <;> exact hd
        · exact hd
  | goToSleepInternal =>
    simp only [Ctl.apiAlive, Ctl.goToSleepInternal]
    split <;> exact hd
  | wakeup =>
    simp only [Ctl.apiAlive, Ctl.wakeup]
    split
    · exact hd
    · split
      · show (c.wakeupInternal).1.dead = false
        unfold Ctl.wakeupInternal
        split <;> exact hd
      · show (c.wakeupInternal).1.dead = false
        unfold Ctl.wakeupInternal
        split <;> exact hd
  | wakeupInternal =>
    simp only [Ctl.apiAlive, Ctl.wakeupInternal]
    split <;> exact hd
  | getSlaveConfiguration =>
    simp only [Ctl.apiAlive, Ctl.getSlaveConfiguration]
    split <;> exact hd
  | addHandler k =>
    simp only [Ctl.apiAlive, Ctl.addHandler, R.andThen]
    split <;> exact hd
  | removeHandler k id => exact hd
  | sim x =>
    cases x with
    | linkCreated q net => simp only [Ctl.apiAlive, Ctl.onSim]; split <;> exact hd
    | linkRemoved q net => simp only [Ctl.apiAlive, Ctl.onSim]; split <;> exact hd
    | msg q m =>
      simp only [Ctl.apiAlive, Ctl.onSim]
      split
      · rename_i hg
        cases m with
        | header id => rw [show c.take c.self (.header id) = c.onHeader id from rfl, onHeader_alive (show id < 64 from hv)]; exact hd
        | transmission fr s =>
          rw [show c.take c.self (.transmission fr s) = c.onTransmission fr s from rfl, onTransmission_dead]
          exact hd
        | wakeup d => exact hd
        | _ => simp [Msg.guarded] at hg
      · exact hd

theorem Q.kept {c c' : Ctl} {f g : Conf} (q : Q c f) (h1 : c'.sim = c.sim) (h2 : c'.status = c.status) (h3 : c'.own = c.own) (h4 : g.mode = f.mode) (h5 : g.asleep = f.asleep) : Q c' g :=
  ⟨h1.trans q.sim, by rw [h2, q.st]; simp only [Conf.status, h4, h5], by rw [h3, h4]; exact q.own⟩

theorem Q.setStatus {c : Ctl} {f : Conf} (q : Q c f) (s : Status) (b : Bool) (hs : s = if b then .sleep else .operational) (hu : f.mode ≠ .inactive) :
    Q (c.setStatus s).1 { f with asleep := b } :=
  ⟨q.sim, by simp only [Ctl.setStatus, Ctl.send, Conf.status, if_neg hu]; cases b <;> simp [hs], fun _ => q.own hu⟩

theorem Q.sendFrame {c : Ctl} {f : Conf} (h : I c f) (q : Q c f) {fr : Frame} (hv : fr.id < 64) (ty : RespType) : Q (c.sendFrame fr ty).1 (f.call (.sendFrame fr ty)) := by
  have same : (f.call (.sendFrame fr ty)).mode = f.mode ∧ (f.call (.sendFrame fr ty)).asleep = f.asleep := by
    have hs := fun r => same_set f r
    cases ty <;> simp only [Conf.call]
    · split
      · exact ⟨(hs _).1, (hs _).2.2.1⟩
      · simp
    · split
      · exact ⟨(hs _).1, (hs _).2.2.1⟩
      · simp
    · simp
  unfold Ctl.sendFrame
  split
  · exact q.kept rfl rfl rfl same.1 same.2
  · split
    · exact q.kept rfl rfl rfl same.1 same.2
    · split
      · exact q.kept rfl rfl rfl same.1 same.2
      · rcases sendFrameInternal_fst h hv ty with e | ⟨r, e⟩
        · rw [e]; exact q.kept rfl rfl rfl same.1 same.2
        · rw [e]
          have q' := Q.updateFrameResponse h q r
          exact q'.kept rfl rfl rfl (by rw [same.1, (same_set f r).1]) (by rw [same.2, (same_set f r).2.2.1])

theorem Q.init {c c' : Ctl} {f : Conf} (h : I c f) (q : Q c f) (mode : Mode) (dyn : Bool) (rs : List Response) (w : Node → Node) (hu : c.status = .unknown) (hm : mode ≠ .inactive)
    (hw : (w c.own).status = .operational) (e1 : c'.self = c.self) (e2 : c'.nodes = updNode c.self (fun n => (w n).updateResponses rs) c.nodes)
    (e6 : c'.status = .operational) (e7 : c'.sim = none) (has : f.asleep = false) : Q c' (f.initWith mode dyn rs) := by
  have hi := h.st.1 hu
  rw [Conf.initWith, if_pos ⟨hi, hm⟩]
  obtain ⟨s1, _, s3, _⟩ := same_sets rs { f with mode := mode, isDynamic := dyn }
  refine ⟨e7, ?_, fun _ => ?_⟩
  · rw [e6]
    unfold Conf.status
    rw [s1, s3, if_neg hm]
    simp [has]
  · rw [Ctl.own, e1, e2, getNode_updNode_self h.sorted, (updateResponses_mode _ _).2.1]
    exact hw

theorem Q.api {c : Ctl} {f : Conf} (h : I c f) (q : Q c f) (ha : f.mode = .inactive → f.asleep = false) (a : Call) (hv : a.Valid) (hs : a.noSim) :
    Q (c.apiAlive a).1 (f.call a) := by
  have nochange : ∀ c' : Ctl, c'.sim = c.sim → c'.status = c.status → c'.own = c.own → f.call a = f → Q c' (f.call a) := by
    intro c' h1 h2 h3 h4
    rw [h4]
    exact q.kept h1 h2 h3 rfl rfl
  cases a with
  | init mode rs =>
    simp only [Ctl.apiAlive, Ctl.init, Conf.call]
    split
    · rename_i e
      rw [Conf.initWith, if_neg (by simp [e])]
      exact q
    · split
      · rename_i e hu
        rw [Conf.initWith, if_neg (by rw [← h.st]; simp [hu])]
        exact q
      · rename_i e hu
        rw [Classical.not_not] at hu
        rw [distribute_fst]
        exact q.init h mode false rs (fun n => { n with mode := mode, status := .operational }) hu e rfl rfl rfl rfl q.sim (ha (h.st.1 hu))
  | initDynamic mode =>
    simp only [Ctl.apiAlive, Ctl.initDynamic, Conf.call]
    split
    · rename_i e
      rw [Conf.initWith, if_neg (by simp [e])]
      exact q
    · split
      · rename_i e hu
        rw [Conf.initWith, if_neg (by rw [← h.st]; simp [hu])]
        exact q
      · rename_i e hu
        rw [Classical.not_not] at hu
        rw [distribute_fst]
        exact q.init h mode true [] (fun n => { n with mode := mode, status := .operational, isDynamic := true }) hu e rfl rfl rfl rfl q.sim (ha (h.st.1 hu))
  | sendDynamicResponse fr =>
    simp only [Ctl.apiAlive, Ctl.sendDynamicResponse, Conf.call, R.andThen]
    rw [if_neg (by simp), processHeader_alive (show fr.id < 64 from hv)]
    exact q.updateFrameResponse h _
  | sendFrame fr ty => exact q.sendFrame h (show fr.id < 64 from hv) ty
  | sendFrameHeader id =>
    simp only [Ctl.apiAlive, Ctl.sendFrameHeader, Conf.call]
    split
    · exact q
    · split
      · exact q
      · rw [requestHeader_alive (show id < 64 from hv) h.ok]
        exact q
  | updateTxBuffer fr =>
    have hc : (f.call (.updateTxBuffer fr)).mode = f.mode ∧ (f.call (.updateTxBuffer fr)).asleep = f.asleep := by
      simp only [Conf.call]
      split <;> simp
    simp only [Ctl.apiAlive, Ctl.updateTxBuffer]
    split
    · exact q.kept rfl rfl rfl hc.1 hc.2
    · split
      · exact q.kept rfl rfl rfl hc.1 hc.2
      · have : fr.id < 64 := hv
        rw [if_neg (by omega)]
        split
        · exact q.kept rfl rfl rfl hc.1 hc.2
        · simp only [R.andThen]
          have key : Q (c.setOwn (·.updateTxBuffer fr.id fr.data)) (f.call (.updateTxBuffer fr)) := by
            refine ⟨q.sim, ?_, ?_⟩
            · show c.status = _
              rw [q.st]
              simp only [Conf.status, hc.1, hc.2]
            · intro hm
              rw [setOwn_own h.sorted]
              rw [hc.1] at hm
              simp only [Node.updateTxBuffer, if_neg (show ¬ fr.id ≥ 64 by omega)]
              exact q.own hm
          split <;> exact key
  | setFrameResponse r =>
    have hc : (f.call (.setFrameResponse r)).mode = f.mode ∧ (f.call (.setFrameResponse r)).asleep = f.asleep := by
      simp only [Conf.call]
      split
      · exact ⟨(same_set f r).1, (same_set f r).2.2.1⟩
      · simp
    have hq := q.updateFrameResponse h r
    simp only [Ctl.apiAlive, Ctl.setFrameResponse]
    split
    · exact q.kept rfl rfl rfl hc.1 hc.2
    · split
      · exact q.kept rfl rfl rfl hc.1 hc.2
      · split
        · exact q.kept rfl rfl rfl hc.1 hc.2
        · split
          · exact q.kept rfl rfl rfl hc.1 hc.2
          · split
            · exact q.kept rfl rfl rfl hc.1 hc.2
            · exact hq.kept rfl rfl rfl (by rw [hc.1, (same_set f r).1]) (by rw [hc.2, (same_set f r).2.2.1])
  | goToSleep =>
    simp only [Ctl.apiAlive, Ctl.goToSleep, Conf.call]
    split
    · rename_i hu
      rw [if_neg (by simp [h.st.1 hu])]
      exact q
    · rename_i hu
      split
      · rename_i hm
        rw [h.mode] at hm
        rw [if_neg hm]
        exact q
      · rename_i hm
        rw [Classical.not_not, h.mode] at hm
        rw [if_pos hm]
        split
        · show Q c.goToSleepInternal.1 _
          rw [Ctl.goToSleepInternal, if_neg hu]
          exact q.setStatus .sleep true rfl (fun e => hu (h.st.2 e))
        · rename_i e
          rw [q.sim] at e
          cases e
  | goToSleepInternal =>
    simp only [Ctl.apiAlive, Ctl.goToSleepInternal, Conf.call]
    split
    · rename_i hu
      rw [if_neg (by simp [h.st.1 hu])]
      exact q
    · rename_i hu
      rw [if_pos (fun e => hu (h.st.2 e))]
      exact q.setStatus .sleep true rfl (fun e => hu (h.st.2 e))
  | wakeup =>
    simp only [Ctl.apiAlive, Ctl.wakeup, Conf.call]
    split
    · rename_i hu
      rw [if_neg (by simp [h.st.1 hu])]
      exact q
    · rename_i hu
      rw [if_pos (fun e => hu (h.st.2 e))]
      split
      · show Q c.wakeupInternal.1 _
        rw [Ctl.wakeupInternal, if_neg hu]
        exact q.setStatus .operational false rfl (fun e => hu (h.st.2 e))
      · rename_i e
        rw [q.sim] at e
        cases e
  | wakeupInternal =>
    simp only [Ctl.apiAlive, Ctl.wakeupInternal, Conf.call]
    split
    · rename_i hu
      rw [if_neg (by simp [h.st.1 hu])]
      exact q
    · rename_i hu
      rw [if_pos (fun e => hu (h.st.2 e))]
      exact q.setStatus .operational false rfl (fun e => hu (h.st.2 e))
  | getSlaveConfiguration =>
    simp only [Ctl.apiAlive, Ctl.getSlaveConfiguration, Conf.call]
    split <;> exact q
  | addHandler k =>
    refine nochange _ ?_ ?_ ?_ rfl <;>
    · simp only [Ctl.apiAlive, Ctl.addHandler, R.andThen]
      split <;> rfl
  | removeHandler k id => exact nochange _ rfl rfl rfl rfl
  | sim x => exact absurd hs (by simp [Call.noSim])

/-- Messages that controllers send, as they reach controller `i`. -/
def Msg.Valid : Msg → Prop
  | .header id => id < 64
  | _ => True

theorem slaveConfigured_sim (c : Ctl) : c.slaveConfigured.1.sim = c.sim := by
  unfold Ctl.slaveConfigured
  split <;> rfl

theorem recv_same (f : Conf) (i src : Nat) (m : Msg) : (f.recv i src m).mode = f.mode ∧ (f.recv i src m).asleep = f.asleep := by
  cases m with
  | config mode dyn rs =>
    simp only [Conf.recv]
    split
    · simp
    · exact ⟨(announce_same _ src rs).1, (announce_same _ src rs).2.2.2.2.2⟩
  | responses rs =>
    simp only [Conf.recv]
    split
    · simp
    · exact ⟨(announce_same _ src rs).1, (announce_same _ src rs).2.2.2.2.2⟩
  | _ => simp [Conf.recv]

theorem take_same {c : Ctl} (hsp : c.status ≠ .sleepPending) (src : Nat) (m : Msg) (hv : m.Valid) :
    (c.take src m).1.sim = c.sim ∧ (c.take src m).1.status = c.status ∧ (c.take src m).1.mode = c.mode ∧ (c.take src m).1.isDynamic = c.isDynamic ∧ (c.take src m).1.dead = c.dead := by
  cases m with
  | frameRequest f ty => simp [Ctl.take]
  | header id => rw [show c.take src (.header id) = c.onHeader id from rfl, onHeader_alive hv]; simp
  | transmission f s => rw [show c.take src (.transmission f s) = c.onTransmission f s from rfl, onTransmission_same hsp]; simp
  | wakeup d => simp [Ctl.take, Ctl.tell]
  | config mode dyn rs =>
    simp only [Ctl.take]
    have k := slaveConfigured_kept (Ctl.learn { c with nodes := updNode src (fun n => { n with mode := mode, status := .operational, isDynamic := dyn }) c.nodes } src rs)
    have k' := (Fine.slaveConfigured (Ctl.learn { c with nodes := updNode src (fun n => { n with mode := mode, status := .operational, isDynamic := dyn }) c.nodes } src rs))
    refine ⟨slaveConfigured_sim _, slaveConfigured_status _, k.2.1, k.2.2.1, ?_⟩
    unfold Ctl.slaveConfigured
    split <;> rfl
  | responses rs =>
    simp only [Ctl.take]
    have k := slaveConfigured_kept (c.learn src rs)
    refine ⟨slaveConfigured_sim _, slaveConfigured_status _, k.2.1, k.2.2.1, ?_⟩
    unfold Ctl.slaveConfigured
    split <;> rfl
  | status s => simp [Ctl.take]

theorem Q.receive {c : Ctl} {f : Conf} (h : I c f) (q : Q c f) (hd : c.dead = false) (src : Nat) (m : Msg) (hv : m.Valid) (hself : src = c.self → ∃ id, m = .header id) :
    Q (c.receive src m).1 (f.recv c.self src m) ∧ (c.receive src m).1.dead = false := by
  have rs := recv_same f c.self src m
  rw [Ctl.receive, if_neg (by simp [hd]), if_neg (by simp [q.sim])]
  split
  · exact ⟨q.kept rfl rfl rfl rs.1 rs.2, hd⟩
  · rename_i hn
    obtain ⟨t1, t2, t3, t4, t5, _⟩ := take_nodes h.sorted src m
    have tt := take_same (c := c) (by rw [q.st]; exact Conf.status_sp f) src m hv
    refine ⟨q.kept tt.1 tt.2.1 ?_ rs.1 rs.2, tt.2.2.2.2.trans hd⟩
    rw [Ctl.own, t5]
    by_cases e : src = c.self
    · obtain ⟨id, rfl⟩ := hself e
      rw [← e, t3]
      simp only [viewStep, Ctl.own, e]
    · exact t2 _ (Ne.symm e)

/-- Inputs with valid identifiers, without network simulation. -/
def Input.Valid (i : Nat) : Input → Prop
  | .call a => a.Valid ∧ a.noSim
  | .recv src m => m.Valid ∧ (src = i → ∃ id, m = .header id)

theorem Input.Valid.ok {i : Nat} {x : Input} (h : Input.Valid i x) : Input.Ok i x := by
  cases x with
  | call a => trivial
  | recv src m =>
    intro s e hs
    obtain ⟨id, e'⟩ := h.2 hs
    rw [e] at e'
    cases e'

theorem conf_asleep (i : Nat) (h : List Input) : (conf i h).mode = .inactive → (conf i h).asleep = false := by
  rw [← List.reverse_reverse h]
  induction h.reverse with
  | nil => intro _; rfl
  | cons x t ih =>
    rw [List.reverse_cons, conf_append]
    generalize conf i t.reverse = f at ih
    cases x with
    | recv src m =>
      simp only [Conf.input]
      rw [(recv_same f i src m).1, (recv_same f i src m).2]
      exact ih
    | call a =>
      have hset : ∀ r : Response, (f.set r).mode = .inactive → (f.set r).asleep = false := by
        intro r
        rw [(same_set f r).1, (same_set f r).2.2.1]
        exact ih
      have hinit : ∀ mode dyn rs, (f.initWith mode dyn rs).mode = .inactive → (f.initWith mode dyn rs).asleep = false := by
        intro mode dyn rs
        unfold Conf.initWith
        split
        · rename_i hc
          rw [(same_sets rs _).1, (same_sets rs _).2.2.1]
          intro e
          exact absurd e hc.2
        · exact ih
      simp only [Conf.input]
      cases a with
      | init mode rs => exact hinit _ _ _
      | initDynamic mode => exact hinit _ _ _
      | sendDynamicResponse fr => exact hset _
      | sendFrame fr ty =>
        cases ty <;> simp only [Conf.call]
        · split
          · exact hset _
          · exact ih
        · split
          · exact hset _
          · exact ih
        · exact ih
      | setFrameResponse r =>
        simp only [Conf.call]
        split
        · exact hset _
        · exact ih
      | updateTxBuffer fr =>
        simp only [Conf.call]
        split
        · exact ih
        · exact ih
      | goToSleep =>
        simp only [Conf.call]
        split
        · rename_i hm
          simp [hm]
        · exact ih
      | goToSleepInternal =>
        simp only [Conf.call]
        split
        · rename_i hm
          intro e
          exact absurd e hm
        · exact ih
      | wakeup =>
        simp only [Conf.call]
        split
        · simp
        · exact ih
      | wakeupInternal =>
        simp only [Conf.call]
        split
        · simp
        · exact ih
      | _ => exact ih

/-- A controller in a network without simulation, with valid identifiers. -/
theorem solo_Q (i : Nat) (net : String) (h : List Input) (hv : ∀ x ∈ h, Input.Valid i x) :
    (solo i net h).1.dead = false ∧ I (solo i net h).1 (conf i h) ∧ Q (solo i net h).1 (conf i h) := by
  rw [← List.reverse_reverse h] at hv ⊢
  generalize h.reverse = h at hv
  induction h with
  | nil => exact ⟨rfl, I.init i net, rfl, rfl, fun h => absurd rfl h⟩
  | cons x t ih =>
    rw [List.reverse_cons] at hv ⊢
    obtain ⟨i1, i2, i3⟩ := ih fun y hy => hv y (by simp [List.mem_reverse.1 hy])
    have hx := hv x (by simp)
    have hI := solo_I i net (t.reverse ++ [x]) fun y hy => (hv y hy).ok
    have hs := (solo_good i net t.reverse).1
    rw [solo_append, conf_append] at hI ⊢
    cases x with
    | call a =>
      have hd := api_alive i2 a hx.1 i1
      have he : onInput (solo i net t.reverse) (.call a) = ((Ctl.apiAlive (solo i net t.reverse).1 a).1, (solo i net t.reverse).2 ++ (Ctl.apiAlive (solo i net t.reverse).1 a).2) := by
        simp only [onInput, Ctl.input, Ctl.api, i1]
        rfl
      rw [he] at hI ⊢
      have q := i3.api i2 (conf_asleep i t.reverse) a hx.1 hx.2
      exact ⟨hd, hI.resolve_left (by simp [hd]), q⟩
    | recv src m =>
      have q := i3.receive i2 i1 src m hx.1 (fun e => hx.2 (e.trans hs))
      rw [hs] at q
      exact ⟨q.2, hI.resolve_left (by simp only [onInput, Ctl.input]; simp [q.2]), q.1⟩

end SilKit.Lin
