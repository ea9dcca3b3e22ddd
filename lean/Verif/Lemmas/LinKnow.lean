import Verif.Lemmas.LinNet
/-!
# LIN networks: what controllers know of each other
-/
namespace SilKit.Lin
open SilKit.Lin.Spec SilKit.Handling.Spec

/-! ## What is sent -/

theorem sendsOf_tell (T : Kind → Handling.Table) (n : Notice) : sendsOf (Handling.tell events T n) = [] := by
  unfold sendsOf
  rw [List.filterMap_eq_nil_iff]
  intro o ho
  rcases Handling.mem_tell ho with rfl | ⟨id, mask, _, _, rfl⟩
  · rfl
  · rfl

theorem sendsOf_andThen (r : R) (f : Ctl → R) : sendsOf (r.andThen f).2 = sendsOf r.2 ++ sendsOf (f r.1).2 := sendsOf_append _ _

theorem sends_tell (c : Ctl) (n : Notice) : sendsOf (c.tell n).2 = [] := sendsOf_tell _ _
theorem sends_send (c : Ctl) (m : Msg) : sendsOf (c.send m).2 = [m] := rfl
theorem sends_throw (c : Ctl) : sendsOf c.throw.2 = [] := rfl
theorem sends_ub (c : Ctl) : sendsOf c.ub.2 = [] := rfl

/-- A header, or a transmission. -/
def Bus (id : Nat) (m : Msg) : Prop := m = .header id ∨ ∃ f s, m = .transmission f s

theorem sends_requestHeader (c : Ctl) (id : Nat) : ∀ m ∈ sendsOf (c.requestHeader id).2, Bus id m := by
  unfold Ctl.requestHeader
  split
  · simp [sendsOf, sendOf]
  · split
    · simp [sends_ub]
    · split
      · rw [sends_send]; simp [Bus]
      · unfold Ctl.sendError
        rw [sendsOf_andThen, sends_send]
        split
        · rw [sends_ub]; simp [Bus]
        · rw [sends_tell]; simp [Bus]

theorem sends_requestFrame (c : Ctl) (f : Frame) (ty : RespType) : ∀ m ∈ sendsOf (c.requestFrame f ty).2, Bus f.id m := by
  unfold Ctl.requestFrame
  split
  · simp [sendsOf, sendOf]
  · split
    · simp [sendsOf]
    · exact sends_requestHeader c f.id

theorem sends_processHeader (c : Ctl) (id : Nat) : ∀ m ∈ sendsOf (c.processHeader id).2, ∃ f s, m = .transmission f s := by
  unfold Ctl.processHeader
  split
  · simp [sendsOf]
  · split
    · simp [sends_ub]
    · split
      · simp [sendsOf]
      · split
        · simp [sends_throw]
        · rw [sendsOf_andThen, sends_send, sends_tell]; simp

theorem sends_onTransmission (c : Ctl) (f : Frame) (s : FrameStatus) : sendsOf (c.onTransmission f s).2 = [] := by
  have hsl : ∀ c : Ctl, sendsOf (c.sleepFrame f).2 = [] := by
    intro c
    unfold Ctl.sleepFrame
    split
    · split
      · exact sends_tell _ _
      · rfl
      · rfl
    · rfl
  unfold Ctl.onTransmission
  split
  · rfl
  · split
    · rfl
    · split
      · rfl
      · split
        · rfl
        · rw [sendsOf_andThen, hsl, List.append_nil]
          split
          · exact sends_tell _ _
          · rfl

theorem sends_slaveConfigured (c : Ctl) : sendsOf c.slaveConfigured.2 = [] := by
  unfold Ctl.slaveConfigured
  split
  · rfl
  · exact sends_tell _ _

theorem sends_receive (c : Ctl) (src : Nat) (m : Msg) : ∀ m' ∈ sendsOf (c.receive src m).2, ∃ f s, m' = .transmission f s := by
  unfold Ctl.receive
  split
  · simp [sendsOf]
  · split
    · simp [sendsOf]
    · split
      · simp [sendsOf]
      · cases m with
        | frameRequest f ty => simp [Ctl.take, sendsOf]
        | header id =>
          simp only [Ctl.take, Ctl.onHeader]
          split
          · rw [sends_tell]; simp
          · exact sends_processHeader c id
        | transmission f s => simp only [Ctl.take]; rw [sends_onTransmission]; simp
        | wakeup d => simp only [Ctl.take]; rw [sends_tell]; simp
        | config mode dyn rs => simp only [Ctl.take]; rw [sends_slaveConfigured]; simp
        | responses rs => simp only [Ctl.take]; rw [sends_slaveConfigured]; simp
        | status s => simp [Ctl.take, sendsOf]

theorem sends_updateFrameResponse {c : Ctl} (h : c.sim = none) (r : Response) :
    sendsOf (c.updateFrameResponse r).2 = if c.mode = .slave then [.responses [r]] else [] := by
  unfold Ctl.updateFrameResponse Ctl.distribute
  have e : (c.setOwn (·.updateResponses [r])).sim = none := h
  rw [e]
  simp only [ne_eq, not_true_eq_false, false_or]
  by_cases hm : c.mode = .slave
  · rw [if_pos hm]; simp only [Ctl.setOwn, hm, if_true]; rfl
  · rw [if_neg hm]; simp only [Ctl.setOwn, hm, if_false]; rfl

/-- Frames up to the data, which slaves do not announce when they change. -/
def Alike (r r' : Response) : Prop := r.mode = r'.mode ∧ r.frame.id = r'.frame.id ∧ r.frame.checksum = r'.frame.checksum ∧ r.frame.dataLength = r'.frame.dataLength

theorem Alike.refl (r : Response) : Alike r r := ⟨rfl, rfl, rfl, rfl⟩

theorem Alike.updateResponse {v n : Node} (h : ∀ id, Alike (v.resp id) (n.resp id)) (r : Response) (id : Nat) : Alike ((v.updateResponse r).resp id) ((n.updateResponse r).resp id) := by
  unfold Node.updateResponse
  split
  · exact h id
  · simp only
    split
    · exact Alike.refl r
    · exact h id

theorem Alike.updateResponses (rs : List Response) {v n : Node} (h : ∀ id, Alike (v.resp id) (n.resp id)) : ∀ id, Alike ((v.updateResponses rs).resp id) ((n.updateResponses rs).resp id) := by
  unfold Node.updateResponses
  induction rs generalizing v n with
  | nil => exact h
  | cons r t ih => exact ih (Alike.updateResponse h r)

/-- `v` is what controller `c` has announced. -/
structure Knows (v : Node) (c : Ctl) : Prop where
  dyn : v.isDynamic = false
  mode : v.mode = if c.mode = .slave then .slave else .inactive
  status : c.mode = .slave → v.status = c.status
  resp : c.mode ≠ .master → ∀ id, Alike (v.resp id) (c.own.resp id)

theorem Knows.kept {v : Node} {c c' : Ctl} (h : Knows v c) (h1 : c'.mode = c.mode) (h2 : c'.status = c.status) (h3 : c'.own = c.own) : Knows v c' :=
  ⟨h.dyn, by rw [h1]; exact h.mode, by rw [h1, h2]; exact h.status, by rw [h1, h3]; exact h.resp⟩

theorem foldl_view_bus (v : Node) (ms : List Msg) (h : ∀ m ∈ ms, ∃ id, Bus id m) : ms.foldl viewStep v = v := by
  induction ms generalizing v with
  | nil => rfl
  | cons m t ih =>
    rw [List.foldl_cons, show viewStep v m = v from ?_]
    · exact ih v fun m hm => h m (by simp [hm])
    · obtain ⟨id, rfl | ⟨f, s, rfl⟩⟩ := h m (by simp) <;> rfl

theorem foldl_view_bus' (v : Node) (ms : List Msg) {id : Nat} (h : ∀ m ∈ ms, Bus id m) : ms.foldl viewStep v = v := foldl_view_bus v ms fun m hm => ⟨id, h m hm⟩

/-- What a call sends. -/
structure Sends (c : Ctl) (r : R) : Prop where
  valid : ∀ m ∈ sendsOf r.2, m.Valid
  news : ∀ v, Knows v c → Knows ((sendsOf r.2).foldl viewStep v) r.1

theorem Sends.quiet {c : Ctl} {r : R} (h : sendsOf r.2 = []) (h1 : r.1.mode = c.mode) (h2 : r.1.status = c.status) (h3 : r.1.own = c.own) : Sends c r :=
  ⟨by simp [h], fun v hv => by rw [h]; exact hv.kept h1 h2 h3⟩

theorem Bus.valid {id : Nat} {m : Msg} (h : Bus id m) (hid : id < 64) : m.Valid := by
  rcases h with rfl | ⟨f, s, rfl⟩
  · exact hid
  · trivial

theorem Sends.bus {c : Ctl} {r : R} {id : Nat} (hid : id < 64) (h : ∀ m ∈ sendsOf r.2, Bus id m) (h1 : r.1 = c) : Sends c r :=
  ⟨fun m hm => (h m hm).valid hid, fun v hv => by rw [foldl_view_bus' v _ h, h1]; exact hv⟩

theorem Sends.updateFrameResponse {c : Ctl} {f : Conf} (h : I c f) (q : Q c f) (r : Response) (hm : c.mode ≠ .inactive) : Sends c (c.updateFrameResponse r) := by
  have e := sends_updateFrameResponse q.sim r
  refine ⟨?_, fun v hv => ?_⟩
  · rw [e]; split <;> simp [Msg.Valid]
  · rw [e, updateFrameResponse_fst]
    have eo := setOwn_own h.sorted (c := c) (·.updateResponses [r])
    have em : (c.setOwn (·.updateResponses [r])).mode = c.mode := rfl
    have es : (c.setOwn (·.updateResponses [r])).status = c.status := rfl
    by_cases hs : c.mode = .slave
    · rw [if_pos hs]
      simp only [List.foldl_cons, List.foldl_nil, viewStep]
      obtain ⟨m1, m2, m3⟩ := updateResponses_mode v [r]
      refine ⟨m3.trans hv.dyn, by rw [m1, em]; exact hv.mode, fun _ => by rw [m2, es]; exact hv.status hs, fun hn id => ?_⟩
      rw [eo]
      exact Alike.updateResponses [r] (hv.resp (by simp [hs])) id
    · rw [if_neg hs]
      simp only [List.foldl_nil]
      refine ⟨hv.dyn, by rw [em]; exact hv.mode, fun h' => absurd h' hs, fun hn => ?_⟩
      cases hmm : c.mode with
      | inactive => exact absurd hmm hm
      | master => exact absurd hmm hn
      | slave => exact absurd hmm hs

theorem Sends.andBus {c : Ctl} {r : R} {g : Ctl → R} {id : Nat} (h : Sends c r) (hid : id < 64) (hb : ∀ m ∈ sendsOf (g r.1).2, Bus id m) (h1 : (g r.1).1 = r.1) : Sends c (r.andThen g) := by
  refine ⟨fun m hm => ?_, fun v hv => ?_⟩
  · rw [sendsOf_andThen, List.mem_append] at hm
    rcases hm with hm | hm
    · exact h.valid m hm
    · exact (hb m hm).valid hid
  · rw [sendsOf_andThen, List.foldl_append, foldl_view_bus' _ _ hb]
    show Knows _ (g r.1).1
    rw [h1]
    exact h.news v hv

theorem Sends.status {c : Ctl} (s : Status) (h : c.mode ≠ .inactive) : Sends c (c.setStatus s) := by
  refine ⟨by simp [Ctl.setStatus, sends_send, Msg.Valid], fun v hv => ?_⟩
  rw [show sendsOf (c.setStatus s).2 = [.status s] from rfl]
  exact ⟨hv.dyn, hv.mode, fun _ => rfl, hv.resp⟩

theorem Sends.init {c : Ctl} {f : Conf} (h : I c f) (q : Q c f) (mode : Mode) (rs : List Response) : Sends c (c.init mode rs) := by
  unfold Ctl.init
  split
  · exact Sends.quiet rfl rfl rfl rfl
  · split
    · exact Sends.quiet rfl rfl rfl rfl
    · rename_i hm hu
      rw [Classical.not_not] at hu
      have hmi : c.mode = .inactive := by rw [h.mode]; exact h.st.1 hu
      have eo : ∀ c' : Ctl, c'.self = c.self → c'.nodes = updNode c.self (fun n => Node.updateResponses { n with mode := mode, status := .operational } rs) c.nodes →
          c'.own = Node.updateResponses { c.own with mode := mode, status := .operational } rs := by
        intro c' e1 e2
        rw [Ctl.own, e1, e2]
        exact getNode_updNode_self h.sorted _ _
      unfold Ctl.distribute
      simp only [Ctl.setOwn, q.sim, ne_eq, not_true_eq_false, false_or]
      by_cases hs : mode = .slave
      · rw [if_pos hs]
        refine ⟨by simp [sends_send, Msg.Valid], fun v hv => ?_⟩
        rw [sends_send]
        simp only [List.foldl_cons, List.foldl_nil, viewStep]
        obtain ⟨m1, m2, m3⟩ := updateResponses_mode { v with mode := mode, status := .operational, isDynamic := false } rs
        refine ⟨m3, by rw [m1]; simp [Ctl.send, hs], fun _ => m2, fun hn id => ?_⟩
        have key := Alike.updateResponses rs (v := { v with mode := mode, status := .operational, isDynamic := false }) (n := { c.own with mode := mode, status := .operational })
          (hv.resp (by simp [hmi])) id
        refine Eq.mp (congrArg (fun n : Node => Alike _ (n.resp id)) (Eq.symm ?_)) key
        exact eo _ rfl rfl
      · rw [if_neg hs]
        refine ⟨by simp [sendsOf], fun v hv => ?_⟩
        have hmm : mode = .master := by cases mode <;> simp_all
        refine ⟨hv.dyn, ?_, fun h' => absurd h' hs, fun h' => absurd hmm h'⟩
        show v.mode = if mode = .slave then _ else _
        rw [if_neg hs, hv.mode, hmi]
        simp

theorem Sends.api {c : Ctl} {f : Conf} (h : I c f) (q : Q c f) (a : Call) (hv : a.Valid) (hs : a.noSim) (hst : a.isStatic) : Sends c (c.apiAlive a) := by
  have same : ∀ r : R, r = (c, []) → Sends c r := by rintro r rfl; exact Sends.quiet rfl rfl rfl rfl
  have throws : Sends c c.throw := Sends.quiet rfl rfl rfl rfl
  have act : ¬ c.status = .unknown → c.mode ≠ .inactive := fun hu e => hu (h.stMode.2 e)
  cases a with
  | init mode rs => exact Sends.init h q mode rs
  | initDynamic mode => exact absurd hst (by simp [Call.isStatic])
  | sendDynamicResponse fr => exact absurd hst (by simp [Call.isStatic])
  | sendFrame fr ty =>
    have hid : fr.id < 64 := hv
    simp only [Ctl.apiAlive, Ctl.sendFrame]
    split
    · exact throws
    · rename_i hu
      split
      · exact throws
      · split
        · exact throws
        · have hua := fun r => Sends.updateFrameResponse h q r (act hu)
          cases ty with
          | masterResponse =>
            simp only [Ctl.sendFrameInternal]
            exact (hua _).andBus hid (sends_requestFrame _ _ _) (requestFrame_alive hid (updateFrameResponse_ok h _))
          | slaveResponse =>
            simp only [Ctl.sendFrameInternal]
            split
            · exact Sends.quiet (sends_tell _ _) rfl rfl rfl
            · unfold Ctl.sendFrameSlave
              rw [if_neg (by omega)]
              split
              · exact (hua _).andBus hid (sends_requestFrame _ _ _) (requestFrame_alive hid (updateFrameResponse_ok h _))
              · exact same _ rfl
              · exact Sends.bus hid (sends_requestFrame _ _ _) (requestFrame_alive hid h.ok)
          | slaveToSlave =>
            simp only [Ctl.sendFrameInternal]
            split
            · exact Sends.quiet (sends_tell _ _) rfl rfl rfl
            · exact (Sends.quiet (r := c.tell (.frame fr .txOk)) (sends_tell _ _) rfl rfl rfl).andBus hid (sends_requestFrame _ _ _) (requestFrame_alive hid h.ok)
  | sendFrameHeader id =>
    have hid : id < 64 := hv
    simp only [Ctl.apiAlive, Ctl.sendFrameHeader]
    split
    · exact throws
    · split
      · exact throws
      · exact Sends.bus hid (sends_requestHeader _ _) (requestHeader_alive hid h.ok)
  | updateTxBuffer fr =>
    simp only [Ctl.apiAlive, Ctl.updateTxBuffer]
    split
    · exact throws
    · split
      · exact throws
      · have hid : fr.id < 64 := hv
        rw [if_neg (by omega)]
        split
        · exact throws
        · simp only [R.andThen]
          rw [if_pos (show (c.setOwn (·.updateTxBuffer fr.id fr.data)).sim = none from q.sim)]
          refine ⟨by simp [sendsOf], fun v hv => ?_⟩
          have eo := setOwn_own h.sorted (c := c) (·.updateTxBuffer fr.id fr.data)
          refine ⟨hv.dyn, hv.mode, hv.status, fun hn id => ?_⟩
          show Alike _ ((c.setOwn (·.updateTxBuffer fr.id fr.data)).own.resp id)
          rw [eo]
          simp only [Node.updateTxBuffer, if_neg (show ¬ fr.id ≥ 64 by omega)]
          split
          · exact hv.resp hn id
          · exact hv.resp hn id
  | setFrameResponse r =>
    simp only [Ctl.apiAlive, Ctl.setFrameResponse]
    split
    · exact throws
    · rename_i hu
      split
      · exact throws
      · split
        · exact same _ rfl
        · split
          · exact same _ rfl
          · split
            · exact same _ rfl
            · exact Sends.updateFrameResponse h q r (act hu)
  | goToSleep =>
    simp only [Ctl.apiAlive, Ctl.goToSleep]
    split
    · exact throws
    · rename_i hu
      split
      · exact throws
      · split
        · have e : (c.goToSleepInternal) = c.setStatus .sleep := by rw [Ctl.goToSleepInternal, if_neg hu]
          have hs' := Sends.status (c := c) .sleep (act hu)
          refine ⟨fun m hm => ?_, fun v hv => ?_⟩
          · rw [sendsOf_andThen, sendsOf_andThen, sends_send, sends_tell] at hm
            simp only [List.append_nil, List.mem_append, List.mem_singleton] at hm
            rcases hm with rfl | hm
            · trivial
            · refine hs'.valid m ?_
              rw [← e]; exact hm
          · rw [sendsOf_andThen, sendsOf_andThen, sends_send, sends_tell]
            simp only [List.append_nil, List.foldl_append, List.foldl_cons, List.foldl_nil, viewStep]
            have := hs'.news v hv
            rw [← e] at this
            exact this
        · rename_i e
          rw [q.sim] at e
          cases e
  | goToSleepInternal =>
    simp only [Ctl.apiAlive, Ctl.goToSleepInternal]
    split
    · exact throws
    · rename_i hu
      exact Sends.status .sleep (act hu)
  | wakeup =>
    simp only [Ctl.apiAlive, Ctl.wakeup]
    split
    · exact throws
    · rename_i hu
      split
      · have e : (c.wakeupInternal) = c.setStatus .operational := by rw [Ctl.wakeupInternal, if_neg hu]
        have hs' := Sends.status (c := c) .operational (act hu)
        refine ⟨fun m hm => ?_, fun v hv => ?_⟩
        · rw [sendsOf_andThen, sendsOf_andThen, sends_send, sends_tell] at hm
          simp only [List.append_nil, List.mem_append, List.mem_singleton] at hm
          rcases hm with rfl | hm
          · trivial
          · refine hs'.valid m ?_
            rw [← e]; exact hm
        · rw [sendsOf_andThen, sendsOf_andThen, sends_send, sends_tell]
          simp only [List.append_nil, List.foldl_append, List.foldl_cons, List.foldl_nil, viewStep]
          have := hs'.news v hv
          rw [← e] at this
          exact this
      · rename_i e
        rw [q.sim] at e
        cases e
  | wakeupInternal =>
    simp only [Ctl.apiAlive, Ctl.wakeupInternal]
    split
    · exact throws
    · rename_i hu
      exact Sends.status .operational (act hu)
  | getSlaveConfiguration =>
    simp only [Ctl.apiAlive, Ctl.getSlaveConfiguration]
    split
    · exact throws
    · exact same _ rfl
  | addHandler k =>
    simp only [Ctl.apiAlive, Ctl.addHandler]
    refine Sends.quiet ?_ ?_ ?_ ?_
    · rw [sendsOf_andThen]
      split
      · rw [sends_tell]; rfl
      · rfl
    · simp only [R.andThen]; split <;> rfl
    · simp only [R.andThen]; split <;> rfl
    · simp only [R.andThen]; split <;> rfl
  | removeHandler k id => exact Sends.quiet rfl rfl rfl rfl
  | sim x => exact absurd hs (by simp [Call.noSim])

end SilKit.Lin
