import Verif.Lemmas.LinReject
import Verif.Lemmas.LinPending
/-!
# LIN networks (C31), rejected calls (C32) and handlers of LIN controllers (C39)

`h` is an arbitrary history of `k` LIN controllers on a network: calls of the API, and deliveries of messages and of subscriptions in any order.
`confAt i t` is what the users have configured at controller `i`, by their calls alone; `reported i t` is what the controller reports to its handlers.
-/
namespace SilKit.Props
open SilKit.Lin SilKit.Lin.Spec SilKit.Handling.Spec

/-! ## Requested frames -/

section
variable {k : Nat} {net : String} {h : List Act} {m : Nat} {a : Call} {id : Nat} {ds : List Act}

/-- The call `a` at the master `m` requests the frame `id`, and then all messages are delivered. If exactly one node `r` is configured to respond, it reports
the successful transmission of its frame, and all others report its reception, as far as they listen to it (`sees`).

Missing: nodes with dynamic responses, nodes that leave, nodes that join late, several masters, and responding slaves that sleep; see the counterexamples. -/
theorem C31_frame_of_the_single_responder_is_delivered_partial (hp : Plain (h ++ [.api m a])) (ho : OpenFirst k (h ++ [.api m a])) (hm : m < k) (hs : Settled k net h)
    (hr : (confAt m (trace k net h)).requests id a) (hds : Deliveries ds) (hend : Settled k net (h ++ [.api m a] ++ ds))
    (hone : ∀ i, i < k → i ≠ m → (confAt i (trace k net (h ++ [.api m a]))).mode ≠ .master)
    (haw : ∀ i ∈ responders k (trace k net (h ++ [.api m a])) id, i ≠ m → (confAt i (trace k net (h ++ [.api m a]))).asleep = false)
    {r : Nat} (hres : responders k (trace k net (h ++ [.api m a])) id = [r])
    (hlen : ((confAt r (trace k net (h ++ [.api m a]))).resp id).frame.dataLength ≠ lengthUnknown) {i : Nat} (hi : i < k) :
    reported i (trace k net (h ++ [.api m a] ++ ds)) = reported i (trace k net h) ++ (if i = m then firstReport a else []) ++
      (if i = r then [.frame ((confAt r (trace k net (h ++ [.api m a]))).resp id).frame .txOk]
       else (confAt i (trace k net (h ++ [.api m a]))).sees ((confAt r (trace k net (h ++ [.api m a]))).resp id).frame .rxOk) :=
  answered_one hp ho hm hs hr hds hend hone haw hres hlen hi

/-- If no node is configured to respond, the master reports that there was no response, and the frame is on the bus without a response. -/
theorem C31_frame_without_responder_is_not_delivered_partial (hp : Plain (h ++ [.api m a])) (ho : OpenFirst k (h ++ [.api m a])) (hm : m < k) (hs : Settled k net h)
    (hr : (confAt m (trace k net h)).requests id a) (hds : Deliveries ds) (hend : Settled k net (h ++ [.api m a] ++ ds))
    (hone : ∀ i, i < k → i ≠ m → (confAt i (trace k net (h ++ [.api m a]))).mode ≠ .master)
    (hres : responders k (trace k net (h ++ [.api m a])) id = []) {i : Nat} (hi : i < k) :
    reported i (trace k net (h ++ [.api m a] ++ ds)) = reported i (trace k net h) ++ (if i = m then firstReport a else []) ++
      (if i = m then [.frame { id := id } .rxNoResponse] else (confAt i (trace k net (h ++ [.api m a]))).sees { id := id } .rxNoResponse) := by
  obtain ⟨F, _, hF, H⟩ := answered_error hp ho hm hs hr hds hend hone (by rw [hres]; simp) (by rw [hres]; simp)
  rcases hF with ⟨_, rfl⟩ | ⟨r, hr, _⟩
  · rw [H i hi, hres]
    simp
  · rw [hres] at hr
    simp at hr

/-- If several nodes are configured to respond, everybody who listens reports an error, and nobody a reception. -/
theorem C31_frame_with_several_responders_is_an_error_partial (hp : Plain (h ++ [.api m a])) (ho : OpenFirst k (h ++ [.api m a])) (hm : m < k) (hs : Settled k net h)
    (hr : (confAt m (trace k net h)).requests id a) (hds : Deliveries ds) (hend : Settled k net (h ++ [.api m a] ++ ds))
    (hone : ∀ i, i < k → i ≠ m → (confAt i (trace k net (h ++ [.api m a]))).mode ≠ .master)
    (haw : ∀ i ∈ responders k (trace k net (h ++ [.api m a])) id, i ≠ m → (confAt i (trace k net (h ++ [.api m a]))).asleep = false)
    (hres : 2 ≤ (responders k (trace k net (h ++ [.api m a])) id).length) :
    ∃ F : Frame, F.id = id ∧ (∃ r ∈ responders k (trace k net (h ++ [.api m a])) id,
        F.dataLength = ((confAt r (trace k net (h ++ [.api m a]))).resp id).frame.dataLength ∧
        F.checksum = ((confAt r (trace k net (h ++ [.api m a]))).resp id).frame.checksum) ∧
      ∀ i, i < k → reported i (trace k net (h ++ [.api m a] ++ ds)) = reported i (trace k net h) ++ (if i = m then firstReport a else []) ++
        (if i = m then [.frame F (if m ∈ responders k (trace k net (h ++ [.api m a])) id then .txError else .rxError)]
         else (confAt i (trace k net (h ++ [.api m a]))).sees F .rxError) := by
  have hne : responders k (trace k net (h ++ [.api m a])) id ≠ [] := by
    intro e
    rw [e] at hres
    simp at hres
  obtain ⟨F, hid, hF, H⟩ := answered_error hp ho hm hs hr hds hend hone haw (by omega)
  rcases hF with ⟨e, _⟩ | ⟨r, hr, h1, h2⟩
  · exact absurd e hne
  · refine ⟨F, hid, ⟨r, hr, h1, h2⟩, fun i hi => ?_⟩
    rw [H i hi]
    simp only [hne, if_false]

/-- A node reports the reception of the frame if and only if exactly one node is configured to respond: a node `i` that is awake and configured to receive
the frame as it is configured at those that respond. -/
theorem C31_received_iff_exactly_one_responds_partial (hp : Plain (h ++ [.api m a])) (ho : OpenFirst k (h ++ [.api m a])) (hm : m < k) (hs : Settled k net h)
    (hr : (confAt m (trace k net h)).requests id a) (hds : Deliveries ds) (hend : Settled k net (h ++ [.api m a] ++ ds))
    (hone : ∀ i, i < k → i ≠ m → (confAt i (trace k net (h ++ [.api m a]))).mode ≠ .master)
    (haw : ∀ i ∈ responders k (trace k net (h ++ [.api m a])) id, i ≠ m → (confAt i (trace k net (h ++ [.api m a]))).asleep = false)
    (hlen : ∀ r ∈ responders k (trace k net (h ++ [.api m a])) id, ((confAt r (trace k net (h ++ [.api m a]))).resp id).frame.dataLength ≤ 8)
    {i : Nat} (hi : i < k) (hawake : (confAt i (trace k net (h ++ [.api m a]))).mode ≠ .inactive ∧ (confAt i (trace k net (h ++ [.api m a]))).asleep = false)
    (hrx : ((confAt i (trace k net (h ++ [.api m a]))).resp id).mode = .rx)
    (hfit : ∀ r ∈ responders k (trace k net (h ++ [.api m a])) id,
      fits ((confAt i (trace k net (h ++ [.api m a]))).resp id).frame ((confAt r (trace k net (h ++ [.api m a]))).resp id).frame = true) :
    (∃ new, reported i (trace k net (h ++ [.api m a] ++ ds)) = reported i (trace k net h) ++ new ∧ ∃ f, Notice.frame f .rxOk ∈ new) ↔
      (responders k (trace k net (h ++ [.api m a])) id).length = 1 := by
  have nofirst : ∀ f, Notice.frame f .rxOk ∉ (if i = m then firstReport a else []) := by
    intro f hf
    split at hf
    · unfold firstReport at hf
      split at hf
      · simp at hf
      · simp at hf
    · simp at hf
  have seesOk : ∀ (F : Frame) (s : FrameStatus), s ≠ .rxOk → ∀ f, Notice.frame f .rxOk ∉ (confAt i (trace k net (h ++ [.api m a]))).sees F s := by
    intro F s hne f hf
    unfold Conf.sees at hf
    split at hf
    · simp at hf
    · rw [List.mem_append] at hf
      rcases hf with hf | hf
      · split at hf
        · simp at hf
        · simp only [List.mem_singleton, Notice.frame.injEq] at hf
          split at hf
          · exact hne hf.2.symm
          · cases hf.2
        · simp only [List.mem_singleton, Notice.frame.injEq] at hf
          cases s <;> simp [asTx] at hf hne
      · split at hf <;> simp at hf
  constructor
  · rintro ⟨new, e, f, hf⟩
    refine Decidable.byContradiction fun hn => ?_
    obtain ⟨F, _, _, H⟩ := answered_error hp ho hm hs hr hds hend hone haw hn
    have e' := H i hi
    rw [e, List.append_assoc] at e'
    have e' := List.append_cancel_left e'
    rw [e', List.mem_append] at hf
    rcases hf with hf | hf
    · exact nofirst f hf
    · split at hf
      · simp only [List.mem_singleton, Notice.frame.injEq] at hf
        have := hf.2
        split at this
        · cases this
        · split at this <;> cases this
      · exact seesOk F _ (by split <;> simp) f hf
  · intro hn
    obtain ⟨r, hres⟩ := List.length_eq_one_iff.1 hn
    have hrm : r ∈ responders k (trace k net (h ++ [.api m a])) id := by rw [hres]; simp
    have hl := hlen r hrm
    have hne : ((confAt r (trace k net (h ++ [.api m a]))).resp id).frame.dataLength ≠ lengthUnknown := by
      intro e; rw [e] at hl; exact absurd hl (by decide)
    have H := answered_one hp ho hm hs hr hds hend hone haw hres hne hi
    rw [List.append_assoc (reported i (trace k net h))] at H
    have hir : i ≠ r := by
      intro e
      subst e
      have : ((confAt i (trace k net (h ++ [.api m a]))).resp id).mode = .tx := by simpa [responders, hi] using hrm
      rw [hrx] at this
      cases this
    refine ⟨_, H, ((confAt r (trace k net (h ++ [.api m a]))).resp id).frame, ?_⟩
    rw [List.mem_append]
    right
    have hid : ((confAt r (trace k net (h ++ [.api m a]))).resp id).frame.id = id := by
      have ni := NI.run (net := net) hp ho
      have ht : ((confAt r (trace k net (h ++ [.api m a]))).resp id).mode = .tx := by
        have := hrm
        simp only [responders, List.mem_filter, beq_iff_eq] at this
        exact this.2
      exact resp_id (ctl_facts ni.inOk r).2.2.1 ht
    rw [if_neg hir, Conf.sees, if_neg (by rintro (h | h | h); exact hawake.1 h; (rw [hawake.2] at h; cases h); omega), hid, hrx, hfit r hrm]
    simp

/-- `SendFrame` for a response of a slave that no slave has announced: the master reports that there is no response, and nothing else happens. -/
theorem C31_unannounced_response_is_reported (i : Nat) (net : String) (h : List Input) (hok : ∀ x ∈ h, Input.Valid i x) (f : Frame) (ty : RespType)
    (hm : (conf i h).mode = .master) (hd : (conf i h).isDynamic = false) (ht : ty ≠ .masterResponse) (ha : (conf i h).announced f.id = false) (hdy : (conf i h).dynamics = []) :
    tolds (solo i net (h ++ [.call (.sendFrame f ty)])).2 = tolds (solo i net h).2 ++ [.frame f .rxNoResponse] ∧
    dids (solo i net (h ++ [.call (.sendFrame f ty)])).2 = dids (solo i net h).2 ∧ (solo i net (h ++ [.call (.sendFrame f ty)])).1 = (solo i net h).1 := by
  obtain ⟨h1, h2, h3⟩ := solo_Q i net h hok
  rw [solo_append]
  generalize solo i net h = r at h1 h2 h3
  have hdn : r.1.hasDynamicNode = false := by
    cases e : r.1.hasDynamicNode with
    | false => rfl
    | true =>
      exact absurd hdy ((h2.hasDynamic hd).1 e)
  have e : r.1.input (.call (.sendFrame f ty)) = r.1.tell (.frame f .rxNoResponse) := by
    simp only [Ctl.input, Ctl.api]
    rw [if_neg (by simp [h1])]
    simp only [Ctl.apiAlive, Ctl.sendFrame]
    rw [if_neg (by rw [h2.st, hm]; simp), if_neg (by rw [h2.mode, hm]; simp), if_neg (by rw [h2.dyn, hd]; simp)]
    have hc : (!r.1.hasRespondingSlave f.id && !r.1.hasDynamicNode) = true := by
      rw [Ctl.hasRespondingSlave, h2.ids, ha, hdn]; rfl
    cases ty with
    | masterResponse => exact absurd rfl ht
    | slaveResponse => simp only [Ctl.sendFrameInternal, hc, if_true]
    | slaveToSlave => simp only [Ctl.sendFrameInternal, hc, if_true]
  simp only [onInput, e]
  refine ⟨?_, ?_, rfl⟩
  · rw [Handling.tolds_append, tolds_tell']
  · rw [Handling.dids_append]
    show _ ++ dids (Handling.tell _ _ _) = _
    rw [Handling.dids_tell]; simp

end

/-! ## Rejected calls -/

/-- A call that is not allowed throws, changes nothing at the controller, and sends and reports nothing. `h` is any history of the controller that did not
run into undefined behaviour. -/
theorem C32_forbidden_call_is_rejected_partial (i : Nat) (net : String) (h : List Input) (hok : ∀ x ∈ h, Input.Ok i x) (hub : Did.ub ∉ dids (solo i net h).2)
    (a : Call) (hf : (conf i h).forbids a) :
    solo i net (h ++ [.call a]) = ((solo i net h).1, (solo i net h).2 ++ [.did .threw]) := by
  have hd : (solo i net h).1.dead = false := by
    cases e : (solo i net h).1.dead with
    | false => rfl
    | true => exact absurd ((solo_good i net h).2.2.1.1 e) hub
  rcases solo_I i net h hok with h' | h'
  · rw [hd] at h'; cases h'
  · rw [solo_append]
    simp only [onInput, Ctl.input, Ctl.api]
    rw [if_neg (by simp [hd]), forbidden_throws h' hf]
    rfl

/-- On a network, with any other controllers and in any state of the messages: the call leaves all controllers and all messages as they are. -/
theorem C32_forbidden_call_leaves_the_network_partial (k : Nat) (net : String) (h : List Act) (i : Nat) (hi : i < k) (hub : Did.ub ∉ dids (outs i (trace k net h)))
    (a : Call) (hf : (confAt i (trace k net h)).forbids a) :
    trace k net (h ++ [.api i a]) = trace k net h ++ [.call i a, .out i (.did .threw)] ∧
    (run k net (h ++ [.api i a])).1 = (run k net h).1 := by
  obtain ⟨e1, e2⟩ := run_solo k net h i
  have hd : ((run k net h).1.ctl i).dead = false := by
    cases e : ((run k net h).1.ctl i).dead with
    | false => rfl
    | true =>
      rw [e1] at e
      have := (solo_good i net _).2.2.1.1 e
      rw [← e2] at this
      exact absurd this hub
  have hI := solo_I i net _ ((chan_self k net h).2.1 i)
  rw [← e1] at hI
  rcases hI with h' | h'
  · rw [hd] at h'; cases h'
  · have ea : ((run k net h).1.ctl i).api a = ((run k net h).1.ctl i).throw := by
      rw [Ctl.api, if_neg (by simp [hd]), forbidden_throws h' hf]
    have es : (run k net h).1.step (.api i a) = ((run k net h).1.become i ((run k net h).1.ctl i).throw, [.call i a, .out i (.did .threw)]) := by
      simp only [Net.step, run_k, if_pos hi, ea]; rfl
    unfold trace
    rw [run_append]
    simp only [Spec.on, es]
    refine ⟨trivial, ?_⟩
    show { (run k net h).1 with ctl := upd (run k net h).1.ctl i ((run k net h).1.ctl i) } = (run k net h).1
    have : upd (run k net h).1.ctl i ((run k net h).1.ctl i) = (run k net h).1.ctl := by
      funext j
      unfold upd
      split
      · rename_i e; rw [e]
      · rfl
    rw [this]

/-- All other calls are not rejected. -/
theorem C32_allowed_call_is_not_rejected (i : Nat) (net : String) (h : List Input) (hok : ∀ x ∈ h, Input.Ok i x) (hub : Did.ub ∉ dids (solo i net h).2)
    (a : Call) (hs : a.noSim) (hd : ∀ f, a ≠ .sendDynamicResponse f) (hf : ¬ (conf i h).forbids a) :
    ∃ os, (solo i net (h ++ [.call a])).2 = (solo i net h).2 ++ os ∧ Did.threw ∉ dids os := by
  have hd' : (solo i net h).1.dead = false := by
    cases e : (solo i net h).1.dead with
    | false => rfl
    | true => exact absurd ((solo_good i net h).2.2.1.1 e) hub
  rcases solo_I i net h hok with h' | h'
  · rw [hd'] at h'; cases h'
  · rw [solo_append]
    refine ⟨_, rfl, ?_⟩
    simp only [Ctl.input, Ctl.api]
    rw [if_neg (by simp [hd'])]
    exact allowed_calm h' hs hd hf

/-- With LIN identifiers there is no undefined behaviour. -/
theorem C32_no_undefined_behaviour_with_lin_identifiers (i : Nat) (net : String) (h : List Input) (hv : ∀ x ∈ h, Input.Valid i x) :
    Did.ub ∉ dids (solo i net h).2 := by
  intro hu
  have := (solo_good i net h).2.2.1.2 hu
  rw [(solo_Q i net h hv).1] at this
  cases this

/-- While a controller sleeps, `SendFrame` puts nothing onto the network. -/
theorem C32_sleeping_master_sends_no_frame (i : Nat) (net : String) (h : List Input) (hv : ∀ x ∈ h, Input.Valid i x) (ha : (conf i h).asleep = true)
    (f : Frame) (hid : f.id < 64) (ty : RespType) (x : Msg) :
    Handling.Out.did (.send x) ∈ (solo i net (h ++ [.call (.sendFrame f ty)])).2 → Handling.Out.did (.send x) ∈ (solo i net h).2 := by
  obtain ⟨h1, h2, h3⟩ := solo_Q i net h hv
  rw [solo_append]
  generalize solo i net h = r at h1 h2 h3
  have key : sendsOf (r.1.input (.call (.sendFrame f ty))).2 = [] := by
    simp only [Ctl.input, Ctl.api]
    rw [if_neg (by simp [h1])]
    simp only [Ctl.apiAlive, Ctl.sendFrame]
    split
    · rfl
    · split
      · rfl
      · rename_i hu hm
        have hm : r.1.mode = .master := Decidable.not_not.1 hm
        split
        · rfl
        · have hst : r.1.status = .sleep := by
            rw [h3.st, Conf.status, if_neg (by rw [← h2.mode, hm]; simp), if_pos ha]
          have rq : ∀ {c : Ctl}, c.sim = none → c.status = .sleep → sendsOf (c.requestFrame f ty).2 = [] := by
            intro c e1 e2
            simp only [Ctl.requestFrame, e1, e2]
            rfl
          have uf : ∀ rr, sendsOf (r.1.updateFrameResponse rr).2 = [] := by
            intro rr
            simp only [Ctl.updateFrameResponse, Ctl.distribute]
            rw [if_neg]
            · rfl
            · rintro (h' | h')
              · exact h' h3.sim
              · rw [show (r.1.setOwn fun x => x.updateResponses [rr]).mode = r.1.mode from rfl, hm] at h'
                cases h'
          have both : ∀ rr, sendsOf ((r.1.updateFrameResponse rr).andThen fun c => c.requestFrame f ty).2 = [] := by
            intro rr
            rw [sendsOf_andThen, uf, rq]
            · rfl
            · rw [updateFrameResponse_fst]; exact h3.sim
            · rw [updateFrameResponse_fst]; exact hst
          cases ty with
          | masterResponse => exact both _
          | slaveResponse =>
            simp only [Ctl.sendFrameInternal]
            split
            · exact sends_tell _ _
            · unfold Ctl.sendFrameSlave
              rw [if_neg (Nat.not_le.2 hid)]
              split
              · exact both _
              · rfl
              · exact rq h3.sim hst
          | slaveToSlave =>
            simp only [Ctl.sendFrameInternal]
            split
            · exact sends_tell _ _
            · rw [sendsOf_andThen, sends_tell, rq (c := (r.1.tell _).1) h3.sim hst]; rfl
  simp only [onInput, List.mem_append]
  rintro (hx | hx)
  · exact hx
  · have : x ∈ sendsOf (r.1.input (.call (.sendFrame f ty))).2 := List.mem_filterMap.2 ⟨_, hx, rfl⟩
    rw [key] at this
    simp at this

/-! ## Handlers -/

/-- Controllers on networks are controllers with some history. -/
theorem C39_lin_controllers_on_networks (k : Nat) (net : String) (h : List Act) (i : Nat) : outs i (trace k net h) = (solo i net (inputs i (trace k net h))).2 :=
  (run_solo k net h i).2

/-- A handler is added after `a` and not removed in `b`. It is not called before, and from then on it is called with exactly the events of its kind that the
controller reports, in order. -/
theorem C39_lin_handler_sees_exactly_what_it_asked_for (i : Nat) (net : String) (h : List Input) (k : Kind) (id mask : Nat) (a b : List Lin.Out)
    (e : (solo i net h).2 = a ++ .added k id mask :: b) (hr : Handling.Out.removed k id ∉ b) :
    handlerCalls Notice.kind k id a = [] ∧ handlerCalls Notice.kind k id b = (tolds b).filter (fun n => decide (n.kind = k)) := by
  have hk := (solo_good i net h).2.2.2
  have h1 := (hk.live k id mask a b e hr)
  exact ⟨h1.2.1, h1.2.2.trans (List.filter_congr fun n _ => by rw [Bool.eq_iff_iff]; simp [events]; exact decide_eq_true_iff)⟩

/-- A handler that has been removed is not called. -/
theorem C39_lin_removed_handler_is_not_called (i : Nat) (net : String) (h : List Input) (k : Kind) (id : Nat) (a b : List Lin.Out)
    (e : (solo i net h).2 = a ++ .removed k id :: b) (ha : ∃ mask, Handling.Out.added k id mask ∈ a) : handlerCalls Notice.kind k id b = [] :=
  ((solo_good i net h).2.2.2.dead k id a b e ha).2

/-- Only handlers that have been added are called, and handlers of one kind have different identifiers. -/
theorem C39_lin_handlers_are_distinct (i : Nat) (net : String) (h : List Input) :
    (∀ id n, Handling.Out.called id n ∈ (solo i net h).2 → ∃ mask, Handling.Out.added n.kind id mask ∈ (solo i net h).2) ∧
    (∀ k id mask mask' a b, (solo i net h).2 = a ++ .added k id mask :: b → Handling.Out.added k id mask' ∉ a ∧ Handling.Out.added k id mask' ∉ b) :=
  ⟨fun id n hm => (solo_good i net h).2.2.2.calledAdded id n hm, fun k id mask mask' a b e => (solo_good i net h).2.2.2.once k id mask mask' a b e⟩

/-- What is reported when a transmission is received, without network simulation and dynamic responses: according to what has been configured. -/
theorem C39_lin_transmission_is_reported (i : Nat) (net : String) (h : List Input) (hv : ∀ x ∈ h, Input.Valid i x) (hd : (conf i h).isDynamic = false)
    (src : Nat) (hsrc : src ≠ i) (f : Frame) (hid : f.id < 64) (s : FrameStatus) (hs : s ≠ .notOk) :
    tolds (solo i net (h ++ [.recv src (.transmission f s)])).2 = tolds (solo i net h).2 ++ (conf i h).sees f s := by
  obtain ⟨h1, h2, h3⟩ := solo_Q i net h hv
  have hself := (solo_good i net h).1
  rw [solo_append]
  obtain ⟨os, e, _, e3⟩ := receive_transmission h2 h3 h1 hd (src := src) (by rw [hself]; exact hsrc) hid hs
  simp only [onInput, Ctl.input, e]
  rw [Handling.tolds_append, e3]

/-- Wake-up pulses of others are reported, and one's own ones as transmitted. -/
theorem C39_lin_wakeup_is_reported (i : Nat) (net : String) (h : List Input) (hv : ∀ x ∈ h, Input.Valid i x) (src : Nat) (d : Direction) :
    tolds (solo i net (h ++ [.recv src (.wakeup d)])).2 = tolds (solo i net h).2 ++ [.wakeup d] ∧
    ((conf i h).mode ≠ .inactive → tolds (solo i net (h ++ [.call .wakeup])).2 = tolds (solo i net h).2 ++ [.wakeup .tx]) := by
  obtain ⟨h1, h2, h3⟩ := solo_Q i net h hv
  rw [solo_append, solo_append]
  generalize solo i net h = r at h1 h2 h3
  refine ⟨?_, fun hm => ?_⟩
  · have e : r.1.input (.recv src (.wakeup d)) = r.1.tell (.wakeup d) := by
      simp only [Ctl.input, Ctl.receive]
      rw [if_neg (by simp [h1]), if_neg (by simp [h3.sim]), if_neg (by simp [Msg.notFromSelf])]
      rfl
    simp only [onInput, e]
    rw [Handling.tolds_append, tolds_tell']
  · have hu : r.1.status ≠ .unknown := fun h' => hm (h2.st.1 h')
    have e : r.1.input (.call .wakeup) = ((r.1.send (.wakeup .rx)).andThen fun c => c.tell (.wakeup .tx)).andThen fun c => c.wakeupInternal := by
      simp only [Ctl.input, Ctl.api]
      rw [if_neg (by simp [h1])]
      simp only [Ctl.apiAlive, Ctl.wakeup, h3.sim]
      rw [if_neg hu]
    simp only [onInput, e]
    rw [Handling.tolds_append, tolds_andThen, tolds_andThen, tolds_tell']
    show _ ++ (([] ++ _) ++ tolds (r.1.wakeupInternal).2) = _
    rw [Ctl.wakeupInternal, if_neg hu]
    simp [Ctl.setStatus, Ctl.send, tolds]

/-- Configurations and response updates of others are announced to a handler that is registered. -/
theorem C39_lin_slave_configuration_is_announced (i : Nat) (net : String) (h : List Input) (hv : ∀ x ∈ h, Input.Valid i x) (src : Nat) (hsrc : src ≠ i)
    (m : Msg) (hm : (∃ mode dyn rs, m = .config mode dyn rs) ∨ ∃ rs, m = .responses rs) (id mask : Nat) (a b : List Lin.Out)
    (e : (solo i net h).2 = a ++ .added .slaveConfig id mask :: b) (hr : Handling.Out.removed .slaveConfig id ∉ b) :
    tolds (solo i net (h ++ [.recv src m])).2 = tolds (solo i net h).2 ++ [.slaveConfig] := by
  have hm : m.notFromSelf = true := by rcases hm with ⟨_, _, _, rfl⟩ | ⟨_, rfl⟩ <;> rfl
  have hg := solo_good i net h
  obtain ⟨c', e1, _, e3⟩ := announce_eq (solo_Q i net h hv).1 (src := src) (by rw [hg.1]; exact hsrc) hm
  have hl := (hg.2.2.2.live .slaveConfig id mask a b e hr).1
  rw [solo_append]
  simp only [onInput, e3]
  rw [Ctl.slaveConfigured, e1, if_neg, Handling.tolds_append, tolds_tell']
  intro h0
  rw [List.length_eq_zero_iff.1 h0] at hl
  simp at hl

/-- The first handler of slave configurations is told about earlier ones as soon as it is added. -/
theorem C39_lin_first_slave_configuration_handler_is_told_at_once (i : Nat) (net : String) (h : List Input) (hv : ∀ x ∈ h, Input.Valid i x)
    (hno : ∀ id mask, Handling.Out.added .slaveConfig id mask ∉ (solo i net h).2)
    (hx : ∃ src, src ≠ i ∧ ((∃ mode dyn rs, Input.recv src (.config mode dyn rs) ∈ h) ∨ ∃ rs, Input.recv src (.responses rs) ∈ h)) :
    ∃ id, (solo i net (h ++ [.call (.addHandler .slaveConfig)])).2 = (solo i net h).2 ++ [.added .slaveConfig id 0, .told .slaveConfig, .called id .slaveConfig] := by
  have hx : ∃ src m, src ≠ i ∧ m.notFromSelf = true ∧ Input.recv src m ∈ h := by
    obtain ⟨src, h1, ⟨_, _, _, h2⟩ | ⟨_, h2⟩⟩ := hx
    · exact ⟨src, _, h1, rfl, h2⟩
    · exact ⟨src, _, h1, rfl, h2⟩
  have hp := announced_pending (net := net) h hv hno hx
  have hd := (solo_Q i net h hv).1
  have hent := (solo_good i net h).2.2.2.ent .slaveConfig
  have hn : ((solo i net h).1.handlers .slaveConfig).entries = [] := by
    cases e : ((solo i net h).1.handlers .slaveConfig).entries with
    | nil => rfl
    | cons y _ => exact absurd (hent y (by rw [e]; simp)) (hno _ _)
  refine ⟨((solo i net h).1.handlers .slaveConfig).next, ?_⟩
  rw [solo_append]
  generalize solo i net h = r at hp hd hn
  simp only [onInput, Ctl.input, Ctl.api]
  rw [if_neg (by simp [hd])]
  simp only [Ctl.apiAlive, Ctl.addHandler, R.andThen]
  rw [if_pos ⟨trivial, hp⟩]
  simp [Ctl.tell, Handling.tell, Handling.add, Handling.set, hn, events, Notice.kind]

/-! ## Non-vacuity -/

private def Plain.ok : Act → Bool
  | .api _ a => match a with
    | .sim _ | .initDynamic _ | .sendDynamicResponse _ => false
    | .sendFrame f _ | .updateTxBuffer f => decide (f.id < 64)
    | .sendFrameHeader id => decide (id < 64)
    | _ => true
  | .close _ _ => false
  | _ => true

private theorem plain_of (h : List Act) (e : h.all Plain.ok = true) : Plain h := by
  rw [List.all_eq_true] at e
  refine ⟨fun i a ha => ?_, fun i j hc => by have := e _ hc; simp [Plain.ok] at this⟩
  have := e _ ha
  cases a <;> simp_all [Plain.ok, Call.Valid, Call.noSim, Call.isStatic]

private def opens : List Act :=
  (List.range 3).flatMap fun i => (List.range 3).flatMap fun j =>
    [Ty.frameRequest, .header, .transmission, .wakeup, .config, .responses, .status].map fun ty => .open i j ty

private def noApi : Act → Bool
  | .api _ _ => false
  | _ => true

private theorem openFirst_of (rest : List Act) : OpenFirst 3 (opens ++ rest) := by
  intro pre i a post e hi j hj hji ty
  have hno : opens.all noApi = true := by decide +kernel
  have hmem : Act.open i j ty ∈ opens := by
    simp only [opens, List.mem_flatMap, List.mem_range, List.mem_map]
    exact ⟨i, hi, j, hj, ty, by cases ty <;> simp, rfl⟩
  rcases List.append_eq_append_iff.1 e with ⟨c, e1, e2⟩ | ⟨c, e1, e2⟩
  · rw [e1]; simp [hmem]
  · cases c with
    | nil => rw [List.append_nil] at e1; rw [← e1]; exact hmem
    | cons x t =>
      rw [List.cons_append] at e2
      injection e2 with e2 _
      have := List.all_eq_true.1 hno x (by rw [e1]; simp)
      rw [← e2] at this
      simp [noApi] at this

private theorem settled_of (net : String) (h : List Act) (e : ((List.range 3).all fun i => (List.range 3).all fun j => ((run 3 net h).1.chan i j).isEmpty) = true) :
    Settled 3 net h := by
  intro i j
  by_cases hij : i < 3 ∧ j < 3
  · rw [List.all_eq_true] at e
    have := e i (List.mem_range.2 hij.1)
    rw [List.all_eq_true] at this
    exact List.isEmpty_iff.1 (this j (List.mem_range.2 hij.2))
  · exact (chan_self 3 net h).2.2 i j hij

private def data (x : Nat) : List Nat := x :: List.replicate 7 0

/-- A master, a slave that responds to 5 and 7, and a slave that receives 5 and responds to 7. -/
private def setup : List Act :=
  opens ++ [.api 0 (.init .master [⟨⟨5, .classic, 8, data 0⟩, .rx⟩]), .api 1 (.init .slave [⟨⟨5, .classic, 8, data 1⟩, .tx⟩, ⟨⟨7, .classic, 2, data 2⟩, .tx⟩]),
    .api 2 (.init .slave [⟨⟨5, .classic, lengthUnknown, data 0⟩, .rx⟩, ⟨⟨7, .classic, 2, data 3⟩, .tx⟩, ⟨⟨9, .unknown, lengthUnknown, data 0⟩, .rx⟩]),
    .deliver 1 0, .deliver 1 2, .deliver 2 0, .deliver 2 1]

private def answer : List Act := [.deliver 0 0, .deliver 0 1, .deliver 0 2, .deliver 1 0, .deliver 1 2]

private def net := "LIN1"

example : reported 0 (trace 3 net (setup ++ [.api 0 (.sendFrameHeader 5)] ++ answer)) = [.frame ⟨5, .classic, 8, data 1⟩ .rxOk] := by decide +kernel
example : reported 1 (trace 3 net (setup ++ [.api 0 (.sendFrameHeader 5)] ++ answer)) = [.frame ⟨5, .classic, 8, data 1⟩ .txOk] := by decide +kernel
example : reported 2 (trace 3 net (setup ++ [.api 0 (.sendFrameHeader 5)] ++ answer)) = [.frame ⟨5, .classic, 8, data 1⟩ .rxOk] := by decide +kernel
example : responders 3 (trace 3 net (setup ++ [.api 0 (.sendFrameHeader 5)])) 5 = [1] := by decide +kernel
example : responders 3 (trace 3 net (setup ++ [.api 0 (.sendFrameHeader 7)])) 7 = [1, 2] := by decide +kernel
example : responders 3 (trace 3 net (setup ++ [.api 0 (.sendFrameHeader 9)])) 9 = [] := by decide +kernel
example : reported 2 (trace 3 net (setup ++ [.api 0 (.sendFrameHeader 7)] ++ [.deliver 0 1, .deliver 0 2])) = [.frame ⟨7, .classic, 2, data 3⟩ .txError] := by decide +kernel
example : reported 2 (trace 3 net (setup ++ [.api 0 (.sendFrameHeader 9)] ++ [.deliver 0 1, .deliver 0 2])) = [.frame { id := 9 } .rxNoResponse] := by decide +kernel
example : reported 0 (trace 3 net (setup ++ [.api 0 (.sendFrameHeader 7)] ++ [.deliver 0 1, .deliver 0 2])) = [.frame ⟨7, .classic, 2, data 3⟩ .rxError] := by decide +kernel

/-- The hypotheses of the theorems about requests hold for this network: one, two and no responders. -/
example : Plain (setup ++ [.api 0 (.sendFrameHeader 5)]) ∧ OpenFirst 3 (setup ++ [.api 0 (.sendFrameHeader 5)]) ∧ Settled 3 net setup ∧
    (confAt 0 (trace 3 net setup)).requests 5 (.sendFrameHeader 5) ∧ Settled 3 net (setup ++ [.api 0 (.sendFrameHeader 5)] ++ answer) ∧ Deliveries answer ∧
    (∀ i, i < 3 → i ≠ 0 → (confAt i (trace 3 net (setup ++ [.api 0 (.sendFrameHeader 5)]))).mode ≠ .master) ∧
    ∀ i, i < 3 → (confAt i (trace 3 net (setup ++ [.api 0 (.sendFrameHeader 5)]))).asleep = false :=
  ⟨plain_of _ (by decide +kernel), by rw [setup, List.append_assoc]; exact openFirst_of _, settled_of _ _ (by decide +kernel), ⟨rfl, by decide +kernel⟩,
    settled_of _ _ (by decide +kernel), by intro a ha; simp only [answer, List.mem_cons, List.not_mem_nil, or_false] at ha; rcases ha with h | h | h | h | h <;> exact ⟨_, _, h⟩,
    by decide +kernel, by decide +kernel⟩
example : Settled 3 net (setup ++ [.api 0 (.sendFrameHeader 7)] ++ [.deliver 0 1, .deliver 0 2]) := settled_of _ _ (by decide +kernel)
example : Settled 3 net (setup ++ [.api 0 (.sendFrameHeader 9)] ++ [.deliver 0 1, .deliver 0 2]) := settled_of _ _ (by decide +kernel)
example : (confAt 0 (trace 3 net setup)).requests 6 (.sendFrame ⟨6, .classic, 1, data 4⟩ .masterResponse) := ⟨rfl, by decide +kernel, by decide +kernel⟩
example : (confAt 0 (trace 3 net setup)).requests 5 (.sendFrame ⟨5, .classic, 1, data 4⟩ .slaveResponse) := ⟨rfl, by decide +kernel, by decide +kernel, by decide +kernel, by decide +kernel⟩
example : (confAt 0 (trace 3 net setup)).requests 5 (.sendFrame ⟨5, .classic, 1, data 4⟩ .slaveToSlave) := ⟨rfl, by decide +kernel, by decide +kernel, by decide +kernel⟩
example : (confAt 1 (trace 3 net setup)).forbids (.sendFrameHeader 5) ∧ (confAt 1 (trace 3 net setup)).forbids (.updateTxBuffer ⟨6, .classic, 1, data 4⟩) ∧
    (confAt 1 (trace 3 net setup)).forbids (.init .slave []) := by
  simp only [Conf.forbids]
  decide +kernel
example : (conf 0 [.call (.init .master [])]).mode = .master ∧ (conf 0 [.call (.init .master []), .call .goToSleep]).asleep = true := by decide +kernel

private def oneLinController : List Input :=
  [.call (.addHandler .frame), .call (.addHandler .wakeup), .call (.init .slave [⟨⟨5, .classic, 8, data 1⟩, .rx⟩]), .recv 0 (.transmission ⟨5, .classic, 8, data 2⟩ .rxOk),
    .recv 0 (.wakeup .rx), .recv 0 (.transmission ⟨5, .classic, 4, data 2⟩ .rxOk)]

example : handlerCalls Notice.kind .frame 0 (solo 3 net oneLinController).2 = [.frame ⟨5, .classic, 8, data 2⟩ .rxOk, .frame ⟨5, .classic, 4, data 2⟩ .rxError] := by decide +kernel
example : handlerCalls Notice.kind .wakeup 0 (solo 3 net oneLinController).2 = [.wakeup .rx] := by decide +kernel
example : (solo 3 net oneLinController).2 = [] ++ .added .frame 0 0 :: (solo 3 net oneLinController).2.drop 1 ∧ Handling.Out.removed .frame 0 ∉ (solo 3 net oneLinController).2.drop 1 := by
  decide +kernel

example : ∃ a b, (solo 3 net (oneLinController ++ [.call (.removeHandler .frame 0), .recv 0 (.transmission ⟨5, .classic, 8, data 2⟩ .rxOk)])).2 = a ++ .removed .frame 0 :: b ∧
    (∃ mask, Handling.Out.added .frame 0 mask ∈ a) := by
  refine ⟨(solo 3 net oneLinController).2, (solo 3 net (oneLinController ++ [.call (.removeHandler .frame 0), .recv 0 (.transmission ⟨5, .classic, 8, data 2⟩ .rxOk)])).2.drop
    ((solo 3 net oneLinController).2.length + 1), ?_, 0, ?_⟩ <;> decide +kernel

example : (solo 3 net [.recv 0 (.responses []), .call .wakeupInternal, .call (.addHandler .slaveConfig), .recv 0 (.responses [])]).2 =
    [.did .threw, .added .slaveConfig 0 0, .told .slaveConfig, .called 0 .slaveConfig, .told .slaveConfig, .called 0 .slaveConfig] := by decide +kernel

/-! ## Counterexamples: what the code does instead -/

/-- Two nodes are configured to respond and one of them sleeps: the master counts one, but both respond; a receiver reports two frames and no error. -/
theorem C31_counterexample_sleeping_slave_responds :
    let t := trace 3 net (setup ++ [.api 0 (.setFrameResponse ⟨⟨7, .classic, 2, data 0⟩, .rx⟩), .api 1 .goToSleepInternal, .deliver 1 0, .deliver 1 2, .api 0 (.sendFrameHeader 7),
      .deliver 0 0, .deliver 0 1, .deliver 0 2, .deliver 1 0, .deliver 1 2, .deliver 2 0, .deliver 2 1])
    responders 3 t 7 = [1, 2] ∧ reported 0 t = [.frame ⟨7, .classic, 2, data 2⟩ .rxOk, .frame ⟨7, .classic, 2, data 3⟩ .rxOk] := by decide +kernel

/-- The only responder has left: the request leads to no report at all. -/
theorem C31_counterexample_departed_slave_is_counted :
    let h := setup ++ [.close 0 1, .close 2 1, .api 0 (.sendFrameHeader 5), .deliver 0 0, .deliver 0 2]
    reported 0 (trace 3 net h) = [] ∧ reported 2 (trace 3 net h) = [] ∧ Settled 3 net h := by
  refine ⟨by decide +kernel, by decide +kernel, settled_of _ _ (by decide +kernel)⟩

/-- A response configured after the initialisation is unknown to a master that joins later: "no response", although exactly one node is configured to respond. -/
theorem C31_counterexample_late_master_misses_updates :
    let t := trace 2 net ([.api 1 (.init .slave []), .api 1 (.setFrameResponse ⟨⟨5, .classic, 8, data 1⟩, .tx⟩)] ++
      (opens ++ [.api 0 (.init .master []), .deliver 1 0, .api 0 (.sendFrameHeader 5)]))
    responders 2 t 5 = [1] ∧ reported 0 t = [.frame { id := 5 } .rxNoResponse] := by decide +kernel

/-- Without a responder, a node configured to receive a frame of known length reports an error instead of a missing response. -/
theorem C31_counterexample_no_response_reported_as_error :
    let t := trace 3 net (setup ++ [.api 2 (.setFrameResponse ⟨⟨10, .classic, 8, data 0⟩, .rx⟩), .deliver 2 0, .deliver 2 1, .api 0 (.sendFrameHeader 10), .deliver 0 1, .deliver 0 2])
    responders 3 t 10 = [] ∧ reported 2 t = [.frame { id := 10 } .rxError] := by decide +kernel

/-- A response of unknown length makes the responder throw - in the I/O thread - and nobody reports anything. -/
theorem C31_counterexample_unknown_length :
    let h := setup ++ [.api 2 (.setFrameResponse ⟨⟨10, .classic, lengthUnknown, data 0⟩, .tx⟩), .deliver 2 0, .deliver 2 1, .api 0 (.sendFrameHeader 10), .deliver 0 0, .deliver 0 1, .deliver 0 2]
    responders 3 (trace 3 net h) 10 = [2] ∧ reported 0 (trace 3 net h) = [] ∧ reported 2 (trace 3 net h) = [] ∧ Handling.Out.did .threw ∈ outs 2 (trace 3 net h) := by decide +kernel

/-- `SendDynamicResponse` at a controller that has not been initialised: no error, and a frame goes out. -/
theorem C32_counterexample_dynamic_response_not_rejected :
    (solo 1 net [.call (.sendDynamicResponse ⟨5, .classic, 8, data 1⟩)]).2 =
      [.did (.send (.transmission ⟨5, .classic, 8, data 1⟩ .rxOk)), .told (.frame ⟨5, .classic, 8, data 1⟩ .txOk)] := by decide +kernel

/-- `SendFrame` while asleep: no error; the responses change, and a transmission is reported as successful. -/
theorem C32_counterexample_sleeping_sendFrame_not_rejected :
    let h : List Input := [.call (.init .master []), .recv 1 (.config .slave false [⟨⟨5, .classic, 8, data 1⟩, .tx⟩]), .call .goToSleepInternal]
    Handling.Out.did .threw ∉ (solo 0 net (h ++ [.call (.sendFrame ⟨6, .classic, 8, data 1⟩ .masterResponse)])).2 ∧
    ((solo 0 net (h ++ [.call (.sendFrame ⟨6, .classic, 8, data 1⟩ .masterResponse)])).1.own.resp 6).mode = .tx ∧ ((solo 0 net h).1.own.resp 6).mode = .unused ∧
    tolds (solo 0 net (h ++ [.call (.sendFrame ⟨5, .classic, 8, data 1⟩ .slaveToSlave)])).2 = [.frame ⟨5, .classic, 8, data 1⟩ .txOk] := by decide +kernel

/-- `SendFrameHeader` while asleep goes to the network. -/
theorem C32_counterexample_sleeping_sendFrameHeader_not_rejected :
    (solo 0 net [.call (.init .master []), .recv 1 (.config .slave false [⟨⟨5, .classic, 8, data 1⟩, .tx⟩]), .call .goToSleepInternal, .call (.sendFrameHeader 5)]).2 =
      [.did (.send (.status .sleep)), .did (.send (.header 5))] := by decide +kernel

/-- Identifiers outside of 0-63 are not rejected but run into undefined behaviour. -/
theorem C32_counterexample_large_identifiers :
    (solo 0 net [.call (.init .master []), .call (.sendFrameHeader 64)]).2 = [.did .ub] ∧
    (solo 0 net [.call (.init .master []), .call (.updateTxBuffer ⟨64, .classic, 8, data 1⟩)]).2 = [.did .ub] ∧
    (solo 0 net [.recv 1 (.header 64)]).2 = [.did .ub] := by decide +kernel

end SilKit.Props
