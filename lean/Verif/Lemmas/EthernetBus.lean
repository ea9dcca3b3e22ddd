import Verif.Lemmas.Ethernet
/-!
# Ethernet controllers on a network
-/
namespace SilKit.Ethernet
open Spec Bus Bus.Spec Handling.Spec
open SilKit.Links (MsgType)

/-! ## Without network simulation -/

def modeStep (s : Bool) : Call → Bool
  | .activate => true
  | .deactivate => false
  | _ => s

theorem requestsFrom_cons (s : Bool) (c : Call) (cs : List Call) :
    requestsFrom s (c :: cs) = requestsFrom s [c] ++ requestsFrom (modeStep s c) cs := by
  cases c <;> simp [requestsFrom, modeStep]

theorem requestsFrom_append (s : Bool) (a b : List Call) :
    requestsFrom s (a ++ b) = requestsFrom s a ++ requestsFrom (a.foldl modeStep s) b := by
  induction a generalizing s with
  | nil => rfl
  | cons c a ih => rw [List.cons_append, requestsFrom_cons, ih, requestsFrom_cons s c a, List.append_assoc]; rfl

def ownMsg : Did → Option Msg
  | .takes none (.frame e) => some (.frame e)
  | .takes none (.ack a) => some (.ack a)
  | _ => none

def srcMsg (src : Nat × Nat) : Did → Option Msg
  | .takes (some s) m => if s = src then some m else none
  | _ => none

/-- The frame as it goes to the others. -/
def asRx (x : Request) : FrameEvent := ⟨x.raw, .rx, x.ctx⟩

/-- What the sender is told. -/
def asTx (x : Request) : List Msg :=
  if x.active then [.frame ⟨x.raw, .tx, x.ctx⟩, .ack ⟨.transmitted, x.ctx⟩] else [.ack ⟨.controllerInactive, x.ctx⟩]

/-- The state of a controller that is active or not. -/
def stateOf (active : Bool) : State := if active then .linkUp else .inactive

/-- A controller without network simulation. -/
structure T (c : Ctl) (v : List (View Call FrameEvent Out)) : Prop where
  sim : c.sim = none
  state : c.state = stateOf ((v.filterMap viewCall).foldl modeStep false)
  sent : sends v = ((requestsFrom false (v.filterMap viewCall)).filter (·.active)).map asRx
  self : (dids (v.filterMap viewOut)).filterMap ownMsg = (requestsFrom false (v.filterMap viewCall)).flatMap asTx
  taken : ∀ src, (dids (v.filterMap viewOut)).filterMap (srcMsg src) = (recvs src v).map .frame

theorem take_sim (c : Ctl) (src : Option (Nat × Nat)) (m : Msg) : (c.take src m).1.sim = c.sim := by
  cases m with
  | frame e => rfl
  | ack a => rfl
  | status s b => simp only [Ctl.take, setBitrate_eq, setState_eq]

theorem take_dids (c : Ctl) (src : Option (Nat × Nat)) (m : Msg) : dids (c.take src m).2 = [.takes src m] := by
  have e : ∀ u : List Out, dids (Handling.Out.did (Did.takes src m) :: u) = .takes src m :: dids u := fun _ => rfl
  have e2 : ∀ n, dids (c.tell n) = [] := fun n => Handling.dids_tell c.handlers n
  cases m with
  | frame f => simp only [Ctl.take]; rw [e, e2]
  | ack a => simp only [Ctl.take]; rw [e, e2]
  | status s b => simp only [Ctl.take, setBitrate_eq, setState_eq]; rw [e, Handling.dids_append, dids_tellIf, dids_tellIf]; rfl

/-- A call. -/
theorem T.call {c c' : Ctl} {v : List (View Call FrameEvent Out)} (h : T c v) (a : Call) (acts : List (Act FrameEvent Out)) (active : Bool)
    (ha : active = (v.filterMap viewCall).foldl modeStep false) (hsim : c'.sim = none)
    (hstate : c'.state = stateOf (modeStep active a))
    (hsent : acts.filterMap actSend = ((requestsFrom active [a]).filter (·.active)).map asRx)
    (hself : (dids (acts.filterMap actOut)).filterMap ownMsg = (requestsFrom active [a]).flatMap asTx)
    (htaken : ∀ src, (dids (acts.filterMap actOut)).filterMap (srcMsg src) = []) : T c' (v ++ callView a acts) := by
  have et : requestsFrom false (v.filterMap viewCall ++ [a]) = requestsFrom false (v.filterMap viewCall) ++ requestsFrom active [a] := by
    rw [requestsFrom_append, ← ha]
  refine ⟨hsim, ?_, ?_, ?_, ?_⟩
  · rw [List.filterMap_append, callView_call, List.foldl_append, ← ha, hstate]; rfl
  · rw [List.filterMap_append, callView_call, et, sends_append, h.sent, List.filter_append, List.map_append, ← hsent, callView_sends]
  · rw [List.filterMap_append (f := viewCall), callView_call, et, List.filterMap_append (f := viewOut), callView_out, Handling.dids_append, List.filterMap_append, h.self, hself, List.flatMap_append]
  · intro src
    rw [List.filterMap_append, callView_out, Handling.dids_append, List.filterMap_append, h.taken, htaken, List.append_nil, recvs_append, callView_recvs, List.append_nil]

/-- A call that outputs none of the messages in question. -/
theorem T.plain {c : Ctl} {v : List (View Call FrameEvent Out)} (h : T c v) (a : Call) (active : Bool)
    (ha : active = (v.filterMap viewCall).foldl modeStep false) (r : Ctl × List Out) (hsim : r.1.sim = none)
    (hstate : r.1.state = stateOf (modeStep active a)) (ht : requestsFrom active [a] = [])
    (hown : (dids r.2).filterMap ownMsg = []) (hsrc : ∀ src, (dids r.2).filterMap (srcMsg src) = []) :
    T (asActs r).1 (v ++ callView a (asActs r).2) := by
  refine h.call a (asActs r).2 active ha hsim hstate ?_ ?_ ?_
  · rw [ht]; simp only [asActs]; rw [filterMap_actSend]; rfl
  · rw [ht]; simp only [asActs]; rw [filterMap_actOut, hown]; rfl
  · intro src; simp only [asActs]; rw [filterMap_actOut, hsrc]

theorem setMode_none {c : Ctl} (h : c.sim = none) (b : Bool) : c.setMode b = c.take none (.status (stateOf b) 0) := by
  unfold Ctl.setMode stateOf; rw [h]

theorem sendFrame_send (c : Ctl) (raw : List Nat) (ctx : Nat) (hs : c.sim = none) :
    (c.sendFrame raw ctx).filterMap actSend = if c.state = .linkUp then [⟨raw, .rx, ctx⟩] else [] := by
  unfold Ctl.sendFrame
  rw [hs]
  simp only
  rw [List.filterMap_append, filterMap_actSend]
  unfold Ctl.transmit
  split
  · rw [List.filterMap_cons]; simp only [actSend]; rw [filterMap_actSend]; rfl
  · rfl

theorem T.step {c : Ctl} {v : List (View Call FrameEvent Out)} (h : T c v) (x : In Call FrameEvent) (hx : ∀ y, x ≠ .call (.sim y)) :
    T (localStep service (c, v) x).1 (localStep service (c, v) x).2 := by
  cases x with
  | recv src e =>
      have er : c.receive src (.frame e) = c.take (some src) (.frame e) := by
        unfold Ctl.receive Ctl.allows; rw [h.sim]; rfl
      have e' : service.recv c src e = c.take (some src) (.frame e) := er
      rw [localStep_recv]
      simp only [e']
      refine ⟨h.sim, ?_, ?_, ?_, ?_⟩
      · rw [List.filterMap_append, recvView_call, List.append_nil]; exact h.state
      · rw [List.filterMap_append, recvView_call, List.append_nil, sends_append, ← h.sent, recvView_sends, List.append_nil]
      · rw [List.filterMap_append (f := viewCall), recvView_call, List.append_nil, List.filterMap_append (f := viewOut), recvView_out, Handling.dids_append, List.filterMap_append, h.self, take_dids]
        simp [ownMsg]
      · intro s'
        rw [List.filterMap_append, recvView_out, Handling.dids_append, List.filterMap_append, h.taken, recvs_append, List.map_append, recvView_recvs, take_dids]
        by_cases hs : src = s' <;> simp [srcMsg, hs]
  | call a =>
      have ev : localStep service (c, v) (.call a) = ((c.api a).1, v ++ callView a (c.api a).2) := rfl
      rw [ev]
      generalize ha : (v.filterMap viewCall).foldl modeStep false = active
      have hst := h.state; rw [ha] at hst
      cases a with
      | activate =>
          simp only [Ctl.api]
          refine h.plain _ active ha.symm c.activate ?_ ?_ rfl ?_ ?_ <;> unfold Ctl.activate <;> rw [hst] <;> cases active
          · simp [stateOf, setMode_none h.sim, take_sim, h.sim]
          · simp [stateOf, h.sim]
          · simp [stateOf, setMode_none h.sim, Ctl.take, setBitrate_eq, setState_eq, modeStep]
          · simp [stateOf, hst, modeStep]
          · simp [stateOf, setMode_none h.sim, take_dids, ownMsg]
          · simp [stateOf, dids]
          · simp [stateOf, setMode_none h.sim, take_dids, srcMsg]
          · simp [stateOf, dids]
      | deactivate =>
          simp only [Ctl.api]
          refine h.plain _ active ha.symm c.deactivate ?_ ?_ rfl ?_ ?_ <;> unfold Ctl.deactivate <;> rw [hst] <;> cases active
          · simp [stateOf, h.sim]
          · simp [stateOf, setMode_none h.sim, take_sim, h.sim]
          · simp [stateOf, hst, modeStep]
          · simp [stateOf, setMode_none h.sim, Ctl.take, setBitrate_eq, setState_eq, modeStep]
          · simp [stateOf, dids]
          · simp [stateOf, setMode_none h.sim, take_dids, ownMsg]
          · simp [stateOf, dids]
          · simp [stateOf, setMode_none h.sim, take_dids, srcMsg]
      | sim x => exact absurd rfl (hx x)
      | addHandler k mask => exact h.plain _ active ha.symm (c.addHandler k mask) h.sim hst rfl rfl (fun _ => rfl)
      | removeHandler k id => exact h.plain _ active ha.symm (c.removeHandler k id) h.sim hst rfl rfl (fun _ => rfl)
      | sendFrame raw ctx =>
          simp only [Ctl.api]
          refine h.call _ _ active ha.symm h.sim hst ?_ ?_ ?_
          · rw [sendFrame_send c raw ctx h.sim, hst]
            cases active <;> simp [stateOf, requestsFrom, asRx]
          · rw [sendFrame_out c raw ctx h.sim, Handling.dids_append, take_dids, hst]
            cases active
            · simp [stateOf, requestsFrom, asTx, ownMsg, transmitStatus, dids]
            · simp [stateOf, requestsFrom, asTx, ownMsg, transmitStatus, take_dids]
          · intro src
            rw [sendFrame_out c raw ctx h.sim, Handling.dids_append, take_dids, hst]
            cases active
            · simp [stateOf, srcMsg, dids]
            · simp [stateOf, srcMsg, take_dids]

theorem localRun_T (i : Nat) (net : String) (l : List (In Call FrameEvent)) (hl : ∀ x ∈ l, ∀ y, x ≠ .call (.sim y)) :
    T (localRun service i net l).1 (localRun service i net l).2 :=
  localRun_induction (P := fun r => T r.1 r.2) ⟨rfl, rfl, rfl, rfl, fun _ => rfl⟩ (fun x => ∀ y, x ≠ .call (.sim y)) (fun _ x hx h => h.step x hx) l hl

/-! ## On the bus -/

theorem takenFrom_eq (p i q j : Nat) (t : Trace) : takenFrom p i q j t = (dids (outs q j t)).filterMap (srcMsg (p, i)) := by
  unfold takenFrom
  refine Links.filterMap_congr ?_
  intro o _
  cases o with
  | takes src m => cases src <;> rfl
  | _ => rfl

theorem takenFromSelf_eq (p i : Nat) (t : Trace) : takenFromSelf p i t = (dids (outs p i t)).filterMap ownMsg := by
  unfold takenFromSelf
  refine Links.filterMap_congr ?_
  intro o _
  cases o with
  | takes src m => cases src <;> cases m <;> rfl
  | _ => rfl

variable {off : Nat → MsgType → String → Bool}

theorem hS : Links.selfDeliveryEnforced service.ty = false := rfl

theorem created_svc {h : List (Bus.Event Call)} {p i : Nat} {net : String} (hc : Created p i net (trace off service h)) :
    ∃ st, (Bus.Spec.run off service h).1.svc p i = some (net, st) :=
  ((run_Ok (off := off) hS h).reg p .ethFrame net i (mem_linkPart.2 hc)).2

theorem view_no_sim {h : List (Bus.Event Call)} (hn : NoSimulation h) (p i : Nat) :
    ∀ x ∈ inputs (view p i (trace off service h)), ∀ y, x ≠ .call (.sim y) := by
  intro x hx y e
  subst e
  exact hn p i y (call_mem h (view_call_mem hx))

/-- What a controller sends, takes from itself and takes from others. -/
theorem bus_T {h : List (Bus.Event Call)} (hn : NoSimulation h) {p i : Nat} {net : String} {st : Ctl}
    (e : (Bus.Spec.run off service h).1.svc p i = some (net, st)) : T st (view p i (trace off service h)) := by
  have := localRun_T i net _ (view_no_sim (off := off) hn p i)
  rw [view_run hS h e] at this
  exact this

theorem bus_sent {h : List (Bus.Event Call)} (hn : NoSimulation h) (p i : Nat) :
    sends (view p i (trace off service h)) = (transmitted p i (trace off service h)).map asRx := by
  cases e : (Bus.Spec.run off service h).1.svc p i with
  | none =>
      have : view p i (trace off service h) = [] := (run_Ok (off := off) hS h).none p i e
      unfold transmitted requests
      rw [calls_view, this]; rfl
  | some x =>
      have := (bus_T (off := off) hn (net := x.1) (st := x.2) e).sent
      unfold transmitted requests
      rw [calls_view]; exact this

/-- What is sent after a point between two steps. -/
theorem bus_sent_after {h h1 h2 : List (Bus.Event Call)} (hn : NoSimulation h) (eh : h = h1 ++ h2) (p i : Nat) {a b a' : Trace} {o : Links.Out (Nat × FrameEvent)}
    (e : trace off service h = a ++ .link o :: b) (ea : a = trace off service h1 ++ a') (hv : view p i a' = []) (ho : viewOf p i (.link o : Bus.Out Call FrameEvent Out) = none) :
    ∃ rest, transmitted p i (trace off service h) = transmitted p i a ++ rest ∧ sends (view p i b) = rest.map asRx := by
  have hn1 : NoSimulation h1 := fun p i x hm => hn p i x (by rw [eh]; exact List.mem_append_left _ hm)
  have s1 := bus_sent (off := off) hn1 p i
  have s2 := bus_sent (off := off) hn p i
  have ca : calls p i a = calls p i (trace off service h1) := by rw [ea, calls_append, calls_view p i a', hv]; exact List.append_nil _
  have va : view p i a = view p i (trace off service h1) := by rw [ea, view_append, hv, List.append_nil]
  have vb : view p i (.link o :: b) = view p i b := by unfold view; rw [List.filterMap_cons, ho]
  have ct : calls p i (trace off service h) = calls p i a ++ calls p i (.link o :: b) := by rw [e, calls_append]
  refine ⟨(requestsFrom ((calls p i a).foldl modeStep false) (calls p i (.link o :: b))).filter (·.active), ?_, ?_⟩
  · unfold transmitted requests; rw [ct, requestsFrom_append, List.filter_append]
  · have e3 : transmitted p i (trace off service h) = transmitted p i (trace off service h1) ++ (requestsFrom ((calls p i a).foldl modeStep false) (calls p i (.link o :: b))).filter (·.active) := by
      unfold transmitted requests; rw [ct, requestsFrom_append, List.filter_append, ca]
    rw [e3, List.map_append, ← s1, e, view_append, sends_append, va, vb] at s2
    exact List.append_cancel_left s2

/-! ## Network simulation -/

theorem simulator_snoc (net : String) (h : List (Input Call FrameEvent)) (x : Input Call FrameEvent) :
    simulator net (h ++ [x]) = (match x with
      | .inl (.sim (.linkCreated q n)) => if n = net then some ((simulator net h).getD q) else simulator net h
      | .inl (.sim (.linkRemoved _ n)) => if n = net then none else simulator net h
      | _ => simulator net h) := by
  unfold simulator; rw [List.foldl_append]; rfl

/-- What a controller knows for good, and about the simulation. -/
structure SimKnown (i : Nat) (net : String) (sim : Option Nat) (c : Ctl) : Prop where
  id : c.id = i
  net : c.net = net
  sim : c.sim = sim

theorem SimKnown.same {i : Nat} {net : String} {sim : Option Nat} {c c' : Ctl} (h : SimKnown i net sim c) (h1 : c'.id = c.id) (h2 : c'.net = c.net) (h3 : c'.sim = c.sim) :
    SimKnown i net sim c' := ⟨h1.trans h.id, h2.trans h.net, h3.trans h.sim⟩

theorem setState_same (c : Ctl) (s : State) : (c.setState s).1.id = c.id ∧ (c.setState s).1.net = c.net ∧ (c.setState s).1.sim = c.sim := by
  unfold Ctl.setState; split <;> exact ⟨rfl, rfl, rfl⟩

theorem setBitrate_same (c : Ctl) (b : Nat) : (c.setBitrate b).1.id = c.id ∧ (c.setBitrate b).1.net = c.net ∧ (c.setBitrate b).1.sim = c.sim := by
  unfold Ctl.setBitrate; split <;> exact ⟨rfl, rfl, rfl⟩

theorem SimKnown.take {i : Nat} {net : String} {sim : Option Nat} {c : Ctl} (h : SimKnown i net sim c) (src : Option (Nat × Nat)) (m : Msg) : SimKnown i net sim (c.take src m).1 := by
  cases m with
  | frame e => exact h
  | ack a => exact h
  | status s b =>
    have h1 := setBitrate_same c b
    have h2 := setState_same (c.setBitrate b).1 s
    exact h.same (h2.1.trans h1.1) (h2.2.1.trans h1.2.1) (h2.2.2.trans h1.2.2)

theorem SimKnown.receive {i : Nat} {net : String} {sim : Option Nat} {c : Ctl} (h : SimKnown i net sim c) (src : Nat × Nat) (m : Msg) : SimKnown i net sim (c.receive src m).1 := by
  unfold Ctl.receive; split
  · exact h.take _ m
  · exact h

theorem SimKnown.setMode {i : Nat} {net : String} {sim : Option Nat} {c : Ctl} (h : SimKnown i net sim c) (b : Bool) : SimKnown i net sim (c.setMode b).1 := by
  unfold Ctl.setMode; split
  · exact h.take _ _
  · exact h

theorem solo_sim (i : Nat) (net : String) (h : List (Input Call FrameEvent)) : SimKnown i net (simulator net h) (solo service i net h).1 := by
  have : ∀ h : List (Input Call FrameEvent), SimKnown i net (simulator net h.reverse) (solo service i net h.reverse).1 := by
    intro h
    induction h with
    | nil => exact ⟨rfl, rfl, rfl⟩
    | cons x h ih =>
      rw [List.reverse_cons, simulator_snoc, solo_snoc]
      generalize (solo service i net h.reverse) = r at ih ⊢
      rcases x with a | ⟨src, e⟩
      · cases a with
        | activate =>
          show SimKnown i net (simulator net h.reverse) (r.1.activate).1
          unfold Ctl.activate; split
          · exact ih
          · exact ih.setMode true
        | deactivate =>
          show SimKnown i net (simulator net h.reverse) (r.1.deactivate).1
          unfold Ctl.deactivate; split
          · exact ih
          · exact ih.setMode false
        | sendFrame raw ctx => exact ih
        | addHandler k mask => exact SimKnown.same ih rfl rfl rfl
        | removeHandler k id => exact SimKnown.same ih rfl rfl rfl
        | sim x =>
          cases x with
          | linkCreated q n =>
            show SimKnown i net (if n = net then some ((simulator net h.reverse).getD q) else simulator net h.reverse) (r.1.onSim (.linkCreated q n)).1
            dsimp only [Ctl.onSim]
            by_cases hn : n = net
            · rw [if_pos hn]
              cases hs : r.1.sim with
              | none => rw [if_pos ⟨rfl, hn.trans ih.net.symm⟩]; exact ⟨ih.id, ih.net, by rw [← ih.sim, hs]; rfl⟩
              | some q' => rw [if_neg (by simp)]; exact ⟨ih.id, ih.net, by rw [← ih.sim, hs]; rfl⟩
            · rw [if_neg hn, if_neg (fun e => hn (e.2.trans ih.net))]; exact ih
          | linkRemoved q n =>
            show SimKnown i net (if n = net then none else simulator net h.reverse) (r.1.onSim (.linkRemoved q n)).1
            dsimp only [Ctl.onSim]
            by_cases hn : n = net
            · rw [if_pos hn]
              cases hs : r.1.sim with
              | none => rw [if_neg (by simp)]; exact ⟨ih.id, ih.net, hs⟩
              | some q' => rw [if_pos ⟨by simp, hn.trans ih.net.symm⟩]; exact ⟨ih.id, ih.net, rfl⟩
            · rw [if_neg hn, if_neg (fun e => hn (e.2.trans ih.net))]; exact ih
          | msg src m => exact ih.receive src m
      · exact ih.receive src (.frame e)
  have := this h.reverse
  rwa [List.reverse_reverse] at this

theorem tell_no_did (c : Ctl) (n : Notice) (d : Did) : Handling.Out.did d ∉ c.tell n := by
  intro h
  simp [Ctl.tell, Handling.tell] at h

theorem take_did (c : Ctl) (src : Option (Nat × Nat)) (m : Msg) (d : Did) : Handling.Out.did d ∈ (c.take src m).2 ↔ d = .takes src m := by
  cases m with
  | frame e => simp [Ctl.take, tell_no_did]
  | ack a => simp [Ctl.take, tell_no_did]
  | status s b =>
    have h1 : Handling.Out.did d ∉ (c.setBitrate b).2 := by unfold Ctl.setBitrate; split <;> simp [tell_no_did]
    have h2 : Handling.Out.did d ∉ ((c.setBitrate b).1.setState s).2 := by unfold Ctl.setState; split <;> simp [tell_no_did]
    simp [Ctl.take, h1, h2]

theorem receive_did (c : Ctl) (src : Nat × Nat) (m : Msg) (d : Did) :
    Handling.Out.did d ∈ (c.receive src m).2 ↔ d = .takes (some src) m ∧ ∀ q, c.sim = some q → src = (q, c.id) := by
  have ha : c.allows src = true ↔ ∀ q, c.sim = some q → src = (q, c.id) := by
    unfold Ctl.allows
    cases c.sim with
    | none => simp
    | some q =>
      simp only [Option.some.injEq, forall_eq', Bool.and_eq_true, beq_iff_eq]
      exact ⟨fun h => Prod.ext h.1 h.2, fun h => by rw [h]; exact ⟨rfl, rfl⟩⟩
  unfold Ctl.receive
  by_cases h : c.allows src = true
  · rw [if_pos h, take_did]; exact ⟨fun e => ⟨e, ha.1 h⟩, fun e => e.1⟩
  · rw [if_neg h]; exact ⟨fun e => (by cases e), fun e => absurd (ha.2 e.2) h⟩

theorem setMode_did (c : Ctl) (b : Bool) (d : Did) (h : Handling.Out.did d ∈ (c.setMode b).2) :
    (c.sim = none ∧ ∃ m, d = .takes none m) ∨ ∃ q, c.sim = some q ∧ d = .toSim q (.mode b) := by
  unfold Ctl.setMode at h
  split at h
  · rename_i hs; exact .inl ⟨hs, _, (take_did _ _ _ _).1 h⟩
  · rename_i q hs; exact .inr ⟨q, hs, by simpa using h⟩

end SilKit.Ethernet
