import Verif.Lemmas.Can
import Verif.Lemmas.BusView
/-!
# CAN controllers on a network
-/
namespace SilKit.Can
open Spec Bus Bus.Spec
open SilKit.Links (MsgType)

def toInput : In Call FrameEvent → Input
  | .call a => .inl a
  | .recv src e => .inr (src, e)

/-- A controller on a network is a controller. -/
theorem localRun_eq (i : Nat) (net : String) (l : List (In Call FrameEvent)) :
    (localRun service i net l).1 = (Spec.run i net (l.map toInput)).1 ∧
    (localRun service i net l).2.filterMap viewOut = (Spec.run i net (l.map toInput)).2 := by
  rw [← List.reverse_reverse l]
  induction l.reverse with
  | nil => exact ⟨rfl, rfl⟩
  | cons x l ih =>
      rw [List.reverse_cons, localRun_snoc, List.map_append, List.map_singleton, run_snoc]
      cases x with
      | call a =>
          rw [localStep_call]
          simp only [toInput, Spec.step]
          rw [List.filterMap_append, callView_out, ih.1, ih.2]
          exact ⟨rfl, rfl⟩
      | recv src m =>
          rw [localStep_recv]
          simp only [toInput, Spec.step]
          rw [List.filterMap_append, recvView_out, ih.1, ih.2]
          exact ⟨rfl, rfl⟩

/-! ## Without network simulation -/

def modeStep (s : CtlState) : Call → CtlState
  | .start => .started
  | .stop => .stopped
  | .sleep => .sleep
  | .reset => .uninit
  | _ => s

theorem transmittedFrom_cons (s : CtlState) (c : Call) (cs : List Call) :
    transmittedFrom s (c :: cs) = transmittedFrom s [c] ++ transmittedFrom (modeStep s c) cs := by
  cases c <;> simp [transmittedFrom, modeStep]

theorem transmittedFrom_append (s : CtlState) (a b : List Call) :
    transmittedFrom s (a ++ b) = transmittedFrom s a ++ transmittedFrom (a.foldl modeStep s) b := by
  induction a generalizing s with
  | nil => rfl
  | cons c a ih =>
      rw [List.cons_append, transmittedFrom_cons, ih, transmittedFrom_cons s c a, List.append_assoc]; rfl

def ownMsg : Out → Option Msg
  | .takes none (.frame e) => some (.frame e)
  | .takes none (.ack a) => some (.ack a)
  | _ => none

def srcMsg (src : Nat × Nat) : Out → Option Msg
  | .takes (some s) m => if s = src then some m else none
  | _ => none

theorem ownMsg_called (l : List Out) (h : ∀ o ∈ l, isCalled o = true) : l.filterMap ownMsg = [] := by
  rw [List.filterMap_eq_nil_iff]
  intro o ho
  have := h o ho
  cases o with
  | called => rfl
  | _ => cases this

theorem srcMsg_called (src : Nat × Nat) (l : List Out) (h : ∀ o ∈ l, isCalled o = true) : l.filterMap (srcMsg src) = [] := by
  rw [List.filterMap_eq_nil_iff]
  intro o ho
  have := h o ho
  cases o with
  | called => rfl
  | _ => cases this

/-- The frame as it goes to the others. -/
def asRx (x : Frame × Nat) : FrameEvent := ⟨x.1, .rx, x.2⟩

/-- What the sender is told. -/
def asTx (x : Frame × Nat) : List Msg := [.frame ⟨x.1, .tx, x.2⟩, .ack ⟨x.1.canId, .transmitted, x.2⟩]

/-- A controller without network simulation. -/
structure T (c : Ctl) (v : List (View Call FrameEvent Out)) : Prop where
  sim : c.sim = none
  state : c.state = (v.filterMap viewCall).foldl modeStep .uninit
  sent : sends v = (transmittedFrom .uninit (v.filterMap viewCall)).map asRx
  self : (v.filterMap viewOut).filterMap ownMsg = (transmittedFrom .uninit (v.filterMap viewCall)).flatMap asTx
  taken : ∀ src, (v.filterMap viewOut).filterMap (srcMsg src) = (recvs src v).map .frame

theorem take_fields (c : Ctl) (src : Option (Nat × Nat)) (m : Msg) : (c.take src m).1.sim = c.sim := by
  cases m with
  | frame e => rfl
  | ack a => rfl
  | status s e =>
      obtain ⟨-, -, -, -, -, -, h1⟩ := setState_spec c s
      obtain ⟨-, -, -, -, -, -, h2⟩ := setError_spec (c.setState s).1 e
      simp only [Ctl.take]; rw [h2, h1]

/-- A call. -/
theorem T.call {c c' : Ctl} {v : List (View Call FrameEvent Out)} (h : T c v) (a : Call) (acts : List (Act FrameEvent Out)) (hsim : c'.sim = none)
    (hstate : c'.state = modeStep c.state a)
    (hsent : acts.filterMap actSend = (transmittedFrom c.state [a]).map asRx)
    (hself : (acts.filterMap actOut).filterMap ownMsg = (transmittedFrom c.state [a]).flatMap asTx)
    (htaken : ∀ src, (acts.filterMap actOut).filterMap (srcMsg src) = []) : T c' (v ++ callView a acts) := by
  have et : transmittedFrom .uninit (v.filterMap viewCall ++ [a]) = transmittedFrom .uninit (v.filterMap viewCall) ++ transmittedFrom c.state [a] := by
    rw [transmittedFrom_append, ← h.state]
  refine ⟨hsim, ?_, ?_, ?_, ?_⟩
  · rw [List.filterMap_append, callView_call, List.foldl_append, ← h.state, hstate]; rfl
  · rw [List.filterMap_append, callView_call, et, sends_append, h.sent, List.map_append, ← hsent, callView_sends]
  · rw [List.filterMap_append (f := viewCall), callView_call, et, List.filterMap_append (f := viewOut), callView_out, List.filterMap_append, h.self, hself, List.flatMap_append]
  · intro src
    rw [List.filterMap_append, callView_out, List.filterMap_append, h.taken, htaken, List.append_nil, recvs_append, callView_recvs, List.append_nil]

theorem take_called_frame (c : Ctl) (src : Option (Nat × Nat)) (e : FrameEvent) : (c.take src (.frame e)).2 = .takes src (.frame e) :: c.notify (.frame (visible e)) := rfl
theorem take_called_ack (c : Ctl) (src : Option (Nat × Nat)) (a : Ack) : (c.take src (.ack a)).2 = .takes src (.ack a) :: c.notify (.ack a) := rfl

/-- A call that outputs none of the messages in question. -/
theorem T.plain {c : Ctl} {v : List (View Call FrameEvent Out)} (h : T c v) (a : Call) (r : Ctl × List Out) (hsim : r.1.sim = none)
    (hstate : r.1.state = modeStep c.state a) (ht : transmittedFrom c.state [a] = [])
    (hown : r.2.filterMap ownMsg = []) (hsrc : ∀ src, r.2.filterMap (srcMsg src) = []) :
    T (asActs r).1 (v ++ callView a (asActs r).2) := by
  refine h.call a (asActs r).2 hsim hstate ?_ ?_ ?_
  · rw [ht]; simp only [asActs]; rw [filterMap_actSend]; rfl
  · rw [ht]; simp only [asActs]; rw [filterMap_actOut, hown]; rfl
  · intro src; simp only [asActs]; rw [filterMap_actOut, hsrc]

theorem T.mode {c : Ctl} {v : List (View Call FrameEvent Out)} (h : T c v) (a : Call) (s : CtlState) (hs : modeStep c.state a = s)
    (ht : transmittedFrom c.state [a] = []) : T (asActs (c.setMode s)).1 (v ++ callView a (asActs (c.setMode s)).2) := by
  have e : c.setMode s = c.take none (.status s .notAvailable) := by unfold Ctl.setMode; rw [h.sim]
  obtain ⟨a1, -, -, a4, -⟩ := setState_spec c s
  obtain ⟨-, b2, -, b4, -⟩ := setError_spec (c.setState s).1 .notAvailable
  have hc : ∀ o ∈ (c.setState s).2 ++ ((c.setState s).1.setError .notAvailable).2, isCalled o = true := by
    intro o ho; rw [List.mem_append] at ho; exact ho.elim (a4 o) (b4 o)
  refine h.plain a _ ?_ ?_ ht ?_ ?_
  · rw [e, take_fields, h.sim]
  · rw [e]; simp only [Ctl.take]; rw [b2, a1, hs]
  · rw [e]; simp only [Ctl.take]; rw [List.filterMap_cons, ownMsg_called _ hc]; rfl
  · intro src; rw [e]; simp only [Ctl.take]; rw [List.filterMap_cons, srcMsg_called _ _ hc]; rfl

theorem T.step {c : Ctl} {v : List (View Call FrameEvent Out)} (h : T c v) (x : In Call FrameEvent) (hx : ∀ y, x ≠ .call (.sim y)) :
    T (localStep service (c, v) x).1 (localStep service (c, v) x).2 := by
  cases x with
  | recv src e =>
      have er : c.receive src (.frame e) = c.take (some src) (.frame e) := by
        unfold Ctl.receive Ctl.allows; rw [h.sim]; rfl
      have e' : service.recv c src e = c.take (some src) (.frame e) := er
      rw [localStep_recv]
      simp only [e']
      have hc := notify_called c (.frame (visible e))
      refine ⟨h.sim, ?_, ?_, ?_, ?_⟩
      · rw [List.filterMap_append, recvView_call, List.append_nil]; exact h.state
      · rw [List.filterMap_append, recvView_call, List.append_nil, sends_append, ← h.sent, recvView_sends, List.append_nil]
      · rw [List.filterMap_append (f := viewCall), recvView_call, List.append_nil, List.filterMap_append (f := viewOut), recvView_out, List.filterMap_append, h.self, take_called_frame,
          List.filterMap_cons, ownMsg_called _ hc]
        simp [ownMsg]
      · intro s'
        rw [List.filterMap_append, recvView_out, List.filterMap_append, h.taken, recvs_append, List.map_append, recvView_recvs, take_called_frame,
          List.filterMap_cons, srcMsg_called _ _ hc]
        by_cases hs : src = s' <;> simp [srcMsg, hs]
  | call a =>
      have ev : localStep service (c, v) (.call a) = ((c.api a).1, v ++ callView a (c.api a).2) := rfl
      rw [ev]
      cases a with
      | start => exact h.mode _ _ rfl rfl
      | stop => exact h.mode _ _ rfl rfl
      | sleep => exact h.mode _ _ rfl rfl
      | reset => exact h.mode _ _ rfl rfl
      | sim x => exact absurd rfl (hx x)
      | addHandler k mask => exact h.plain _ (c.addHandler k mask) h.sim rfl rfl rfl (fun _ => rfl)
      | removeHandler k id => exact h.plain _ (c.removeHandler k id) h.sim rfl rfl rfl (fun _ => rfl)
      | sendFrame f ctx =>
          simp only [Ctl.api]
          refine h.call _ _ h.sim rfl ?_ ?_ ?_
          · unfold Ctl.sendFrame
            rw [h.sim]
            simp only
            by_cases hs : c.state = .started
            · rw [if_pos hs, List.filterMap_cons]
              simp only [actSend, filterMap_actSend]
              simp [transmittedFrom, hs, asRx]
            · rw [if_neg hs]
              simp [transmittedFrom, hs, actSend]
          · unfold Ctl.sendFrame
            rw [h.sim]
            simp only
            by_cases hs : c.state = .started
            · rw [if_pos hs, List.filterMap_cons]
              simp only [actOut]
              rw [filterMap_actOut, take_called_frame, take_called_ack, List.filterMap_append, List.filterMap_cons, List.filterMap_cons,
                ownMsg_called _ (notify_called _ _), ownMsg_called _ (notify_called _ _)]
              simp [transmittedFrom, hs, asTx, ownMsg]
            · rw [if_neg hs]
              simp [transmittedFrom, hs, actOut, ownMsg]
          · intro src
            unfold Ctl.sendFrame
            rw [h.sim]
            simp only
            by_cases hs : c.state = .started
            · rw [if_pos hs, List.filterMap_cons]
              simp only [actOut]
              rw [filterMap_actOut, take_called_frame, take_called_ack, List.filterMap_append, List.filterMap_cons, List.filterMap_cons,
                srcMsg_called _ _ (notify_called _ _), srcMsg_called _ _ (notify_called _ _)]
              simp [srcMsg]
            · rw [if_neg hs]
              simp [actOut, srcMsg]

theorem localRun_T (i : Nat) (net : String) (l : List (In Call FrameEvent)) (hl : ∀ x ∈ l, ∀ y, x ≠ .call (.sim y)) :
    T (localRun service i net l).1 (localRun service i net l).2 :=
  localRun_induction (P := fun r => T r.1 r.2) ⟨rfl, rfl, rfl, rfl, fun _ => rfl⟩ (fun x => ∀ y, x ≠ .call (.sim y)) (fun _ x hx h => h.step x hx) l hl

/-! ## On the bus -/

theorem takenFrom_eq (p i q j : Nat) (t : Trace) : takenFrom p i q j t = (outs q j t).filterMap (srcMsg (p, i)) := by
  unfold takenFrom
  refine Links.filterMap_congr ?_
  intro o _
  cases o with
  | takes src m => cases src <;> rfl
  | _ => rfl

theorem takenFromSelf_eq (p i : Nat) (t : Trace) : takenFromSelf p i t = (outs p i t).filterMap ownMsg := by
  unfold takenFromSelf
  refine Links.filterMap_congr ?_
  intro o _
  cases o with
  | takes src m => cases src <;> cases m <;> rfl
  | _ => rfl

variable {off : Nat → MsgType → String → Bool}

theorem hS : Links.selfDeliveryEnforced service.ty = false := rfl

theorem created_svc {h : List (Bus.Event Call)} {p i : Nat} {net : String} (hc : Created p i net (trace off service h)) :
    ∃ st, (Bus.Spec.run off service h).1.svc p i = some (net, st) :=
  ((run_Ok (off := off) hS h).reg p .canFrame net i (mem_linkPart.2 hc)).2

theorem view_no_sim {h : List (Bus.Event Call)} (hn : NoSimulation h) (p i : Nat) :
    ∀ x ∈ inputs (view p i (trace off service h)), ∀ y, x ≠ .call (.sim y) := by
  intro x hx y e
  subst e
  exact hn p i y (call_mem h (view_call_mem hx))

/-- What a controller sends, takes from itself and takes from others. -/
theorem bus_T {h : List (Bus.Event Call)} (hn : NoSimulation h) {p i : Nat} {net : String} {st : Ctl}
    (e : (Bus.Spec.run off service h).1.svc p i = some (net, st)) : T st (view p i (trace off service h)) := by
  have := localRun_T i net _ (view_no_sim (off := off) hn p i)
  rw [view_run hS h e] at this
  exact this

theorem bus_sent {h : List (Bus.Event Call)} (hn : NoSimulation h) (p i : Nat) :
    sends (view p i (trace off service h)) = (transmitted p i (trace off service h)).map asRx := by
  cases e : (Bus.Spec.run off service h).1.svc p i with
  | none =>
      have : view p i (trace off service h) = [] := (run_Ok (off := off) hS h).none p i e
      unfold transmitted
      rw [calls_view, this]; rfl
  | some x =>
      have := (bus_T (off := off) hn (net := x.1) (st := x.2) e).sent
      unfold transmitted
      rw [calls_view]; exact this

/-- What is sent after a point between two steps. -/
theorem bus_sent_after {h h1 h2 : List (Bus.Event Call)} (hn : NoSimulation h) (eh : h = h1 ++ h2) (p i : Nat) {a b a' : Trace} {o : Links.Out (Nat × FrameEvent)}
    (e : trace off service h = a ++ .link o :: b) (ea : a = trace off service h1 ++ a') (hv : view p i a' = []) (ho : viewOf p i (.link o : Bus.Out Call FrameEvent Out) = none) :
    ∃ rest, transmitted p i (trace off service h) = transmitted p i a ++ rest ∧ sends (view p i b) = rest.map asRx := by
  have hn1 : NoSimulation h1 := fun p i x hm => hn p i x (by rw [eh]; exact List.mem_append_left _ hm)
  have s1 := bus_sent (off := off) hn1 p i
  have s2 := bus_sent (off := off) hn p i
  have ca : calls p i a = calls p i (trace off service h1) := by rw [ea, calls_append, calls_view p i a', hv]; exact List.append_nil _
  have va : view p i a = view p i (trace off service h1) := by rw [ea, view_append, hv, List.append_nil]
  have vb : view p i (.link o :: b) = view p i b := by unfold view; rw [List.filterMap_cons, ho]
  have ct : calls p i (trace off service h) = calls p i a ++ calls p i (.link o :: b) := by rw [e, calls_append]
  refine ⟨transmittedFrom ((calls p i a).foldl modeStep .uninit) (calls p i (.link o :: b)), ?_, ?_⟩
  · unfold transmitted; rw [ct, transmittedFrom_append]
  · have e3 : transmitted p i (trace off service h) = transmitted p i (trace off service h1) ++ transmittedFrom ((calls p i a).foldl modeStep .uninit) (calls p i (.link o :: b)) := by
      unfold transmitted; rw [ct, transmittedFrom_append, ca]
    rw [e3, List.map_append, ← s1, e, view_append, sends_append, va, vb] at s2
    exact List.append_cancel_left s2

end SilKit.Can
