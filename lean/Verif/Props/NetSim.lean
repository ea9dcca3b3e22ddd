import Verif.Lemmas.NetSimErrors
/-!
# The network simulator (C51)

Property C51: the user of a network simulator sees exactly the controllers of the networks they simulate, each under its own descriptor; the messages of
these controllers go to the user and nowhere else, and what the user produces for a descriptor arrives at its controller and nowhere else; the controllers
are simulated in detail while the simulator is there.
-/
namespace SilKit.Props.NetSim
open SilKit.NetSim SilKit.NetSim.Spec

/-! ## Examples -/

def canA : Key := ⟨"A", .can⟩
def linA : Key := ⟨"A", .lin⟩
def ethB : Key := ⟨"B", .ethernet⟩
def node1 : Service := ⟨"P1", 5, canA, .controller⟩
def node2 : Service := ⟨"P2", 5, canA, .controller⟩
def node3 : Service := ⟨"P2", 7, ethB, .controller⟩
def node4 : Service := ⟨"P3", 5, linA, .controller⟩
def ownLink : Service := ⟨"Sim", 9, canA, .link⟩
def otherLink : Service := ⟨"Sim2", 9, canA, .link⟩

/-- Controllers are there before and after the start, one of them leaves and comes back; the user simulates those with even descriptors. -/
def history : List Op :=
  [.simulate canA, .simulate ethB, .created node1, .created ownLink, .start, .created node2, .created node3, .removed node1, .created node1]

def answers (_ : Key) (d : Nat) : Option Nat := if d % 2 = 0 then some (100 + d) else none

def observed : List Out :=
  [.producer canA, .provide canA 1 node1 none, .provide canA 2 node2 (some 102), .producer ethB, .provide ethB 3 node3 none, .removed canA 1, .provide canA 4 node1 (some 104)]

def outsOf (r : Res (Sim × List Out)) : Option (List Out) :=
  match r with
  | .ok r => some r.2
  | _ => none

instance (l : List Service) (o : Op) : Decidable (fits l o) := by cases o <;> unfold fits <;> infer_instance

instance orderlyDec : (os : List Op) → (l : List Service) → Decidable (Orderly os l)
  | [], _ => .isTrue trivial
  | _ :: os, l => @instDecidableAnd _ _ inferInstance (orderlyDec os _)

theorem history_observed : outsOf (Sim.run answers history { name := "Sim" }) = some observed := by decide +kernel
theorem history_orderly : Orderly history [] := by decide +kernel
theorem history_simulates : Simulates history canA := ⟨history.take 4, history.drop 5, by decide +kernel, by decide +kernel, by decide +kernel⟩
theorem history_no_error : Out.error ∉ observed := by decide +kernel

theorem ok_of_outs {r : Res (Sim × List Out)} {outs : List Out} (h : outsOf r = some outs) : ∃ s, r = .ok (s, outs) := by
  cases r with
  | ok r =>
    cases r
    cases h
    exact ⟨_, rfl⟩
  | «throw» m => cases h
  | ub m => cases h

/-! ## The controllers that are offered -/

/-- After any orderly history without an exception, the controllers that were offered to the user for a simulated network, and not taken back, are the controllers
that exist with this network name and type. -/
theorem offered_are_the_existing (user : Key → Nat → Option Nat) (name : String) (os : List Op) (ho : Orderly os []) (k : Key) (hk : Simulates os k)
    {s : Sim} {outs : List Out} (hr : Sim.run user os { name := name } = .ok (s, outs)) (he : Out.error ∉ outs) (svc : Service) :
    (∃ d answer, (d, svc, answer) ∈ offered outs k) ↔ svc ∈ alive os ∧ svc.kind = .controller ∧ svc.net = k := by
  have ht := top_run (top_init name) user ho hr
  obtain ⟨hst, hn⟩ := simulates_net hk hr
  obtain ⟨seen, hi, h1, -⟩ := ht.seen
  have hl : s.listening = true := (ht.failed hst).resolve_right he
  obtain ⟨n, hn⟩ := Option.isSome_iff_exists.mp hn
  have := hi.svcs k n hn svc
  rw [h1 hl] at this
  exact this

/-- No controller is offered under two descriptors, and no descriptor stands for two controllers. -/
theorem offered_unique (user : Key → Nat → Option Nat) (name : String) (os : List Op) (ho : Orderly os []) (k : Key)
    {s : Sim} {outs : List Out} (hr : Sim.run user os { name := name } = .ok (s, outs)) (x y : Nat × Service × Option Nat) (hx : x ∈ offered outs k) (hy : y ∈ offered outs k) :
    (x.1 = y.1 → x = y) ∧ (x.2.1 = y.2.1 → x = y) := by
  have ht := top_run (top_init name) user ho hr
  obtain ⟨seen, hi, -, -⟩ := ht.seen
  cases hn : s.net? k with
  | none =>
    have := hi.absent k hn
    rw [List.nil_append] at this
    rw [this] at hx
    cases hx
  | some n =>
    have tb := hi.table k n hn
    exact ⟨tb.ids x hx y hy, fun e => tb.addrs x hx y hy (by rw [e])⟩

/-- Descriptors are positive and increase, over all networks: none is used twice. -/
theorem descriptors_increase (user : Key → Nat → Option Nat) (name : String) (os : List Op) (ho : Orderly os [])
    {s : Sim} {outs : List Out} (hr : Sim.run user os { name := name } = .ok (s, outs)) : (descriptors outs).Pairwise (· < ·) ∧ ∀ d ∈ descriptors outs, 0 < d := by
  have ht := top_run (top_init name) user ho hr
  obtain ⟨seen, hi, -, -⟩ := ht.seen
  exact ⟨hi.order, fun d hd => (hi.bound d hd).1⟩

/-- A controller that is taken back was offered, and not taken back before. -/
theorem removed_was_offered (user : Key → Nat → Option Nat) (name : String) (os : List Op) (ho : Orderly os [])
    {s : Sim} {outs : List Out} (hr : Sim.run user os { name := name } = .ok (s, outs)) (a b : List Out) (k : Key) (d : Nat) (h : outs = a ++ .removed k d :: b) :
    ∃ svc answer, (d, svc, answer) ∈ offered a k := by
  have ht := top_run (top_init name) user ho hr
  obtain ⟨seen, hi, -, -⟩ := ht.seen
  exact hi.gone a k d b h

example : ∃ s, Sim.run answers history { name := "Sim" } = .ok (s, observed) ∧ Orderly history [] ∧ Simulates history canA ∧ Out.error ∉ observed ∧
    offered observed canA = [(2, node2, some 102), (4, node1, some 104)] ∧ alive history = [ownLink, node2, node3, node1] ∧ descriptors observed = [1, 2, 3, 4] := by
  obtain ⟨s, hs⟩ := ok_of_outs history_observed
  exact ⟨s, hs, history_orderly, history_simulates, history_no_error, by decide +kernel, by decide +kernel, by decide +kernel⟩

/-! ## Messages of the controllers -/

/-- A message on a simulated network calls the object that the user gave for the controller that sent it, exactly once; messages of simulators, of controllers that
are not simulated and of those that are gone are not passed on. -/
theorem requests_reach_the_user (user : Key → Nat → Option Nat) (name : String) (os : List Op) (ho : Orderly os [])
    {s : Sim} {outs : List Out} (hr : Sim.run user os { name := name } = .ok (s, outs)) (he : Out.error ∉ outs) (k : Key) (p : String) (i : Nat) (simulated : Bool) (m : Nat) :
    Sim.run user (os ++ [.receive k p i simulated m]) { name := name } =
      .ok (s, outs ++ (if simulated then [] else (handleOf (offered outs k) (p, i)).toList.map (.request k · m))) := by
  have ht := top_run (top_init name) user ho hr
  obtain ⟨seen, hi, -, -⟩ := ht.seen
  rw [run_append, hr]
  simp only [Res.bind, Sim.run, Sim.step]
  have hd : k ∉ s.dangling := fun h => he (ht.dangling k h)
  unfold Sim.receive
  rw [if_neg hd]
  cases hn : s.net? k with
  | none =>
    have := hi.absent k hn
    rw [List.nil_append] at this
    simp [Res.bind, this, handleOf]
  | some n =>
    have tb := hi.table k n hn
    have hh := table_handle tb (p, i)
    rw [List.nil_append] at hh
    simp only [Res.bind, Net.receive, net?_key hn, List.append_nil]
    cases simulated with
    | true => rfl
    | false =>
      rw [hh]
      simp only [Bool.false_eq_true, if_false]
      cases handleOf (offered outs k) (p, i) <;> rfl

example : handleOf (offered observed canA) ("P2", 5) = some 102 ∧ handleOf (offered observed canA) ("P2", 7) = none ∧ handleOf (offered observed ethB) ("P2", 7) = none ∧
    outsOf (Sim.run answers (history ++ [.receive canA "P2" 5 false 77]) { name := "Sim" }) = some (observed ++ [.request canA 102 77]) := by decide +kernel

/-! ## Messages of the simulator -/

/-- What is produced for a list of descriptors goes, in this order, to the controllers that are offered under them and that the user simulates. -/
theorem produced_reach_the_receivers (user : Key → Nat → Option Nat) (name : String) (os : List Op) (ho : Orderly os [])
    {s : Sim} {outs : List Out} (hr : Sim.run user os { name := name } = .ok (s, outs)) (k : Key) (m : Nat) (receivers : List Nat) :
    Sim.run user (os ++ [.produce k m receivers]) { name := name } =
      .ok (s, outs ++ (if Out.producer k ∈ outs then receivers.flatMap (toReceiver k m (offered outs k)) else [])) := by
  have ht := top_run (top_init name) user ho hr
  obtain ⟨seen, hi, -, -⟩ := ht.seen
  have hb := (binv_run (binv_init False name k) (fun h => by cases h) (fun h => h.elim) user (fun h => h.elim) hr).base
  have hflag := hb.flag
  rw [List.nil_append] at hflag
  rw [run_append, hr]
  simp only [Res.bind, Sim.run, Sim.step]
  unfold Sim.produce
  cases hn : s.net? k with
  | none =>
    have : Out.producer k ∉ outs := fun h => by
      obtain ⟨n, h1, -⟩ := hflag.mpr h
      have h1 : s.net? k = some n := h1
      rw [hn] at h1; cases h1
    rw [if_neg this]
    rfl
  | some n =>
    have tb := hi.table k n hn
    rw [List.nil_append] at tb
    by_cases hp : n.producer = true
    · have : Out.producer k ∈ outs := hflag.mp ⟨n, hn, hp⟩
      rw [if_pos this, ← net?_key hn]
      simp only [hp, if_true, Res.bind, List.append_nil, Net.send]
      congr 3
      exact congrArg (receivers.flatMap) (funext fun d => (table_send tb m d).trans (by rw [net?_key hn]))
    · have : Out.producer k ∉ outs := fun h => by
        obtain ⟨n', h1, h2⟩ := hflag.mpr h
        have h1 : s.net? k = some n' := h1
        rw [hn] at h1
        cases h1
        exact hp h2
      rw [if_neg this]
      simp [hp, Res.bind]

example : toReceiver canA 8 (offered observed canA) 4 = [.send canA "P1" 5 8] ∧ toReceiver canA 8 (offered observed canA) 1 = [] ∧
    outsOf (Sim.run answers (history ++ [.produce canA 8 [2, 1, 4, 3]]) { name := "Sim" }) = some (observed ++ [.send canA "P2" 5 8, .send canA "P1" 5 8]) := by decide +kernel

/-- Of all controllers, the one that was offered under the descriptor, and only it, takes the message, once. -/
theorem only_the_receiver_takes (user : Key → Nat → Option Nat) (name : String) (os : List Op) (ho : Orderly os []) (k : Key)
    {s : Sim} {outs : List Out} (hr : Sim.run user os { name := name } = .ok (s, outs)) {d : Nat} {svc : Service} {h : Nat} (hoff : (d, svc, some h) ∈ offered outs k) (m : Nat)
    (ctls : List Ctl) (hne : ctls.Pairwise (fun a b => (a.participant, a.id) ≠ (b.participant, b.id)))
    {c : Ctl} (hc : c ∈ ctls) (ha : (c.participant, c.id) = svc.addr) (hnet : c.net = k) (hlink : c.link = some name) :
    (toReceiver k m (offered outs k) d).flatMap (takers name ctls) = [c] := by
  have ht := top_run (top_init name) user ho hr
  obtain ⟨seen, hi, -, -⟩ := ht.seen
  have hfind : (offered outs k).find? (fun y => decide (y.1 = d)) = some (d, svc, some h) := by
    cases hn : s.net? k with
    | none =>
      have := hi.absent k hn
      rw [List.nil_append] at this
      rw [this] at hoff
      cases hoff
    | some n => exact find_desc (hi.table k n hn) hoff
  unfold toReceiver
  rw [hfind]
  simp only [List.flatMap_cons, List.flatMap_nil, List.append_nil, takers]
  have hp : c.participant = svc.participant := congrArg Prod.fst ha
  have hid : c.id = svc.id := congrArg Prod.snd ha
  clear hfind hoff hr ht hi ho
  induction ctls with
  | nil => cases hc
  | cons x xs ih =>
    rw [List.pairwise_cons] at hne
    have htest : ∀ y : Ctl, (y.participant, y.id) ≠ (c.participant, c.id) → (decide (y.participant = svc.participant) && decide (y.net = k) && y.allows name svc.id) = false := by
      intro y hy
      apply Bool.eq_false_iff.mpr
      intro hx
      simp only [Ctl.allows, Bool.and_eq_true, decide_eq_true_eq] at hx
      exact hy (by rw [hx.1.1, hx.2.2, hp, hid])
    rcases List.mem_cons.mp hc with hcx | hc'
    · subst hcx
      have h1 : (decide (c.participant = svc.participant) && decide (c.net = k) && c.allows name svc.id) = true := by simp [Ctl.allows, hp, hid, hnet, hlink]
      rw [List.filter_cons, if_pos h1]
      congr 1
      rw [List.filter_eq_nil_iff]
      intro y hy
      have := htest y (fun e => hne.1 y hy e.symm)
      rw [this]
      exact Bool.false_ne_true
    · rw [List.filter_cons, if_neg (by rw [htest x (hne.1 c hc')]; exact Bool.false_ne_true)]
      exact ih hne.2 hc'

example : (2, node2, some 102) ∈ offered observed canA ∧
    (toReceiver canA 8 (offered observed canA) 2).flatMap (takers "Sim" [⟨"P1", 5, canA, some "Sim"⟩, ⟨"P2", 5, canA, some "Sim"⟩, ⟨"P2", 7, ethB, some "Sim"⟩, ⟨"P2", 8, canA, some "Sim"⟩]) =
      [⟨"P2", 5, canA, some "Sim"⟩] := by decide +kernel

/-! ## Event producers -/

/-- `SetEventProducer` is called at most once for a network. -/
theorem producer_once (user : Key → Nat → Option Nat) (name : String) (os : List Op) (k : Key) {s : Sim} {outs : List Out} (hr : Sim.run user os { name := name } = .ok (s, outs)) :
    outs.count (.producer k) ≤ 1 := by
  have hb := (binv_run (binv_init False name k) (fun h => by cases h) (fun h => h.elim) user (fun h => h.elim) hr).base
  simpa using hb.once

/-- The user has the event producer of a network before its first controller, unless there are controllers of another type on a network with the same name. Full
property: also then. -/
theorem producer_before_controllers_partial (user : Key → Nat → Option Nat) (name : String) (os : List Op) (k : Key)
    (honly : ∀ svc, Op.created svc ∈ os → svc.kind = .controller → svc.net.name = k.name → svc.net = k)
    {s : Sim} {outs : List Out} (hr : Sim.run user os { name := name } = .ok (s, outs)) (a b : List Out) (d : Nat) (svc : Service) (answer : Option Nat)
    (h : outs = a ++ .provide k d svc answer :: b) : Out.producer k ∈ a := by
  have hb := binv_run (P := True) (binv_init True name k) (fun h => by cases h) (fun _ svc h => by cases h) user
    (fun _ o ho => by
      cases o with
      | created svc => exact honly svc ho
      | _ => trivial) hr
  exact hb.before trivial a d svc answer b h

example : (∀ svc, Op.created svc ∈ history → svc.kind = .controller → svc.net.name = canA.name → svc.net = canA) ∧
    observed = [.producer canA] ++ .provide canA 1 node1 none :: observed.drop 2 := by
  refine ⟨fun svc h => ?_, by decide +kernel⟩
  simp only [history, List.mem_cons, reduceCtorEq, Op.created.injEq, List.not_mem_nil, or_false, false_or] at h
  rcases h with rfl | rfl | rfl | rfl | rfl <;> decide +kernel

/-- Deviation: discovered networks are kept by name only. A CAN and a LIN network have the same name; the user gets controllers of the second one but never its event
producer, and cannot answer them. -/
theorem producer_missing_for_same_name :
    outsOf (Sim.run answers [.simulate canA, .simulate linA, .start, .created node1, .created node4, .produce linA 8 [2]] { name := "Sim" }) =
      some [.producer canA, .provide canA 1 node1 none, .provide linA 2 node4 (some 102)] := by decide +kernel

/-- Once the last controller of the CAN network is gone, a LIN network of the same name gets its event producer. -/
example : outsOf (Sim.run answers [.simulate canA, .simulate linA, .start, .created node1, .created node2, .removed node1, .removed node2, .created node4] { name := "Sim" }) =
    some [.producer canA, .provide canA 1 node1 none, .provide canA 2 node2 (some 102), .removed canA 1, .removed canA 2, .producer linA, .provide linA 3 node4 none] := by
  decide +kernel

/-! ## Failures -/

/-- The simulator throws for two reasons only: a network is to be simulated twice, or a link of another participant appears or disappears on a network that is to be
simulated. The simulator's own links and all other services never make it throw. -/
theorem errors_have_a_cause (user : Key → Nat → Option Nat) (name : String) (os : List Op) {s : Sim} {outs : List Out}
    (hr : Sim.run user os { name := name } = .ok (s, outs)) (he : Out.error ∈ outs) :
    (∃ k, 2 ≤ os.count (.simulate k)) ∨
    ∃ svc, svc.kind = .link ∧ svc.participant ≠ name ∧ Op.simulate svc.net ∈ os ∧ (Op.created svc ∈ os ∨ Op.removed svc ∈ os) := by
  have h0 : Held name [] { name := name } := ⟨rfl, fun k hk => by simp [Sim.net?] at hk, fun svc hs => by cases hs⟩
  simpa [Foreign] using run_held os h0 hr he

example : outsOf (Sim.run answers [.simulate canA, .start, .created otherLink] { name := "Sim" }) = some [.error] := by decide +kernel
example : outsOf (Sim.run answers [.simulate canA, .simulate canA] { name := "Sim" }) = some [.error] := by decide +kernel
example : outsOf (Sim.run answers [.simulate canA, .start, .created ownLink, .removed ownLink] { name := "Sim" }) = some [] := by decide +kernel

/-- Without exceptions nothing undefined happens. -/
theorem no_undefined_behaviour (user : Key → Nat → Option Nat) (name : String) (os : List Op) (ho : Orderly os []) {s : Sim} {outs : List Out}
    (hr : Sim.run user os { name := name } = .ok (s, outs)) (he : Out.error ∉ outs) (o : Op) : ∃ r, Sim.run user (os ++ [o]) { name := name } = .ok r := by
  have ht := top_run (top_init name) user ho hr
  rw [run_append, hr]
  simp only [Res.bind, Sim.run]
  cases o with
  | receive k p i b m =>
    have hd : k ∉ s.dangling := fun h => he (ht.dangling k h)
    simp only [Sim.step, Sim.receive, if_neg hd]
    cases s.net? k <;> exact ⟨_, rfl⟩
  | _ => exact ⟨_, rfl⟩

/-- Deviation: `SimulateNetwork` for a network that is simulated already throws, but the router made for it was registered before and is destroyed: the next message on
the network goes to it. -/
theorem duplicate_network_is_undefined : ∃ msg, Sim.run answers [.simulate canA, .simulate canA, .start, .created node1, .receive canA "P1" 5 false 77] { name := "Sim" } = .ub msg :=
  ⟨_, rfl⟩

/-- Deviation: if another simulator simulates the network already, `Start` throws in the middle of the known services. The simulator counts as started but is not told about
any service from then on, and calling `Start` again does nothing. -/
theorem failed_start_is_final :
    outsOf (Sim.run answers [.simulate canA, .simulate ethB, .created otherLink, .created node3, .start, .removed otherLink, .start, .created node1] { name := "Sim" }) = some [.error] := by
  decide +kernel

/-! ## The controllers -/

/-- A controller is simulated in detail, by this participant, exactly while the link of the simulator exists, if there is only one simulator for the name of its network
and it has the type of the controller. Full property: for any simulators. -/
theorem detailed_while_simulated_partial (c : Ctl) (hc : c.link = none) (es : List (Bool × Service)) (h : OneSimulator c.net es []) (S : String) :
    (Spec.Ctl.events c es).link = some S ↔ ∃ svc ∈ links es, svc.kind = .link ∧ svc.net = c.net ∧ svc.participant = S := by
  refine mode_events rfl List.nodup_nil h (fun x hx => by cases hx) (fun S => ?_) S
  rw [hc]
  constructor
  · intro e; cases e
  · rintro ⟨x, hx, -⟩; cases hx

def ctl1 : Ctl := ⟨"P1", 5, canA, none⟩
def linLink : Service := ⟨"Sim", 9, linA, .link⟩

/-- It leaves and another simulator takes over. -/
def handover : List (Bool × Service) := [(true, node2), (true, ownLink), (false, ownLink), (true, otherLink), (false, node2)]

example : OneSimulator ctl1.net handover [] ∧ (Spec.Ctl.events ctl1 handover).link = some "Sim2" ∧ (Spec.Ctl.events ctl1 (handover.take 2)).link = some "Sim" ∧
    (Spec.Ctl.events ctl1 (handover.take 3)).link = none := by
  refine ⟨?_, by decide +kernel, by decide +kernel, by decide +kernel⟩
  simp [OneSimulator, handover, node2, ownLink, otherLink, ctl1, canA]

/-- Deviation: the type of the network is not compared. A simulator of a LIN network takes a CAN controller on a network with the same name off its bus, although it does not
simulate it, and what the controller sends is refused. -/
theorem detached_by_another_type :
    (Spec.Ctl.events ctl1 [(true, linLink)]).link = some "Sim" ∧
      (Spec.Ctl.events ctl1 [(true, linLink)]).send (fun s k => decide (s = "Sim" ∧ k = linA)) = .failed := by decide +kernel

/-- Deviation: of two simulators, the second one's leaving ends the simulation by the first, which is still there. -/
theorem second_simulator_ends_first :
    (Spec.Ctl.events ctl1 [(true, ownLink), (true, otherLink), (false, otherLink)]).link = none ∧
      links [(true, ownLink), (true, otherLink), (false, otherLink)] = [ownLink] := by decide +kernel

/-! ## Status events -/

/-- If all events are produced for a controller, it is told about the states and errors that were produced for it and that differ from the ones before, in order, and about nothing
else. Full property: also if some events are for other controllers. -/
theorem status_notices_partial (es : List (Change × List Nat)) (d : Nat) (hd : ∀ e ∈ es, d ∈ e.2) :
    (noticesOf d (Bus.run es {}).2).filterMap stateOf = changes 0 (es.filterMap (fun e => stateOf e.1)) ∧
      (noticesOf d (Bus.run es {}).2).filterMap errorOf = changes 0 (es.filterMap (fun e => errorOf e.1)) :=
  notices_run hd rfl

example : noticesOf 2 (Bus.run [(.state 1, [1, 2]), (.error 3, [2]), (.error 3, [2, 1]), (.state 0, [2, 2])] {}).2 = [.state 1, .error 3, .state 0] := by decide +kernel

/-- Deviation: a producer has one state for all controllers. Controller 1 is started and controller 2 gets an error state; controller 2 is told that it was started, which nobody
produced for it. -/
theorem state_of_another_controller :
    noticesOf 2 (Bus.run [(.state 1, [1]), (.error 3, [2])] {}).2 = [.state 1, .error 3] := by decide +kernel

end SilKit.Props.NetSim
