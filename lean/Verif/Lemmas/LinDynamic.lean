import Verif.Lemmas.LinAnswer
import Verif.Lemmas.ConfigFiles
import Verif.Spec.LinDynamic
/-!
# LIN networks with dynamic responses: lemmas
-/
namespace SilKit.Lin
open SilKit.Lin.Spec SilKit.Handling.Spec

/-! ## Who offers responses -/

/-- The message says that its sender responds to `id`. -/
def Msg.offers (id : Nat) : Msg → Prop
  | .config _ _ rs | .responses rs => ∃ r ∈ rs, r.frame.id = id ∧ r.mode = .tx
  | _ => False

theorem updateResponses_tx (id : Nat) (rs : List Response) (n : Node) (h : ((n.updateResponses rs).resp id).mode = .tx) :
    (n.resp id).mode = .tx ∨ ∃ r ∈ rs, r.frame.id = id ∧ r.mode = .tx := by
  induction rs generalizing n with
  | nil => exact .inl h
  | cons r t ih =>
    rcases ih (n.updateResponse r) h with h | ⟨x, hx, h⟩
    · unfold Node.updateResponse at h
      split at h
      · exact .inl h
      · simp only at h
        split at h
        · rename_i e; exact .inr ⟨r, by simp, e.symm, h⟩
        · exact .inl h
    · exact .inr ⟨x, by simp [hx], h⟩

theorem viewStep_tx (id : Nat) (n : Node) (m : Msg) (h : ((viewStep n m).resp id).mode = .tx) : (n.resp id).mode = .tx ∨ m.offers id := by
  cases m with
  | config mode dyn rs => exact updateResponses_tx id rs { n with mode := mode, status := .operational, isDynamic := dyn } h
  | responses rs => exact updateResponses_tx id rs n h
  | _ => exact .inl h

theorem set_tx (id : Nat) (f : Conf) (r : Response) (h : ((f.set r).resp id).mode = .tx) : (f.resp id).mode = .tx ∨ (r.frame.id = id ∧ r.mode = .tx) := by
  unfold Conf.set at h
  split at h
  · simp only at h
    split at h
    · rename_i e; exact .inr ⟨e.symm, h⟩
    · exact .inl h
  · exact .inl h

theorem sets_tx (id : Nat) (rs : List Response) (f : Conf) (h : ((rs.foldl Conf.set f).resp id).mode = .tx) :
    (f.resp id).mode = .tx ∨ ∃ r ∈ rs, r.frame.id = id ∧ r.mode = .tx := by
  induction rs generalizing f with
  | nil => exact .inl h
  | cons r t ih =>
    rcases ih (f.set r) h with h | ⟨x, hx, h⟩
    · rcases set_tx id f r h with h | h
      · exact .inl h
      · exact .inr ⟨r, by simp, h⟩
    · exact .inr ⟨x, by simp [hx], h⟩

theorem call_tx (id : Nat) (f : Conf) (a : Call) (h : ((f.call a).resp id).mode = .tx) : (f.resp id).mode = .tx ∨ a.offers id := by
  cases a with
  | init mode rs =>
    simp only [Conf.call, Conf.initWith] at h
    split at h
    · have := sets_tx id rs _ h
      exact this
    · exact .inl h
  | initDynamic mode =>
    simp only [Conf.call, Conf.initWith] at h
    split at h <;> exact .inl h
  | sendDynamicResponse fr => exact (set_tx id f _ h).imp (fun h => h) fun h => h.1
  | setFrameResponse r =>
    simp only [Conf.call] at h
    split at h
    · exact set_tx id f r h
    · exact .inl h
  | updateTxBuffer fr =>
    simp only [Conf.call] at h
    split at h
    · simp only at h
      split at h
      · exact .inl h
      · exact .inl h
    · exact .inl h
  | sendFrame fr ty =>
    cases ty with
    | masterResponse =>
      simp only [Conf.call] at h
      split at h
      · exact (set_tx id f _ h).imp (fun h => h) fun h => h.1
      · exact .inl h
    | slaveResponse =>
      simp only [Conf.call] at h
      split at h
      · rcases set_tx id f _ h with h | h
        · exact .inl h
        · cases h.2
      · exact .inl h
    | slaveToSlave => exact .inl h
  | _ =>
    simp only [Conf.call] at h
    first
      | exact .inl h
      | (split at h <;> exact .inl h)

/-! ## What controllers send -/

theorem bus_fine {x id : Nat} {m : Msg} {P : Prop} (h : Bus x m) (hx : x < 64) : m.Valid ∧ (m.offers id → P) := by
  rcases h with rfl | ⟨f, s, rfl⟩
  · exact ⟨hx, fun h => h.elim⟩
  · exact ⟨trivial, fun h => h.elim⟩

theorem sends_distribute (c : Ctl) (m x : Msg) (h : x ∈ sendsOf (c.distribute m).2) : x = m := by
  unfold Ctl.distribute at h
  split at h
  · simpa [Ctl.send, sendsOf, sendOf] using h
  · simp [sendsOf] at h

theorem api_sends (id : Nat) {c : Ctl} (hsim : c.sim = none) (a : Call) (hv : a.Valid) (hs : a.noSim) (m : Msg) (hm : m ∈ sendsOf (c.apiAlive a).2) :
    m.Valid ∧ (m.offers id → a.offers id) := by
  have no : ∀ {l : List Msg}, l = [] → m ∈ l → m.Valid ∧ (m.offers id → a.offers id) := by rintro l rfl h; simp at h
  have upd : ∀ r : Response, m ∈ sendsOf (c.updateFrameResponse r).2 → m = .responses [r] := by
    intro r h
    exact sends_distribute _ _ _ h
  cases a with
  | init mode rs =>
    simp only [Ctl.apiAlive, Ctl.init] at hm
    split at hm
    · exact no (sends_throw _) hm
    · split at hm
      · exact no (sends_throw _) hm
      · rw [sends_distribute _ _ _ hm]
        exact ⟨trivial, fun h => h⟩
  | initDynamic mode =>
    simp only [Ctl.apiAlive, Ctl.initDynamic] at hm
    split at hm
    · exact no (sends_throw _) hm
    · split at hm
      · exact no (sends_throw _) hm
      · rw [sends_distribute _ _ _ hm]
        exact ⟨trivial, fun h => by simp [Msg.offers] at h⟩
  | sendDynamicResponse fr =>
    simp only [Ctl.apiAlive, Ctl.sendDynamicResponse] at hm
    split at hm
    · exact no (sends_throw _) hm
    · rw [sendsOf_andThen, List.mem_append] at hm
      rcases hm with hm | hm
      · rw [upd _ hm]
        exact ⟨trivial, fun h => by simpa [Msg.offers, Call.offers] using h⟩
      · obtain ⟨f, s, rfl⟩ := sends_processHeader _ _ m hm
        exact ⟨trivial, fun h => h.elim⟩
  | sendFrame fr ty =>
    have hid : fr.id < 64 := hv
    simp only [Ctl.apiAlive, Ctl.sendFrame] at hm
    split at hm
    · exact no (sends_throw _) hm
    split at hm
    · exact no (sends_throw _) hm
    split at hm
    · exact no (sends_throw _) hm
    cases ty with
    | masterResponse =>
      simp only [Ctl.sendFrameInternal] at hm
      rw [sendsOf_andThen, List.mem_append] at hm
      rcases hm with hm | hm
      · rw [upd _ hm]
        exact ⟨trivial, fun h => by simpa [Msg.offers, Call.offers] using h⟩
      · exact bus_fine (sends_requestFrame _ _ _ m hm) hid
    | slaveResponse =>
      simp only [Ctl.sendFrameInternal] at hm
      split at hm
      · exact no (sends_tell _ _) hm
      · unfold Ctl.sendFrameSlave at hm
        rw [if_neg (by omega)] at hm
        split at hm
        · rw [sendsOf_andThen, List.mem_append] at hm
          rcases hm with hm | hm
          · rw [upd _ hm]
            exact ⟨trivial, fun h => by simp [Msg.offers] at h⟩
          · exact bus_fine (sends_requestFrame _ _ _ m hm) hid
        · exact no rfl hm
        · exact bus_fine (sends_requestFrame _ _ _ m hm) hid
    | slaveToSlave =>
      simp only [Ctl.sendFrameInternal] at hm
      split at hm
      · exact no (sends_tell _ _) hm
      · rw [sendsOf_andThen, List.mem_append] at hm
        rcases hm with hm | hm
        · exact no (sends_tell _ _) hm
        · exact bus_fine (sends_requestFrame _ _ _ m hm) hid
  | sendFrameHeader x =>
    have hid : x < 64 := hv
    simp only [Ctl.apiAlive, Ctl.sendFrameHeader] at hm
    split at hm
    · exact no (sends_throw _) hm
    split at hm
    · exact no (sends_throw _) hm
    exact bus_fine (sends_requestHeader _ _ m hm) hid
  | updateTxBuffer fr =>
    have hid : fr.id < 64 := hv
    simp only [Ctl.apiAlive, Ctl.updateTxBuffer] at hm
    split at hm
    · exact no (sends_throw _) hm
    split at hm
    · exact no (sends_throw _) hm
    rw [if_neg (by omega)] at hm
    split at hm
    · exact no (sends_throw _) hm
    · simp only [R.andThen] at hm
      rw [if_pos (show (c.setOwn (·.updateTxBuffer fr.id fr.data)).sim = none from hsim)] at hm
      simp [sendsOf] at hm
  | setFrameResponse r =>
    simp only [Ctl.apiAlive, Ctl.setFrameResponse] at hm
    split at hm
    · exact no (sends_throw _) hm
    split at hm
    · exact no (sends_throw _) hm
    split at hm
    · exact no rfl hm
    split at hm
    · exact no rfl hm
    split at hm
    · exact no rfl hm
    · rw [upd _ hm]
      exact ⟨trivial, fun h => by simpa [Msg.offers, Call.offers] using h⟩
  | sim x => exact hs.elim
  | getSlaveConfiguration =>
    simp only [Ctl.apiAlive, Ctl.getSlaveConfiguration] at hm
    split at hm
    · exact no (sends_throw _) hm
    · exact no rfl hm
  | addHandler k =>
    refine no ?_ hm
    simp only [Ctl.apiAlive, Ctl.addHandler]
    rw [sendsOf_andThen]
    have : sendsOf (Handling.add c.handlers k 0).2 = [] := by simp [Handling.add, sendsOf, sendOf]
    simp only [this, List.nil_append]
    split
    · exact sends_tell _ _
    · rfl
  | removeHandler k x =>
    refine no ?_ hm
    simp only [Ctl.apiAlive, Ctl.removeHandler, Handling.remove]
    simp [sendsOf, sendOf]
  | goToSleep =>
    simp only [Ctl.apiAlive, Ctl.goToSleep, hsim] at hm
    split at hm
    · exact no (sends_throw _) hm
    split at hm
    · exact no (sends_throw _) hm
    rename_i hu _
    rw [sendsOf_andThen, sendsOf_andThen, sends_send, sends_tell] at hm
    simp only [List.append_nil, List.cons_append, List.nil_append, List.mem_cons] at hm
    rcases hm with rfl | hm
    · exact ⟨trivial, fun h => h.elim⟩
    · unfold Ctl.goToSleepInternal at hm
      split at hm
      · exact no (sends_throw _) hm
      · simp only [Ctl.setStatus, sends_send, List.mem_singleton] at hm
        rw [hm]; exact ⟨trivial, fun h => h.elim⟩
  | goToSleepInternal =>
    simp only [Ctl.apiAlive, Ctl.goToSleepInternal] at hm
    split at hm
    · exact no (sends_throw _) hm
    · simp only [Ctl.setStatus, sends_send, List.mem_singleton] at hm
      rw [hm]; exact ⟨trivial, fun h => h.elim⟩
  | wakeup =>
    simp only [Ctl.apiAlive, Ctl.wakeup, hsim] at hm
    split at hm
    · exact no (sends_throw _) hm
    rw [sendsOf_andThen, sendsOf_andThen, sends_send, sends_tell] at hm
    simp only [List.append_nil, List.cons_append, List.nil_append, List.mem_cons] at hm
    rcases hm with rfl | hm
    · exact ⟨trivial, fun h => h.elim⟩
    · unfold Ctl.wakeupInternal at hm
      split at hm
      · exact no (sends_throw _) hm
      · simp only [Ctl.setStatus, sends_send, List.mem_singleton] at hm
        rw [hm]; exact ⟨trivial, fun h => h.elim⟩
  | wakeupInternal =>
    simp only [Ctl.apiAlive, Ctl.wakeupInternal] at hm
    split at hm
    · exact no (sends_throw _) hm
    · simp only [Ctl.setStatus, sends_send, List.mem_singleton] at hm
      rw [hm]; exact ⟨trivial, fun h => h.elim⟩

/-! ## The network -/

theorem confAt_call (i j : Nat) (x : Call) (os : List Out) (t : List Ev) :
    confAt j (t ++ .call i x :: os.map (.out i)) = if i = j then (confAt j t).call x else confAt j t := by
  unfold confAt
  rw [show ∀ l : List Ev, t ++ Ev.call i x :: l = t ++ ([Ev.call i x] ++ l) from fun _ => rfl, inputs_append, inputs_append, inputs_outs]
  by_cases eij : i = j
  · simp only [inputs, List.filterMap_cons, List.filterMap_nil, inputOf, eij, if_true, List.append_nil]
    rw [conf_append]; rfl
  · simp [inputs, inputOf, eij]

theorem confAt_recv (i j src : Nat) (m : Msg) (os : List Out) (t : List Ev) :
    confAt i (t ++ .recv j src m :: os.map (.out j)) = if j = i then (confAt i t).recv i src m else confAt i t := by
  unfold confAt
  rw [show ∀ l : List Ev, t ++ Ev.recv j src m :: l = t ++ ([Ev.recv j src m] ++ l) from fun _ => rfl, inputs_append, inputs_append, inputs_outs]
  by_cases eij : j = i
  · simp only [inputs, List.filterMap_cons, List.filterMap_nil, inputOf, eij, if_true, List.append_nil]
    rw [conf_append]; rfl
  · simp [inputs, inputOf, eij]

theorem posts_last_some (s : Net) (i : Nat) (os : List Out) (a : Nat) (m : Msg) (h : (s.posts i os).last a = some m) : s.last a = some m ∨ (a = i ∧ m ∈ sendsOf os) := by
  rw [posts_eq] at h
  generalize sendsOf os = ms at h ⊢
  induction ms generalizing s with
  | nil => exact .inl h
  | cons x t ih =>
    rw [List.foldl_cons] at h
    rcases ih (s.post i x) h with h | ⟨e, h⟩
    · simp only [Net.post] at h
      split at h
      · unfold upd at h
        split at h
        · rename_i ea
          injection h with h
          exact .inr ⟨ea, by simp [h]⟩
        · exact .inl h
      · exact .inl h
    · exact .inr ⟨e, by simp [h]⟩

/-- The invariant of a network without simulation, if only controllers with `O` ever offer a response to `id`. -/
structure DI (k : Nat) (id : Nat) (O : Nat → Prop) (h : List Act) (s : Net) (t : List Ev) : Prop where
  chanOk : ∀ i j m, m ∈ s.chan i j → m.Valid ∧ (i = j → ∃ id, m = .header id) ∧ (m.offers id → O i)
  lastOk : ∀ i m, s.last i = some m → m.Valid ∧ (m.offers id → O i)
  inOk : ∀ i, ∀ x ∈ inputs i t, Input.Valid i x
  opened : ∀ i j ty, i < k → j < k → i ≠ j → Act.open i j ty ∈ h → s.opn i j ty = true
  conf : ∀ i, ((confAt i t).resp id).mode = .tx → O i
  view : ∀ i j, i ≠ j → ((getNode i (s.ctl j).nodes).resp id).mode = .tx → O i

theorem unsimulated_prefix {h : List Act} {a : Act} (hp : Unsimulated (h ++ [a])) : Unsimulated h :=
  ⟨fun i x hx => hp.1 i x (by simp [hx]), fun i j hx => hp.2 i j (by simp [hx])⟩

theorem DI.step {k : Nat} {net : String} {id : Nat} {O : Nat → Prop} {h : List Act} {a : Act} (hp : Unsimulated (h ++ [a]))
    (hO : ∀ i x, Act.api i x ∈ h ++ [a] → x.offers id → O i)
    (ih : DI k id O h (run k net h).1 (run k net h).2) : DI k id O (h ++ [a]) ((run k net h).1.step a).1 ((run k net h).2 ++ ((run k net h).1.step a).2) := by
  have hk := run_k k net h
  have facts := ctl_facts ih.inOk
  generalize run k net h = r at ih hk facts
  obtain ⟨s, t⟩ := r
  simp only at ih hk facts ⊢
  have idle : (∀ i j ty, a = .open i j ty → i < k → j < k → i ≠ j → s.opn i j ty = true) → DI k id O (h ++ [a]) s t := by
    intro hop
    refine ⟨ih.chanOk, ih.lastOk, ih.inOk, fun i j ty hi hj hij hm => ?_, ih.conf, ih.view⟩
    rw [List.mem_append, List.mem_singleton] at hm
    rcases hm with hm | hm
    · exact ih.opened i j ty hi hj hij hm
    · exact hop i j ty hm.symm hi hj hij
  cases a with
  | close i j => exact absurd (by simp) (hp.2 i j)
  | api i x =>
    by_cases hi : i < s.k
    · have e : s.step (.api i x) = (s.become i ((s.ctl i).api x), .call i x :: ((s.ctl i).api x).2.map (.out i)) := by simp only [Net.step, if_pos hi]
      obtain ⟨f1, f2, f3, f4⟩ := facts i
      obtain ⟨v1, v2⟩ := hp.1 i x (by simp)
      have ea : (s.ctl i).api x = (s.ctl i).apiAlive x := by rw [Ctl.api, if_neg (by simp [f2])]
      have hs := api_sends id f4.sim x v1 v2
      have hoi : x.offers id → O i := hO i x (by simp)
      rw [e, ea]
      refine ⟨?_, ?_, ?_, ?_, ?_, ?_⟩
      · intro p q m hm
        rw [become_chan, List.mem_append] at hm
        rcases hm with hm | hm
        · exact ih.chanOk p q m hm
        · split at hm
          · rename_i ep
            rw [List.mem_filter] at hm
            refine ⟨(hs m hm.1).1, fun epq => ?_, fun ho => ep ▸ hoi ((hs m hm.1).2 ho)⟩
            have hg := hm.2
            simp only [Net.goesTo, ← epq, ep, if_true, Bool.and_eq_true] at hg
            cases m with
            | header id => exact ⟨id, rfl⟩
            | _ => simp [Msg.selfDelivered] at hg
          · simp at hm
      · intro p m hl
        rcases posts_last_some _ _ _ _ _ hl with hl | ⟨ep, hm⟩
        · exact ih.lastOk p m hl
        · exact ⟨(hs m hm).1, fun ho => ep ▸ hoi ((hs m hm).2 ho)⟩
      · intro j y hy
        rw [show ∀ l : List Ev, t ++ Ev.call i x :: l = t ++ ([Ev.call i x] ++ l) from fun _ => rfl, inputs_append, inputs_append, inputs_outs] at hy
        simp only [List.append_nil, List.mem_append] at hy
        rcases hy with hy | hy
        · exact ih.inOk j y hy
        · simp only [inputs, List.filterMap_cons, List.filterMap_nil, inputOf] at hy
          split at hy
          · simp at hy
          · rename_i heq
            split at heq
            · rename_i eij
              injection heq with heq
              simp only [List.mem_singleton] at hy
              rw [hy, ← heq]
              exact ⟨v1, v2⟩
            · cases heq
      · intro p q ty hp' hq hpq hm
        rw [become_opn]
        exact ih.opened p q ty hp' hq hpq (by simpa using hm)
      · intro j hj
        rw [confAt_call] at hj
        split at hj
        · rename_i eij
          rcases call_tx id _ _ hj with hj | hj
          · exact ih.conf j hj
          · exact eij ▸ hoi hj
        · exact ih.conf j hj
      · intro p q hpq hv
        rw [become_ctl] at hv
        unfold upd at hv
        split at hv
        · rename_i eq'
          have en : getNode p ((s.ctl i).apiAlive x).1.nodes = getNode p (s.ctl i).nodes := by
            rcases api_nodes (s.ctl i) x v2 with en | ⟨u, en⟩
            · rw [en]
            · rw [en, getNode_updNode_ne]
              rw [f1]; exact eq' ▸ hpq
          rw [en] at hv
          exact ih.view p i (eq' ▸ hpq) hv
        · exact ih.view p q hpq hv
    · have e : s.step (.api i x) = (s, []) := by simp only [Net.step, if_neg hi]
      rw [e, List.append_nil]
      exact idle (fun _ _ _ e => by cases e)
  | «open» i j ty =>
    by_cases hg : i < s.k ∧ j < s.k ∧ i ≠ j ∧ s.opn i j ty = false
    · have e : s.step (.open i j ty) = (s.opened i j ty, []) := by simp only [Net.step, if_pos hg]
      rw [e, List.append_nil]
      refine ⟨fun p q m hm => ?_, ih.lastOk, ih.inOk, fun p q ty' hp' hq hpq hm => ?_, ih.conf, ih.view⟩
      · simp only [Net.opened] at hm
        split at hm
        · rename_i hc
          rw [List.mem_append] at hm
          rcases hm with hm | hm
          · exact ih.chanOk p q m hm
          · rw [Option.mem_toList] at hm
            obtain ⟨l1, l2⟩ := ih.lastOk i m hm
            refine ⟨l1, fun epq => ?_, fun ho => hc.1 ▸ l2 ho⟩
            exact absurd (hc.1.symm.trans (epq.trans hc.2.1)) hg.2.2.1
        · exact ih.chanOk p q m hm
      · simp only [Net.opened]
        split
        · rfl
        · rename_i hne
          refine ih.opened p q ty' hp' hq hpq ?_
          rw [List.mem_append, List.mem_singleton] at hm
          rcases hm with hm | hm
          · exact hm
          · injection hm with h1 h2 h3
            exact absurd ⟨h1, h2, h3⟩ hne
    · have e : s.step (.open i j ty) = (s, []) := by simp only [Net.step, if_neg hg]
      rw [e, List.append_nil]
      refine idle fun p q ty' ep hp' hq hpq => ?_
      injection ep with h1 h2 h3
      subst h1 h2 h3
      cases ho' : s.opn i j ty with
      | true => rfl
      | false => exact absurd ⟨hk ▸ hp', hk ▸ hq, hpq, ho'⟩ hg
  | deliver src j =>
    by_cases hg : src < s.k ∧ j < s.k
    · cases hc : s.chan src j with
      | nil =>
        have e : s.step (.deliver src j) = (s, []) := by simp only [Net.step, if_pos hg, hc, Net.deliver]
        rw [e, List.append_nil]
        exact idle (fun _ _ _ e => by cases e)
      | cons m rest =>
        have e : s.step (.deliver src j) = ((s.pop src j).become j ((s.ctl j).receive src m), Ev.recv j src m :: ((s.ctl j).receive src m).2.map (.out j)) := by
          simp only [Net.step, if_pos hg, hc, Net.deliver]
        obtain ⟨f1, f2, f3, f4⟩ := facts j
        obtain ⟨m1, m2, m3⟩ := ih.chanOk src j m (by rw [hc]; simp)
        have er : (s.ctl j).receive src m = (s.ctl j).take src m := receive_eq f2 f4.sim (fun e => m2 (e.trans f1))
        obtain ⟨t1, t2, t3, t4, t5, t6⟩ := take_nodes f3.sorted src m
        have hsend := sends_receive (s.ctl j) src m
        rw [er] at hsend
        have echan : ∀ p q, (s.pop src j).chan p q = if p = src ∧ q = j then rest else s.chan p q := by
          intro p q
          simp only [Net.pop]
          split
          · rename_i hpq
            rw [hpq.1, hpq.2, hc]; rfl
          · rfl
        rw [e, er]
        refine ⟨?_, ?_, ?_, ?_, ?_, ?_⟩
        · intro p q m' hm
          rw [become_chan, List.mem_append, echan] at hm
          rcases hm with hm | hm
          · split at hm
            · rename_i hpq
              have := ih.chanOk src j m' (by rw [hc]; simp [hm])
              rw [hpq.1, hpq.2]
              exact this
            · exact ih.chanOk p q m' hm
          · split at hm
            · rename_i ep
              rw [List.mem_filter] at hm
              obtain ⟨fr, st, rfl⟩ := hsend m' hm.1
              refine ⟨trivial, fun epq => ?_, fun ho => ho.elim⟩
              have hg' := hm.2
              rw [ep] at epq
              simp [Net.goesTo, ← epq, Msg.selfDelivered] at hg'
            · simp at hm
        · intro p m' hl
          rcases posts_last_some _ _ _ _ _ hl with hl | ⟨ep, hm⟩
          · exact ih.lastOk p m' hl
          · obtain ⟨fr, st, rfl⟩ := hsend m' hm
            exact ⟨trivial, fun ho => ho.elim⟩
        · intro i y hy
          rw [show ∀ l : List Ev, t ++ Ev.recv j src m :: l = t ++ ([Ev.recv j src m] ++ l) from fun _ => rfl, inputs_append, inputs_append, inputs_outs] at hy
          simp only [List.append_nil, List.mem_append] at hy
          rcases hy with hy | hy
          · exact ih.inOk i y hy
          · simp only [inputs, List.filterMap_cons, List.filterMap_nil, inputOf] at hy
            split at hy
            · simp at hy
            · rename_i heq
              split at heq
              · rename_i eij
                injection heq with heq
                simp only [List.mem_singleton] at hy
                rw [hy, ← heq]
                exact ⟨m1, fun e => m2 (e.trans eij.symm)⟩
              · cases heq
        · intro p q ty hp' hq hpq hm
          rw [become_opn]
          exact ih.opened p q ty hp' hq hpq (by simpa using hm)
        · intro i hi
          rw [confAt_recv] at hi
          split at hi
          · rw [recv_idle] at hi; exact ih.conf i hi
          · exact ih.conf i hi
        · intro p q hpq hv
          rw [become_ctl] at hv
          unfold upd at hv
          split at hv
          · rename_i eq'
            by_cases ep : p = src
            · rw [ep, t3] at hv
              rcases viewStep_tx id _ _ hv with hv | hv
              · rw [ep]; exact ih.view src j (fun e => hpq (ep.trans (e.trans eq'.symm))) hv
              · rw [ep]; exact m3 hv
            · rw [t2 p ep] at hv
              exact ih.view p j (eq' ▸ hpq) hv
          · exact ih.view p q hpq hv
    · have e : s.step (.deliver src j) = (s, []) := by simp only [Net.step, if_neg hg]
      rw [e, List.append_nil]
      exact idle (fun _ _ _ e => by cases e)

theorem DI.run {k : Nat} {net : String} {id : Nat} {O : Nat → Prop} {h : List Act} (hp : Unsimulated h) (hO : ∀ i x, Act.api i x ∈ h → x.offers id → O i) :
    DI k id O h (Spec.run k net h).1 (Spec.run k net h).2 := by
  refine run_induction (P := fun h r => Unsimulated h → (∀ i x, Act.api i x ∈ h → x.offers id → O i) → DI k id O h r.1 r.2) (fun _ _ => ?_)
    (fun h a ih hp hO => DI.step hp hO (ih (unsimulated_prefix hp) fun i x hx => hO i x (by simp [hx]))) h hp hO
  refine ⟨by simp [Net.init], by simp [Net.init], by simp [inputs], by simp, fun i h => ?_, fun i j _ h => ?_⟩
  · cases h
  · cases h

/-! ## Dynamic slaves are known -/

def Msg.isConfig : Msg → Bool
  | .config _ _ _ => true
  | _ => false

theorem viewStep_dyn (n : Node) (m : Msg) (h : m.isConfig = false) : (viewStep n m).isDynamic = n.isDynamic := by
  cases m with
  | config mode dyn rs => cases h
  | responses rs => exact (updateResponses_mode n rs).2.2
  | _ => rfl

theorem foldl_view_dyn (ms : List Msg) (n : Node) (h : ∀ m ∈ ms, m.isConfig = false) : (ms.foldl viewStep n).isDynamic = n.isDynamic := by
  induction ms generalizing n with
  | nil => rfl
  | cons m t ih =>
    rw [List.foldl_cons, ih _ (fun x hx => h x (by simp [hx])), viewStep_dyn _ _ (h m (by simp))]

theorem bus_noConfig {x : Nat} {m : Msg} (h : Bus x m) : m.isConfig = false := by
  rcases h with rfl | ⟨f, s, rfl⟩ <;> rfl

theorem api_config {c : Ctl} {f : Conf} (h : I c f) (q : Q c f) (a : Call) (hv : a.Valid) (hs : a.noSim) :
    (∀ m ∈ sendsOf (c.apiAlive a).2, m.isConfig = false) ∨ (∃ mode rs, a = .init mode rs ∧ f.mode = .inactive) ∨
      ∃ mode, a = .initDynamic mode ∧ mode ≠ .inactive ∧ f.mode = .inactive ∧
        sendsOf (c.apiAlive a).2 = if mode = .slave then [.config mode true []] else [] := by
  have upd : ∀ (r : Response) (m : Msg), m ∈ sendsOf (c.updateFrameResponse r).2 → m.isConfig = false := by
    intro r m h
    rw [sends_distribute _ _ _ h]; rfl
  have no : ∀ {l : List Msg}, l = [] → ∀ m ∈ l, m.isConfig = false := by rintro l rfl m h; simp at h
  cases a with
  | init mode rs =>
    by_cases hm : f.mode = .inactive
    · exact .inr (.inl ⟨mode, rs, rfl, hm⟩)
    · left
      simp only [Ctl.apiAlive, Ctl.init]
      split
      · exact no (sends_throw _)
      · rw [if_pos (fun e => hm (h.st.1 e))]
        exact no (sends_throw _)
  | initDynamic mode =>
    by_cases hi : mode = .inactive
    · left
      simp only [Ctl.apiAlive, Ctl.initDynamic]
      rw [if_pos hi]
      exact no (sends_throw _)
    by_cases hm : f.mode = .inactive
    · refine .inr (.inr ⟨mode, rfl, hi, hm, ?_⟩)
      simp only [Ctl.apiAlive, Ctl.initDynamic]
      rw [if_neg hi, if_neg (by simp [h.st.2 hm])]
      unfold Ctl.distribute
      by_cases hsl : mode = .slave
      · rw [if_pos hsl, if_pos (.inr hsl)]; rfl
      · rw [if_neg hsl, if_neg]
        · rfl
        · rintro (hx | hx)
          · exact hx q.sim
          · exact hsl hx
    · left
      simp only [Ctl.apiAlive, Ctl.initDynamic]
      rw [if_neg hi, if_pos (fun e => hm (h.st.1 e))]
      exact no (sends_throw _)
  | sendDynamicResponse fr =>
    left
    intro m hm
    simp only [Ctl.apiAlive, Ctl.sendDynamicResponse] at hm
    split at hm
    · exact no (sends_throw _) m hm
    · rw [sendsOf_andThen, List.mem_append] at hm
      rcases hm with hm | hm
      · exact upd _ m hm
      · obtain ⟨f, s, rfl⟩ := sends_processHeader _ _ m hm
        rfl
  | sendFrame fr ty =>
    left
    intro m hm
    have hid : fr.id < 64 := hv
    simp only [Ctl.apiAlive, Ctl.sendFrame] at hm
    split at hm
    · exact no (sends_throw _) m hm
    split at hm
    · exact no (sends_throw _) m hm
    split at hm
    · exact no (sends_throw _) m hm
    cases ty with
    | masterResponse =>
      simp only [Ctl.sendFrameInternal] at hm
      rw [sendsOf_andThen, List.mem_append] at hm
      rcases hm with hm | hm
      · exact upd _ m hm
      · exact bus_noConfig (sends_requestFrame _ _ _ m hm)
    | slaveResponse =>
      simp only [Ctl.sendFrameInternal] at hm
      split at hm
      · exact no (sends_tell _ _) m hm
      · unfold Ctl.sendFrameSlave at hm
        rw [if_neg (by omega)] at hm
        split at hm
        · rw [sendsOf_andThen, List.mem_append] at hm
          rcases hm with hm | hm
          · exact upd _ m hm
          · exact bus_noConfig (sends_requestFrame _ _ _ m hm)
        · exact no rfl m hm
        · exact bus_noConfig (sends_requestFrame _ _ _ m hm)
    | slaveToSlave =>
      simp only [Ctl.sendFrameInternal] at hm
      split at hm
      · exact no (sends_tell _ _) m hm
      · rw [sendsOf_andThen, List.mem_append] at hm
        rcases hm with hm | hm
        · exact no (sends_tell _ _) m hm
        · exact bus_noConfig (sends_requestFrame _ _ _ m hm)
  | sendFrameHeader x =>
    left
    intro m hm
    simp only [Ctl.apiAlive, Ctl.sendFrameHeader] at hm
    split at hm
    · exact no (sends_throw _) m hm
    split at hm
    · exact no (sends_throw _) m hm
    exact bus_noConfig (sends_requestHeader _ _ m hm)
  | updateTxBuffer fr =>
    left
    intro m hm
    have hid : fr.id < 64 := hv
    simp only [Ctl.apiAlive, Ctl.updateTxBuffer] at hm
    split at hm
    · exact no (sends_throw _) m hm
    split at hm
    · exact no (sends_throw _) m hm
    rw [if_neg (by omega)] at hm
    split at hm
    · exact no (sends_throw _) m hm
    · simp only [R.andThen] at hm
      rw [if_pos (show (c.setOwn (·.updateTxBuffer fr.id fr.data)).sim = none from q.sim)] at hm
      simp [sendsOf] at hm
  | setFrameResponse r =>
    left
    intro m hm
    simp only [Ctl.apiAlive, Ctl.setFrameResponse] at hm
    split at hm
    · exact no (sends_throw _) m hm
    split at hm
    · exact no (sends_throw _) m hm
    split at hm
    · exact no rfl m hm
    split at hm
    · exact no rfl m hm
    split at hm
    · exact no rfl m hm
    · exact upd _ m hm
  | sim x => exact hs.elim
  | getSlaveConfiguration =>
    left
    simp only [Ctl.apiAlive, Ctl.getSlaveConfiguration]
    split
    · exact no (sends_throw _)
    · exact no rfl
  | addHandler k =>
    left
    refine no ?_
    simp only [Ctl.apiAlive, Ctl.addHandler]
    rw [sendsOf_andThen]
    have : sendsOf (Handling.add c.handlers k 0).2 = [] := by simp [Handling.add, sendsOf, sendOf]
    simp only [this, List.nil_append]
    split
    · exact sends_tell _ _
    · rfl
  | removeHandler k x =>
    left
    refine no ?_
    simp only [Ctl.apiAlive, Ctl.removeHandler, Handling.remove]
    simp [sendsOf, sendOf]
  | goToSleep =>
    left
    intro m hm
    simp only [Ctl.apiAlive, Ctl.goToSleep, q.sim] at hm
    split at hm
    · exact no (sends_throw _) m hm
    split at hm
    · exact no (sends_throw _) m hm
    rw [sendsOf_andThen, sendsOf_andThen, sends_send, sends_tell] at hm
    simp only [List.append_nil, List.cons_append, List.nil_append, List.mem_cons] at hm
    rcases hm with rfl | hm
    · rfl
    · unfold Ctl.goToSleepInternal at hm
      split at hm
      · exact no (sends_throw _) m hm
      · simp only [Ctl.setStatus, sends_send, List.mem_singleton] at hm
        rw [hm]; rfl
  | goToSleepInternal =>
    left
    intro m hm
    simp only [Ctl.apiAlive, Ctl.goToSleepInternal] at hm
    split at hm
    · exact no (sends_throw _) m hm
    · simp only [Ctl.setStatus, sends_send, List.mem_singleton] at hm
      rw [hm]; rfl
  | wakeup =>
    left
    intro m hm
    simp only [Ctl.apiAlive, Ctl.wakeup, q.sim] at hm
    split at hm
    · exact no (sends_throw _) m hm
    rw [sendsOf_andThen, sendsOf_andThen, sends_send, sends_tell] at hm
    simp only [List.append_nil, List.cons_append, List.nil_append, List.mem_cons] at hm
    rcases hm with rfl | hm
    · rfl
    · unfold Ctl.wakeupInternal at hm
      split at hm
      · exact no (sends_throw _) m hm
      · simp only [Ctl.setStatus, sends_send, List.mem_singleton] at hm
        rw [hm]; rfl
  | wakeupInternal =>
    left
    intro m hm
    simp only [Ctl.apiAlive, Ctl.wakeupInternal] at hm
    split at hm
    · exact no (sends_throw _) m hm
    · simp only [Ctl.setStatus, sends_send, List.mem_singleton] at hm
      rw [hm]; rfl

theorem call_dynSlave (f : Conf) (a : Call) (h : (f.call a).mode = .slave ∧ (f.call a).isDynamic = true) :
    (f.mode = .slave ∧ f.isDynamic = true) ∨ (a = .initDynamic .slave ∧ f.mode = .inactive) := by
  by_cases hm : f.mode = .inactive
  · cases a with
    | initDynamic mode =>
      have hmode : mode = .slave := by
        have := h.1
        simp only [Conf.call, Conf.initWith] at this
        split at this
        · exact this
        · rw [hm] at this; cases this
      exact .inr ⟨by rw [hmode], hm⟩
    | init mode rs =>
      have hs : ∀ (rs : List Response) (g : Conf), (rs.foldl Conf.set g).isDynamic = g.isDynamic := by
        intro rs
        induction rs with
        | nil => intro g; rfl
        | cons r t ih => intro g; rw [List.foldl_cons, ih]; unfold Conf.set; split <;> rfl
      have := h.2
      have h1 := h.1
      simp only [Conf.call, Conf.initWith] at this h1
      split at this
      · rw [hs] at this; cases this
      · rename_i hn; rw [if_neg hn, hm] at h1; cases h1
    | sendFrame fr ty =>
      exfalso
      have := h.1
      cases ty <;> simp only [Conf.call, Conf.static, Conf.set, hm] at this <;> simp [hm] at this
    | sendDynamicResponse fr =>
      exfalso
      have := h.1
      simp only [Conf.call, Conf.set] at this
      split at this <;> (rw [show (_ : Mode) = .slave from this] at hm; cases hm)
    | _ =>
      exfalso
      have := h.1
      simp [Conf.call, Conf.static, Conf.set, hm] at this
  · left
    have hmode := call_mode f a hm
    rw [hmode] at h
    refine ⟨h.1, ?_⟩
    have hdyn : (f.call a).isDynamic = f.isDynamic := by
      cases a with
      | init mode rs => simp only [Conf.call, Conf.initWith]; rw [if_neg (fun h => hm h.1)]
      | initDynamic mode => simp only [Conf.call, Conf.initWith]; rw [if_neg (fun h => hm h.1)]
      | sendFrame fr ty =>
        cases ty
        · simp only [Conf.call, Conf.set]
          repeat' split
          all_goals rfl
        · simp only [Conf.call, Conf.set]
          repeat' split
          all_goals rfl
        · rfl
      | _ =>
        simp only [Conf.call, Conf.set]
        repeat' split
        all_goals rfl
    rw [← hdyn]; exact h.2

/-- Dynamic slaves are known to everybody who has received their messages. -/
structure DV (k : Nat) (h : List Act) (s : Net) (t : List Ev) : Prop where
  last : ∀ i, s.last i ≠ none → ∃ a, Act.api i a ∈ h ∧ i < k
  view : ∀ i j, i < k → j < k → i ≠ j → (confAt i t).mode = .slave ∧ (confAt i t).isDynamic = true →
    ((s.chan i j).foldl viewStep (getNode i (s.ctl j).nodes)).isDynamic = true

theorem DV.step {k : Nat} {net : String} {h : List Act} {a : Act} (hp : Unsimulated (h ++ [a])) (ho : OpenFirst k (h ++ [a]))
    (ih : DV k h (run k net h).1 (run k net h).2) : DV k (h ++ [a]) ((run k net h).1.step a).1 ((run k net h).2 ++ ((run k net h).1.step a).2) := by
  have di := DI.run (k := k) (net := net) (id := 0) (O := fun _ => True) (unsimulated_prefix hp) (fun _ _ _ _ => trivial)
  have hk := run_k k net h
  have facts := ctl_facts di.inOk
  generalize run k net h = r at ih hk facts di
  obtain ⟨s, t⟩ := r
  simp only at ih hk facts di ⊢
  have openFirst : ∀ i x, Act.api i x ∈ h → i < k → ∀ j, j < k → j ≠ i → ∀ ty, s.opn i j ty = true := by
    intro i x hx hi j hj hji ty
    obtain ⟨pre, post, e⟩ := List.append_of_mem hx
    refine di.opened i j ty hi hj (Ne.symm hji) ?_
    have := (openFirst_prefix ho) pre i x post e hi j hj hji ty
    rw [e]
    simp [this]
  have idle : DV k (h ++ [a]) s t := by
    refine ⟨fun p hl => ?_, ih.view⟩
    obtain ⟨x, hx, hp'⟩ := ih.last p hl
    exact ⟨x, by simp [hx], hp'⟩
  cases a with
  | close i j => exact absurd (by simp) (hp.2 i j)
  | api i x =>
    by_cases hi : i < s.k
    · have e : s.step (.api i x) = (s.become i ((s.ctl i).api x), .call i x :: ((s.ctl i).api x).2.map (.out i)) := by simp only [Net.step, if_pos hi]
      obtain ⟨f1, f2, f3, f4⟩ := facts i
      obtain ⟨v1, v2⟩ := hp.1 i x (by simp)
      have ea : (s.ctl i).api x = (s.ctl i).apiAlive x := by rw [Ctl.api, if_neg (by simp [f2])]
      have hopn : ∀ j, j < k → j ≠ i → ∀ ty, s.opn i j ty = true := by
        intro j hj hji ty
        exact di.opened i j ty (hk ▸ hi) hj (Ne.symm hji) (ho h i x [] rfl (hk ▸ hi) j hj hji ty)
      rw [e, ea]
      refine ⟨fun p hl => ?_, fun p q hp' hq hpq hc => ?_⟩
      · rcases posts_last _ _ _ _ hl with hl | ⟨e, _⟩
        · obtain ⟨a, ha, hp'⟩ := ih.last p hl
          exact ⟨a, by simp [ha], hp'⟩
        · exact ⟨x, by simp [e], by rw [e, ← hk]; exact hi⟩
      · rw [confAt_call] at hc
        rw [become_ctl, become_chan]
        by_cases ep : p = i
        · subst ep
          rw [if_pos rfl] at hc
          have eq' : upd s.ctl p ((s.ctl p).apiAlive x).1 q = s.ctl q := by simp [upd, Ne.symm hpq]
          rw [eq', if_pos rfl, List.foldl_append]
          have ef : (sendsOf ((s.ctl p).apiAlive x).2).filter (s.goesTo p q) = sendsOf ((s.ctl p).apiAlive x).2 := by
            rw [List.filter_eq_self]
            intro m _
            simp only [Net.goesTo, if_neg (Ne.symm hpq), hopn q hq (Ne.symm hpq), hk, hq, decide_true, Bool.and_self]
          rw [ef]
          rcases call_dynSlave _ x hc with hc' | ⟨ex, hin⟩
          · rcases api_config f3 f4 x v1 v2 with hn | ⟨mode, rs, _, hin⟩ | ⟨mode, _, _, hin, _⟩
            · rw [foldl_view_dyn _ _ hn]
              exact ih.view p q hp' hq hpq hc'
            · rw [hin] at hc'; cases hc'.1
            · rw [hin] at hc'; cases hc'.1
          · subst ex
            rcases api_config f3 f4 _ v1 v2 with hn | ⟨mode, rs, ex, _⟩ | ⟨mode, ex, _, _, es⟩
            · exfalso
              have : sendsOf ((s.ctl p).apiAlive (.initDynamic .slave)).2 = [.config .slave true []] := by
                simp only [Ctl.apiAlive, Ctl.initDynamic]
                rw [if_neg (by simp), if_neg (by simp [f3.st.2 hin])]
                unfold Ctl.distribute
                rw [if_pos (.inr rfl)]; rfl
              rw [this] at hn
              simp [Msg.isConfig] at hn
            · cases ex
            · injection ex with ex
              rw [es, ← ex, if_pos rfl]
              rfl
        · rw [if_neg (Ne.symm ep)] at hc
          rw [if_neg ep, List.append_nil]
          by_cases eq' : q = i
          · subst eq'
            have e' : upd s.ctl q ((s.ctl q).apiAlive x).1 q = ((s.ctl q).apiAlive x).1 := by simp [upd]
            rw [e']
            have en : getNode p ((s.ctl q).apiAlive x).1.nodes = getNode p (s.ctl q).nodes := by
              rcases api_nodes (s.ctl q) x v2 with en | ⟨u, en⟩
              · rw [en]
              · rw [en, getNode_updNode_ne]
                rw [f1]; exact hpq
            rw [en]
            exact ih.view p q hp' hq hpq hc
          · have e' : upd s.ctl i ((s.ctl i).apiAlive x).1 q = s.ctl q := by simp [upd, eq']
            rw [e']
            exact ih.view p q hp' hq hpq hc
    · have e : s.step (.api i x) = (s, []) := by simp only [Net.step, if_neg hi]
      rw [e, List.append_nil]
      exact idle
  | «open» i j ty =>
    by_cases hg : i < s.k ∧ j < s.k ∧ i ≠ j ∧ s.opn i j ty = false
    · have e : s.step (.open i j ty) = (s.opened i j ty, []) := by simp only [Net.step, if_pos hg]
      have hl : s.last i = none := by
        cases hl : s.last i with
        | none => rfl
        | some m =>
          obtain ⟨a, ha, hi⟩ := ih.last i (by simp [hl])
          have := openFirst i a ha hi j (hk ▸ hg.2.1) (Ne.symm hg.2.2.1) ty
          rw [hg.2.2.2] at this
          cases this
      have ec : ∀ p q, (s.opened i j ty).chan p q = s.chan p q := by
        intro p q
        simp only [Net.opened, hl]
        split <;> simp
      rw [e, List.append_nil]
      refine ⟨idle.last, fun p q h1 h2 h3 h4 => ?_⟩
      rw [ec]
      exact ih.view p q h1 h2 h3 h4
    · have e : s.step (.open i j ty) = (s, []) := by simp only [Net.step, if_neg hg]
      rw [e, List.append_nil]
      exact idle
  | deliver src j =>
    by_cases hg : src < s.k ∧ j < s.k
    · cases hc : s.chan src j with
      | nil =>
        have e : s.step (.deliver src j) = (s, []) := by simp only [Net.step, if_pos hg, hc, Net.deliver]
        rw [e, List.append_nil]
        exact idle
      | cons m rest =>
        have e : s.step (.deliver src j) = ((s.pop src j).become j ((s.ctl j).receive src m), Ev.recv j src m :: ((s.ctl j).receive src m).2.map (.out j)) := by
          simp only [Net.step, if_pos hg, hc, Net.deliver]
        obtain ⟨f1, f2, f3, f4⟩ := facts j
        obtain ⟨m1, m2, _⟩ := di.chanOk src j m (by rw [hc]; simp)
        have er : (s.ctl j).receive src m = (s.ctl j).take src m := receive_eq f2 f4.sim (fun e => m2 (e.trans f1))
        obtain ⟨t1, t2, t3, t4, t5, t6⟩ := take_nodes f3.sorted src m
        have hsend := sends_receive (s.ctl j) src m
        rw [er] at hsend
        have echan : ∀ p q, (s.pop src j).chan p q = if p = src ∧ q = j then rest else s.chan p q := by
          intro p q
          simp only [Net.pop]
          split
          · rename_i hpq
            rw [hpq.1, hpq.2, hc]; rfl
          · rfl
        rw [e, er]
        refine ⟨fun p hl => ?_, fun p q hp' hq hpq hcf => ?_⟩
        · rcases posts_last _ _ _ _ hl with hl | ⟨_, m', hm', hh⟩
          · obtain ⟨a, ha, hp'⟩ := ih.last p hl
            exact ⟨a, by simp [ha], hp'⟩
          · obtain ⟨fr, st, rfl⟩ := hsend m' hm'
            simp [Msg.hasHistory] at hh
        · have hcf : (confAt p t).mode = .slave ∧ (confAt p t).isDynamic = true := by
            rw [confAt_recv] at hcf
            split at hcf
            · rw [(recv_same _ _ _ _).1, recv_isDynamic] at hcf; exact hcf
            · exact hcf
          rw [become_ctl, become_chan, List.foldl_append]
          have hfold : ∀ v : Node, (if p = j then (sendsOf ((s.ctl j).take src m).2).filter ((s.pop src j).goesTo j q) else []).foldl viewStep v = v := by
            intro v
            refine foldl_view_bus v _ fun m' hm' => ?_
            split at hm'
            · obtain ⟨fr, st, rfl⟩ := hsend m' (List.mem_filter.1 hm').1
              exact ⟨0, .inr ⟨fr, st, rfl⟩⟩
            · simp at hm'
          rw [hfold, echan]
          have := ih.view p q hp' hq hpq hcf
          by_cases eq' : q = j
          · have e' : upd (s.pop src j).ctl j ((s.ctl j).take src m).1 q = ((s.ctl j).take src m).1 := by simp [upd, eq']
            rw [e']
            by_cases ep : p = src
            · rw [if_pos ⟨ep, eq'⟩]
              rw [ep, eq', hc, List.foldl_cons] at this
              rw [ep, t3]
              exact this
            · rw [if_neg (fun h => ep h.1), t2 p ep]
              rw [eq'] at this ⊢
              exact this
          · have e' : upd (s.pop src j).ctl j ((s.ctl j).take src m).1 q = s.ctl q := by simp [upd, eq', Net.pop]
            rw [e', if_neg (fun h => eq' h.2)]
            exact this
    · have e : s.step (.deliver src j) = (s, []) := by simp only [Net.step, if_neg hg]
      rw [e, List.append_nil]
      exact idle

theorem DV.run {k : Nat} {net : String} {h : List Act} (hp : Unsimulated h) (ho : OpenFirst k h) : DV k h (Spec.run k net h).1 (Spec.run k net h).2 := by
  refine run_induction (P := fun h r => Unsimulated h → OpenFirst k h → DV k h r.1 r.2) (fun _ _ => ?_)
    (fun h a ih hp ho => DV.step hp ho (ih (unsimulated_prefix hp) (openFirst_prefix ho))) h hp ho
  exact ⟨by simp [Net.init], fun i j _ _ _ h => by cases h.1⟩

/-- Once its messages are delivered, everybody knows of a dynamic slave. -/
theorem dynamic_known {k : Nat} {net : String} {h : List Act} (hp : Unsimulated h) (ho : OpenFirst k h) (hs : Settled k net h) {i j : Nat} (hi : i < k) (hj : j < k)
    (hij : i ≠ j) (hm : (confAt i (trace k net h)).mode = .slave) (hd : (confAt i (trace k net h)).isDynamic = true) : i ∈ (confAt j (trace k net h)).dynamics := by
  have dv := (DV.run (net := net) hp ho).view i j hi hj hij ⟨hm, hd⟩
  have di := DI.run (k := k) (net := net) (id := 0) (O := fun _ => True) hp (fun _ _ _ _ => trivial)
  obtain ⟨f1, _, f3, _⟩ := ctl_facts di.inOk j
  rw [hs i j] at dv
  exact (f3.dyns i (by rw [f1]; exact hij)).1 dv

/-! ## Messages of one controller on their way to all others -/

def isBus (n : Notice) : Bool := decide (n ≠ .slaveConfig)

theorem busReports_append (i : Nat) (a b : List Ev) : busReports i (a ++ b) = busReports i a ++ busReports i b := by
  simp [busReports, reported_append]

theorem busReports_outs (q j : Nat) (e : Ev) (he : outOf q e = none) (os : List Out) :
    busReports q (e :: os.map (.out j)) = if q = j then (tolds os).filter isBus else [] := by
  unfold busReports reported
  rw [show outs q (e :: os.map (.out j)) = outs q (os.map (.out j)) by simp [outs, he], outs_outs]
  by_cases h : j = q
  · rw [if_pos h, if_pos h.symm]; rfl
  · rw [if_neg h, if_neg (Ne.symm h)]; rfl

structure Ph (k m : Nat) (L : Nat → List Msg) (J : Nat → Ctl → Prop) (rep : Nat → Msg → List Notice) (base : Nat → List Notice) (n : Nat → Nat) (s : Net) (t : List Ev) :
    Prop where
  k : s.k = k
  ctl : ∀ q, J q (s.ctl q)
  chan : ∀ p q, s.chan p q = if p = m then (L q).drop (n q) else []
  told : ∀ q, busReports q t = base q ++ ((L q).take (n q)).flatMap (rep q)

theorem Ph.step {k m : Nat} {L : Nat → List Msg} {J : Nat → Ctl → Prop} {rep : Nat → Msg → List Notice} {base : Nat → List Notice} {n : Nat → Nat} {s : Net} {t : List Ev}
    (R : ∀ q c msg, msg ∈ L q → J q c → J q (c.receive m msg).1 ∧ sendsOf (c.receive m msg).2 = [] ∧ (tolds (c.receive m msg).2).filter isBus = rep q msg)
    (h : Ph k m L J rep base n s t) (i j : Nat) : ∃ n, Ph k m L J rep base n (s.step (.deliver i j)).1 (t ++ (s.step (.deliver i j)).2) := by
  have quiet : (¬ (i < s.k ∧ j < s.k) ∨ s.chan i j = []) → ∃ n, Ph k m L J rep base n (s.step (.deliver i j)).1 (t ++ (s.step (.deliver i j)).2) := by
    intro hq
    rw [step_deliver_none hq]
    simp only [List.append_nil]
    exact ⟨n, h⟩
  by_cases hk : i < s.k ∧ j < s.k
  rotate_left
  · exact quiet (.inl hk)
  cases hc : s.chan i j with
  | nil => exact quiet (.inr hc)
  | cons msg rest =>
    have hc' := h.chan i j
    rw [hc] at hc'
    by_cases him : i = m
    rotate_left
    · rw [if_neg him] at hc'; cases hc'
    rw [if_pos him] at hc'
    subst him
    have hget : (L j)[n j]? = some msg := by
      have := congrArg List.head? hc'
      simpa using this.symm
    have hrest : (L j).drop (n j + 1) = rest := by
      have := congrArg List.tail hc'
      simpa using this.symm
    have hmem : msg ∈ L j := List.mem_of_getElem? hget
    obtain ⟨r1, r2, r3⟩ := R j (s.ctl j) msg hmem (h.ctl j)
    have e : s.step (.deliver i j) = ((s.pop i j).become j ((s.ctl j).receive i msg), Ev.recv j i msg :: ((s.ctl j).receive i msg).2.map (.out j)) := by
      simp only [Net.step, if_pos hk, hc, Net.deliver]
    rw [e]
    refine ⟨upd n j (n j + 1), (become_k _ _ _).trans h.k, fun q => ?_, fun p q => ?_, fun q => ?_⟩
    · rw [become_ctl]
      unfold upd
      split
      · rename_i hq; rw [hq]; exact r1
      · exact h.ctl q
    · rw [become_chan, r2]
      have : (if p = j then ([] : List Msg).filter ((s.pop i j).goesTo j q) else []) = [] := by split <;> rfl
      rw [this, List.append_nil]
      simp only [Net.pop]
      by_cases hp : p = i ∧ q = j
      · obtain ⟨rfl, rfl⟩ := hp
        rw [if_pos ⟨rfl, rfl⟩, hc, if_pos rfl]
        simp [upd, hrest]
      · rw [if_neg hp, h.chan p q]
        by_cases hp' : p = i
        · have : q ≠ j := fun e => hp ⟨hp', e⟩
          simp [upd, this]
        · rw [if_neg hp', if_neg hp']
    · rw [busReports_append, h.told q, busReports_outs q j _ rfl, r3]
      by_cases hq : q = j
      · subst hq
        simp only [if_true, upd]
        rw [List.take_add_one, hget]
        simp [List.flatMap_append]
      · simp [hq, upd]

theorem Ph.settled {k m : Nat} {L : Nat → List Msg} {J : Nat → Ctl → Prop} {rep : Nat → Msg → List Notice} {base : Nat → List Notice} {r : Net × List Ev}
    (R : ∀ q c msg, msg ∈ L q → J q c → J q (c.receive m msg).1 ∧ sendsOf (c.receive m msg).2 = [] ∧ (tolds (c.receive m msg).2).filter isBus = rep q msg)
    (h : Ph k m L J rep base (fun _ => 0) r.1 r.2) {ds : List Act} (hd : Deliveries ds) (hs : ∀ i j, (ds.foldl Spec.on r).1.chan i j = []) (q : Nat) :
    busReports q (ds.foldl Spec.on r).2 = base q ++ (L q).flatMap (rep q) := by
  obtain ⟨n, hn⟩ := deliveries_keep (P := fun s t => ∃ n, Ph k m L J rep base n s t) (fun s t i j ⟨n, h⟩ => Ph.step R h i j) hd r ⟨_, h⟩
  have := hn.chan m q
  rw [hs, if_pos rfl] at this
  have hle : (L q).length ≤ n q := by
    rw [← List.drop_eq_nil_iff]; exact this.symm
  rw [hn.told q, List.take_of_length_le hle]

/-! ## How controllers receive -/

/-- The controller behaves on the bus as one with the configuration `g`. -/
def Like (g : Nat → Conf) (q : Nat) (c : Ctl) : Prop :=
  c.self = q ∧ c.dead = false ∧ ∃ f, I c f ∧ Q c f ∧ f.mode = (g q).mode ∧ f.asleep = (g q).asleep ∧ f.isDynamic = (g q).isDynamic ∧ f.resp = (g q).resp

theorem hears_congr {f g : Conf} (h1 : f.mode = g.mode) (h2 : f.asleep = g.asleep) (h3 : f.isDynamic = g.isDynamic) (h4 : f.resp = g.resp) (fr : Frame) (s : FrameStatus) :
    f.hears fr s = g.hears fr s := by
  unfold Conf.hears Conf.sees
  rw [h1, h2, h3, h4]

theorem tolds_dynamic {c : Ctl} {f : Conf} (h : I c f) (q : Q c f) (hd : f.isDynamic = true) {fr : Frame} (hid : fr.id < 64) {s : FrameStatus} (hs : s ≠ .notOk) :
    tolds (c.onTransmission fr s).2 = f.hears fr s := by
  have hm : f.mode ≠ .inactive := fun e => by rw [h.und e] at hd; cases hd
  unfold Ctl.onTransmission Conf.hears
  rw [h.mode, if_neg hm, if_neg (c := f.isDynamic = false) (by rw [hd]; simp)]
  by_cases ha : f.asleep = true
  · rw [if_pos (by rw [q.st, Conf.status, if_neg hm, if_pos ha]; exact .inl rfl), if_pos (.inl ha)]; rfl
  rw [if_neg (by rw [q.st, Conf.status, if_neg hm, if_neg ha]; simp)]
  by_cases hl : fr.dataLength ≠ lengthUnknown ∧ fr.dataLength > 8
  · rw [if_pos hl, if_pos (.inr ⟨hl.2, hl.1⟩)]; rfl
  rw [if_neg hl, if_neg (Nat.not_le.2 hid), if_neg (c := f.asleep = true ∨ _) (by rintro (h | h); exact ha h; exact hl ⟨h.2, h.1⟩)]
  have ec : c.calcStatus fr s = s := by
    unfold Ctl.calcStatus
    rw [if_pos (by rw [h.ownDyn, hd])]
  rw [tolds_andThen, ec, if_pos hs, tolds_tell']
  show [_] ++ _ = _
  rw [List.singleton_append]
  congr 1
  show tolds (c.sleepFrame fr).2 = _
  unfold Ctl.sleepFrame isGoToSleep
  rw [h.mode]
  by_cases hg : fr.id = goToSleepFrame.id ∧ fr.data = goToSleepFrame.data
  · rw [if_pos (by simp [hg.1, hg.2])]
    cases hmm : f.mode with
    | slave => simp only; rw [tolds_tell', if_pos ⟨trivial, hg.1, hg.2⟩]
    | master => rfl
    | inactive => exact absurd hmm hm
  · rw [if_neg (by simpa using hg), if_neg (fun h => hg h.2)]; rfl

theorem hears_isBus (f : Conf) (fr : Frame) (s : FrameStatus) : (f.hears fr s).filter isBus = f.hears fr s := by
  rw [List.filter_eq_self]
  intro n hn
  unfold isBus
  rw [decide_eq_true_eq]
  rintro rfl
  unfold Conf.hears Conf.sees at hn
  split at hn
  · split at hn
    · simp at hn
    · rw [List.mem_append] at hn
      rcases hn with hn | hn
      · split at hn <;> simp at hn
      · split at hn <;> simp at hn
  · split at hn
    · simp at hn
    · rw [List.mem_cons] at hn
      rcases hn with hn | hn
      · cases hn
      · split at hn <;> simp at hn

theorem Like.transmission {g : Nat → Conf} {q : Nat} {c : Ctl} (h : Like g q c) {src : Nat} (hsrc : src ≠ q) {fr : Frame} (hid : fr.id < 64) {s : FrameStatus}
    (hs : s ≠ .notOk) : Like g q (c.receive src (.transmission fr s)).1 ∧ sendsOf (c.receive src (.transmission fr s)).2 = [] ∧
      (tolds (c.receive src (.transmission fr s)).2).filter isBus = (g q).hears fr s := by
  obtain ⟨h1, h2, f, h3, h4, h5, h6, h7, h8⟩ := h
  have e : c.receive src (.transmission fr s) = c.onTransmission fr s := by
    rw [receive_eq h2 h4.sim (fun e => absurd (e.trans h1) hsrc)]; rfl
  have es : (c.onTransmission fr s).1 = c := onTransmission_same (by rw [h4.st]; exact Conf.status_sp _) fr s
  rw [e, es]
  refine ⟨⟨h1, h2, f, h3, h4, h5, h6, h7, h8⟩, sends_onTransmission _ _ _, ?_⟩
  have : tolds (c.onTransmission fr s).2 = f.hears fr s := by
    cases hd : f.isDynamic with
    | true => exact tolds_dynamic h3 h4 hd hid hs
    | false => rw [tolds_onTransmission h3 h4 hd hid hs, Conf.hears, if_pos hd]
  rw [this, hears_isBus, hears_congr h5 h6 h7 h8]

theorem Like.responses {g : Nat → Conf} {q : Nat} {c : Ctl} (h : Like g q c) {src : Nat} (hsrc : src ≠ q) (rs : List Response) :
    Like g q (c.receive src (.responses rs)).1 ∧ sendsOf (c.receive src (.responses rs)).2 = [] ∧ (tolds (c.receive src (.responses rs)).2).filter isBus = [] := by
  obtain ⟨h1, h2, f, h3, h4, h5, h6, h7, h8⟩ := h
  have hself : src = c.self → ∃ id, Msg.responses rs = .header id := fun e => absurd (e.trans h1) hsrc
  have hq := h4.receive h3 h2 src (.responses rs) trivial hself
  have hI := h3.receive (src := src) (m := .responses rs) h2 (fun s e => by cases e)
  have e : c.receive src (.responses rs) = (c.learn src rs).slaveConfigured := by
    rw [receive_eq h2 h4.sim hself]; rfl
  refine ⟨⟨?_, hq.2, _, hI, hq.1, ?_, ?_, ?_, ?_⟩, ?_, ?_⟩
  · rw [receive_eq h2 h4.sim hself, (take_nodes h3.sorted src (.responses rs)).2.2.2.2.1]; exact h1
  · rw [(recv_same _ _ _ _).1]; exact h5
  · rw [(recv_same _ _ _ _).2]; exact h6
  · rw [recv_isDynamic]; exact h7
  · rw [recv_idle]; exact h8
  · rw [e]; exact sends_slaveConfigured _
  · rw [e]
    unfold Ctl.slaveConfigured
    split
    · rfl
    · rw [tolds_tell']; rfl

theorem Like.header {g : Nat → Conf} {q : Nat} {c : Ctl} (h : Like g q c) (src : Nat) {id : Nat} (hid : id < 64)
    (ht : (g q).isDynamic = false → ((g q).resp id).mode ≠ .tx) :
    Like g q (c.receive src (.header id)).1 ∧ sendsOf (c.receive src (.header id)).2 = [] ∧
      (tolds (c.receive src (.header id)).2).filter isBus = if (g q).isDynamic = true then [.header id] else [] := by
  have h' := h
  obtain ⟨h1, h2, f, h3, h4, h5, h6, h7, h8⟩ := h
  cases hd : f.isDynamic with
  | true =>
    have e : c.receive src (.header id) = c.tell (.header id) := by
      rw [receive_eq h2 h4.sim (fun _ => ⟨id, rfl⟩)]
      simp only [Ctl.take, Ctl.onHeader, h3.dyn, hd, if_true]
    rw [e]
    refine ⟨h', sends_tell _ _, ?_⟩
    rw [tolds_tell', if_pos (h7 ▸ hd)]
    rfl
  | false =>
    have hg : (g q).isDynamic = false := h7 ▸ hd
    rw [header_other h3 h4 h2 hd src hid (h8 ▸ ht hg)]
    refine ⟨h', rfl, ?_⟩
    rw [hg]; rfl

/-! ## The state after a call -/

section
variable {k : Nat} {net : String} {h : List Act} {m : Nat} {a : Call} {ds : List Act}

structure Called (k : Nat) (net : String) (h : List Act) (m : Nat) (a : Call) (s : Net) (t : List Ev) : Prop where
  kk : s.k = k
  chan : ∀ p q, s.chan p q = if p = m then (sendsOf (((run k net h).1.ctl m).apiAlive a).2).filter (fun x => decide (q < k) && (decide (q ≠ m) || x.selfDelivered)) else []
  told : ∀ q, busReports q t = busReports q (trace k net h) ++ if q = m then (tolds (((run k net h).1.ctl m).apiAlive a).2).filter isBus else []
  conf : ∀ q, confAt q t = if m = q then (confAt q (trace k net h)).call a else confAt q (trace k net h)
  like : ∀ q, Like (fun q => confAt q t) q (s.ctl q)

theorem unsimulated_facts (hp : Unsimulated h) (i : Nat) :
    ((run k net h).1.ctl i).self = i ∧ ((run k net h).1.ctl i).dead = false ∧ I ((run k net h).1.ctl i) (confAt i (trace k net h)) ∧
    Q ((run k net h).1.ctl i) (confAt i (trace k net h)) :=
  ctl_facts (DI.run (k := k) (net := net) (id := 0) (O := fun _ => True) hp (fun _ _ _ _ => trivial)).inOk i

theorem called (hp : Unsimulated (h ++ [.api m a])) (ho : OpenFirst k (h ++ [.api m a])) (hm : m < k) (hs : Settled k net h) :
    Called k net h m a (run k net (h ++ [.api m a])).1 (run k net (h ++ [.api m a])).2 := by
  have di0 := DI.run (k := k) (net := net) (id := 0) (O := fun _ => True) (unsimulated_prefix hp) (fun _ _ _ _ => trivial)
  obtain ⟨f1, f2, f3, f4⟩ := unsimulated_facts (k := k) (net := net) (unsimulated_prefix hp) m
  have hk0 : m < (run k net h).1.k := by rw [run_k]; exact hm
  have ea : ((run k net h).1.ctl m).api a = ((run k net h).1.ctl m).apiAlive a := by rw [Ctl.api, if_neg (by simp [f2])]
  have es : (run k net h).1.step (.api m a) = ((run k net h).1.become m (((run k net h).1.ctl m).apiAlive a), .call m a :: (((run k net h).1.ctl m).apiAlive a).2.map (.out m)) := by
    simp only [Net.step, if_pos hk0, ea]
  refine ⟨run_k _ _ _, fun p q => ?_, fun q => ?_, fun q => ?_, fun q => ?_⟩
  · rw [run_append]
    simp only [Spec.on, es]
    rw [become_chan, hs p q, List.nil_append]
    split
    · congr 1
      funext x
      simp only [Net.goesTo, run_k]
      by_cases hq : q < k
      · by_cases hqm : q = m
        · simp [hqm]
        · rw [if_neg hqm, di0.opened m q x.ty hm hq (Ne.symm hqm) (ho h m a [] rfl hm q hq hqm x.ty)]
          simp [hqm]
      · simp [hq]
    · rfl
  · rw [run_append]
    simp only [Spec.on, es, trace]
    rw [busReports_append, busReports_outs q m _ rfl]
  · rw [run_append]
    simp only [Spec.on, es, trace]
    rw [confAt_call]
  · obtain ⟨g1, g2, g3, g4⟩ := unsimulated_facts (k := k) (net := net) hp q
    exact ⟨g1, g2, _, g3, g4, rfl, rfl, rfl, rfl⟩

/-! ## Responses -/

theorem dynamic_response {c : Ctl} {f : Conf} (h : I c f) (q : Q c f) {fr : Frame} (hid : fr.id < 64) (hl : fr.dataLength ≠ lengthUnknown) :
    sendsOf (c.apiAlive (.sendDynamicResponse fr)).2 = (if c.mode = .slave then [.responses [⟨fr, .tx⟩]] else []) ++ [.transmission fr .rxOk] ∧
    tolds (c.apiAlive (.sendDynamicResponse fr)).2 = [.frame fr .txOk] ∧ Handling.Out.did Did.threw ∉ (c.apiAlive (.sendDynamicResponse fr)).2 := by
  have e : c.apiAlive (.sendDynamicResponse fr) = (c.updateFrameResponse ⟨fr, .tx⟩).andThen fun c => c.processHeader fr.id := by
    simp only [Ctl.apiAlive, Ctl.sendDynamicResponse]
    rw [if_neg (by cases c.isDynamic <;> simp)]
  have h' := h.updateFrameResponse ⟨fr, .tx⟩
  have q' := q.updateFrameResponse h ⟨fr, .tx⟩
  have hown : (c.updateFrameResponse ⟨fr, .tx⟩).1.own.resp fr.id = ⟨fr, .tx⟩ := by
    rw [h'.ownResp]
    simp [Conf.set, hid]
  have hp : (c.updateFrameResponse ⟨fr, .tx⟩).1.processHeader fr.id =
      ((c.updateFrameResponse ⟨fr, .tx⟩).1.send (.transmission fr .rxOk)).andThen fun c => c.tell (.frame (c.own.resp fr.id).frame .txOk) := by
    simp only [Ctl.processHeader, q'.sim]
    rw [if_neg (Nat.not_le.2 hid), hown, if_neg (by simp), if_neg hl]
  have hp' : (c.updateFrameResponse ⟨fr, .tx⟩).1.processHeader fr.id =
      ((c.updateFrameResponse ⟨fr, .tx⟩).1.send (.transmission fr .rxOk)).andThen fun c => c.tell (.frame fr .txOk) := by
    rw [hp]
    simp only [R.andThen, Ctl.send, hown]
  have ht : ∀ (c : Ctl) (n : Notice), Handling.Out.did Did.threw ∉ (c.tell n).2 := by
    intro c n hn
    simp [Ctl.tell, Handling.tell] at hn
  have hu : tolds (c.updateFrameResponse ⟨fr, .tx⟩).2 = [] ∧ Handling.Out.did Did.threw ∉ (c.updateFrameResponse ⟨fr, .tx⟩).2 := by
    unfold Ctl.updateFrameResponse Ctl.distribute
    split
    · exact ⟨rfl, by simp [Ctl.send]⟩
    · exact ⟨rfl, by simp⟩
  refine ⟨?_, ?_, ?_⟩
  · rw [e, sendsOf_andThen, sends_updateFrameResponse q.sim, hp', sendsOf_andThen, sends_send, sends_tell]; rfl
  · rw [e, tolds_andThen, hu.1, hp', tolds_andThen, tolds_tell']; rfl
  · rw [e]
    simp only [R.andThen, List.mem_append, not_or]
    refine ⟨hu.2, ?_⟩
    rw [hp']
    simp only [R.andThen, List.mem_append, not_or]
    exact ⟨by simp [Ctl.send], ht _ _⟩

/-- What the recipients report. -/
def repOf (g : Nat → Conf) (q : Nat) : Msg → List Notice
  | .transmission f s => (g q).hears f s
  | .header id => if (g q).isDynamic = true then [.header id] else []
  | _ => []

theorem response_heard {r : Nat} {f : Frame} (hp : Unsimulated (h ++ [.api r (.sendDynamicResponse f)])) (ho : OpenFirst k (h ++ [.api r (.sendDynamicResponse f)])) (hr : r < k)
    (hs : Settled k net h) (hl : f.dataLength ≠ lengthUnknown) (hds : Deliveries ds) (hend : Settled k net (h ++ [.api r (.sendDynamicResponse f)] ++ ds)) {i : Nat} (hi : i < k) :
    busReports i (trace k net (h ++ [.api r (.sendDynamicResponse f)] ++ ds)) = busReports i (trace k net h) ++
      if i = r then [.frame f .txOk] else (confAt i (trace k net h)).hears f .rxOk := by
  have hc := called (net := net) hp ho hr hs
  have hid : f.id < 64 := (hp.1 r (.sendDynamicResponse f) (by simp)).1
  obtain ⟨_, _, f3, f4⟩ := unsimulated_facts (k := k) (net := net) (unsimulated_prefix hp) r
  obtain ⟨d1, d2, _⟩ := dynamic_response f3 f4 hid hl
  let L : Nat → List Msg := fun q => if q < k ∧ q ≠ r then (if ((run k net h).1.ctl r).mode = .slave then [.responses [⟨f, .tx⟩]] else []) ++ [.transmission f .rxOk] else []
  let g : Nat → Conf := fun q => confAt q (run k net (h ++ [.api r (.sendDynamicResponse f)])).2
  let base : Nat → List Notice := fun q => busReports q (trace k net h) ++ if q = r then [.frame f .txOk] else []
  have R : ∀ q c msg, msg ∈ L q → Like g q c → Like g q (c.receive r msg).1 ∧ sendsOf (c.receive r msg).2 = [] ∧ (tolds (c.receive r msg).2).filter isBus = repOf g q msg := by
    intro q c msg hmsg hlike
    by_cases hq : q < k ∧ q ≠ r
    · have hmsg : msg ∈ (if ((run k net h).1.ctl r).mode = .slave then [Msg.responses [⟨f, .tx⟩]] else []) ++ [Msg.transmission f .rxOk] := by
        have : L q = _ := if_pos hq
        rw [this] at hmsg; exact hmsg
      rw [List.mem_append] at hmsg
      rcases hmsg with hmsg | hmsg
      · split at hmsg
        · rw [List.mem_singleton] at hmsg
          rw [hmsg]
          exact hlike.responses (Ne.symm hq.2) _
        · simp at hmsg
      · rw [List.mem_singleton] at hmsg
        rw [hmsg]
        exact hlike.transmission (Ne.symm hq.2) hid (by simp)
    · have : L q = [] := if_neg hq
      rw [this] at hmsg
      simp at hmsg
  have h0 : Ph k r L (Like g) (repOf g) base (fun _ => 0) (run k net (h ++ [.api r (.sendDynamicResponse f)])).1 (run k net (h ++ [.api r (.sendDynamicResponse f)])).2 := by
    refine ⟨hc.kk, hc.like, fun p q => ?_, fun q => ?_⟩
    · rw [hc.chan p q, d1]
      split
      · simp only [L, List.drop_zero]
        by_cases hq : q < k
        · by_cases hqr : q = r
          · rw [if_neg (c := q < k ∧ q ≠ r) (fun h => h.2 hqr)]
            rw [List.filter_eq_nil_iff]
            intro x hx
            rw [List.mem_append] at hx
            rcases hx with hx | hx
            · split at hx
              · rw [List.mem_singleton] at hx; rw [hx]; simp [hqr, Msg.selfDelivered]
              · simp at hx
            · rw [List.mem_singleton] at hx; rw [hx]; simp [hqr, Msg.selfDelivered]
          · rw [if_pos (c := q < k ∧ q ≠ r) ⟨hq, hqr⟩, List.filter_eq_self]
            intro x _
            simp [hq, hqr]
        · rw [if_neg (c := q < k ∧ q ≠ r) (fun h => hq h.1)]
          simp [hq]
      · rfl
    · rw [hc.told q, d2]
      simp only [base, List.take_zero, List.flatMap_nil, List.append_nil]
      rfl
  have := Ph.settled R h0 hds (by
    have := hend
    unfold Settled at this
    rw [run_append_list] at this
    exact this) i
  rw [← run_append_list] at this
  rw [trace, this]
  simp only [base]
  by_cases hir : i = r
  · rw [if_pos hir, if_pos hir]
    have : L i = [] := if_neg (fun h => h.2 hir)
    rw [this]; simp
  · rw [if_neg hir, if_neg hir, List.append_nil]
    have : L i = _ := if_pos ⟨hi, hir⟩
    rw [this, List.flatMap_append]
    have e1 : (if ((run k net h).1.ctl r).mode = .slave then [Msg.responses [⟨f, .tx⟩]] else []).flatMap (repOf g i) = [] := by
      split <;> rfl
    rw [e1]
    have e2 : g i = confAt i (trace k net h) := by
      simp only [g]
      rw [hc.conf i, if_neg (Ne.symm hir)]
    simp [repOf, e2]

/-! ## Headers -/

theorem hasDynamic {c : Ctl} {f : Conf} (h : I c f) (ha : f.asks) : c.hasDynamicNode = true := by
  have mem : ∀ a (l : List (Nat × Node)), (getNode a l).isDynamic = true → l.any (·.2.isDynamic) = true := by
    intro a l
    induction l with
    | nil => intro h; cases h
    | cons x t ih =>
      obtain ⟨b, n⟩ := x
      intro h
      simp only [getNode] at h
      simp only [List.any_cons, Bool.or_eq_true]
      split at h
      · exact .inl h
      · exact .inr (ih h)
  rcases ha.2 with hd | hd
  · exact mem c.self c.nodes (h.ownDyn.trans hd)
  · obtain ⟨a, l, e⟩ : ∃ a l, f.dynamics = a :: l := by
      cases hf : f.dynamics with
      | nil => exact absurd hf hd
      | cons a l => exact ⟨a, l, rfl⟩
    have ha : a ∈ f.dynamics := by rw [e]; simp
    exact mem a c.nodes ((h.dyns a (fun e => h.others (e ▸ ha))).2 ha)

theorem count_le_one {c : Ctl} {f : Conf} (h : I c f) {id r : Nat} (hown : (f.resp id).mode = .tx → c.self = r)
    (hview : ∀ i, i ≠ c.self → ((getNode i c.nodes).resp id).mode = .tx → i = r) : (c.getResponse id).1 ≤ 1 := by
  rw [getResponse_count]
  have hall : ∀ x ∈ c.nodes.filter (responds id), x.1 = r := by
    intro x hx
    obtain ⟨hx, hr⟩ := List.mem_filter.1 hx
    obtain ⟨b, n⟩ := x
    have hg := getNode_mem h.sorted hx
    have ht : (n.resp id).mode = .tx := by
      simp only [responds, Bool.and_eq_true, beq_iff_eq] at hr
      exact hr.2
    by_cases hb : b = c.self
    · subst hb
      exact hown (by rw [← h.ownResp, Ctl.own, hg]; exact ht)
    · exact hview b hb (by rw [hg]; exact ht)
  have hp := filter_pairwise h.sorted (responds id)
  generalize c.nodes.filter (responds id) = l at hall hp
  match l with
  | [] => simp
  | [_] => simp
  | x :: y :: t =>
    simp only [List.map_cons, List.pairwise_cons, List.mem_cons] at hp
    have := hp.1 y.1 (.inl rfl)
    rw [hall x (by simp), hall y (by simp)] at this
    omega

theorem header_sent {c : Ctl} {f : Conf} (h : I c f) (q : Q c f) (ha : f.asks) {id : Nat} (hid : id < 64) (hn : (c.getResponse id).1 ≤ 1) :
    c.apiAlive (.sendFrameHeader id) = c.send (.header id) := by
  have hm : c.mode = .master := h.mode.trans ha.1
  have hu : c.status ≠ .unknown := fun e => by have := h.st.1 e; rw [ha.1] at this; cases this
  simp only [Ctl.apiAlive, Ctl.sendFrameHeader, Ctl.requestHeader, q.sim]
  rw [if_neg hu, if_neg (by simp [hm]), if_neg (fun h => by omega), if_pos]
  rcases Nat.lt_or_ge (c.getResponse id).1 1 with h0 | h1
  · exact .inr ⟨by omega, hasDynamic h ha⟩
  · exact .inl (by omega)

theorem header_heard {id r : Nat} (hp : Unsimulated (h ++ [.api m (.sendFrameHeader id)])) (ho : OpenFirst k (h ++ [.api m (.sendFrameHeader id)])) (hm : m < k)
    (hs : Settled k net h) (ha : (confAt m (trace k net h)).asks) (hone : ∀ i x, Act.api i x ∈ h → x.offers id → i = r)
    (hdyn : ((confAt r (trace k net h)).resp id).mode = .tx → (confAt r (trace k net h)).isDynamic = true)
    (hds : Deliveries ds) (hend : Settled k net (h ++ [.api m (.sendFrameHeader id)] ++ ds)) {i : Nat} (hi : i < k) :
    busReports i (trace k net (h ++ [.api m (.sendFrameHeader id)] ++ ds)) = busReports i (trace k net h) ++
      if (confAt i (trace k net h)).isDynamic = true then [.header id] else [] := by
  have hc := called (net := net) hp ho hm hs
  have hid : id < 64 := (hp.1 m (.sendFrameHeader id) (by simp)).1
  have di := DI.run (k := k) (net := net) (unsimulated_prefix hp) hone
  obtain ⟨f1, _, f3, f4⟩ := unsimulated_facts (k := k) (net := net) (unsimulated_prefix hp) m
  have hn := count_le_one (r := r) f3 (id := id) (fun ht => f1.trans (di.conf m ht)) (fun i hi ht => di.view i m (f1 ▸ hi) ht)
  have es := header_sent f3 f4 ha hid hn
  let L : Nat → List Msg := fun q => if q < k then [.header id] else []
  let g : Nat → Conf := fun q => confAt q (run k net (h ++ [.api m (.sendFrameHeader id)])).2
  have eg : ∀ q, g q = confAt q (trace k net h) := by
    intro q
    simp only [g]
    rw [hc.conf q]
    split <;> rfl
  have R : ∀ q c msg, msg ∈ L q → Like g q c → Like g q (c.receive m msg).1 ∧ sendsOf (c.receive m msg).2 = [] ∧ (tolds (c.receive m msg).2).filter isBus = repOf g q msg := by
    intro q c msg hmsg hlike
    have hmsg : msg = .header id := by
      simp only [L] at hmsg
      split at hmsg
      · simpa using hmsg
      · simp at hmsg
    rw [hmsg]
    refine hlike.header m hid fun hd ht => ?_
    rw [eg] at hd ht
    have : q = r := di.conf q ht
    subst this
    rw [hdyn ht] at hd
    cases hd
  have h0 : Ph k m L (Like g) (repOf g) (fun q => busReports q (trace k net h)) (fun _ => 0) (run k net (h ++ [.api m (.sendFrameHeader id)])).1
      (run k net (h ++ [.api m (.sendFrameHeader id)])).2 := by
    refine ⟨hc.kk, hc.like, fun p q => ?_, fun q => ?_⟩
    · rw [hc.chan p q, es, sends_send]
      split
      · simp only [L, List.drop_zero]
        by_cases hq : q < k
        · simp [hq, Msg.selfDelivered]
        · simp [hq]
      · rfl
    · rw [hc.told q, es]
      simp [Ctl.send, tolds]
  have := Ph.settled R h0 hds (by
    have := hend
    unfold Settled at this
    rw [run_append_list] at this
    exact this) i
  rw [← run_append_list] at this
  rw [trace, this]
  have : L i = [.header id] := if_pos hi
  rw [this]
  simp [repOf, eg]

end

end SilKit.Lin
