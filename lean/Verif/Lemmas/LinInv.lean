import Verif.Lemmas.LinKnow
/-!
# LIN networks: the invariant of networks without simulation
-/
namespace SilKit.Lin
open SilKit.Lin.Spec SilKit.Handling.Spec

theorem requestHeader_nodes (c : Ctl) (id : Nat) : (c.requestHeader id).1.nodes = c.nodes := (requestHeader_dies c id).kept.2.2.2.1

theorem api_nodes (c : Ctl) (a : Call) (hs : a.noSim) : (c.apiAlive a).1.nodes = c.nodes ∨ ∃ u, (c.apiAlive a).1.nodes = updNode c.self u c.nodes := by
  have same : ∀ r : R, r.1 = c → r.1.nodes = c.nodes ∨ ∃ u, r.1.nodes = updNode c.self u c.nodes := fun r e => .inl (by rw [e])
  have uf : ∀ r, (c.updateFrameResponse r).1.nodes = c.nodes ∨ ∃ u, (c.updateFrameResponse r).1.nodes = updNode c.self u c.nodes :=
    fun r => .inr ⟨_, by rw [updateFrameResponse_fst]; rfl⟩
  cases a with
  | init mode rs =>
    simp only [Ctl.apiAlive, Ctl.init]
    split
    · exact .inl rfl
    · split
      · exact .inl rfl
      · rw [distribute_fst]; exact .inr ⟨_, rfl⟩
  | initDynamic mode =>
    simp only [Ctl.apiAlive, Ctl.initDynamic]
    split
    · exact .inl rfl
    · split
      · exact .inl rfl
      · rw [distribute_fst]; exact .inr ⟨_, rfl⟩
  | sendDynamicResponse fr =>
    simp only [Ctl.apiAlive, Ctl.sendDynamicResponse]
    split
    · exact .inl rfl
    · simp only [R.andThen]
      rw [(processHeader_dies _ _).kept.2.2.2.1]
      exact uf _
  | sendFrame fr ty =>
    simp only [Ctl.apiAlive, Ctl.sendFrame]
    split
    · exact .inl rfl
    · split
      · exact .inl rfl
      · split
        · exact .inl rfl
        · cases ty with
          | masterResponse =>
            simp only [Ctl.sendFrameInternal, R.andThen]
            rw [(requestFrame_dies _ _ _).kept.2.2.2.1]
            exact uf _
          | slaveResponse =>
            simp only [Ctl.sendFrameInternal]
            split
            · exact .inl rfl
            · unfold Ctl.sendFrameSlave
              split
              · exact .inl rfl
              · split
                · simp only [R.andThen]
                  rw [(requestFrame_dies _ _ _).kept.2.2.2.1]
                  exact uf _
                · exact .inl rfl
                · exact .inl (requestFrame_dies _ _ _).kept.2.2.2.1
          | slaveToSlave =>
            simp only [Ctl.sendFrameInternal]
            split
            · exact .inl rfl
            · exact .inl (requestFrame_dies _ _ _).kept.2.2.2.1
  | sendFrameHeader id =>
    simp only [Ctl.apiAlive, Ctl.sendFrameHeader]
    split
    · exact .inl rfl
    · split
      · exact .inl rfl
      · exact .inl (requestHeader_nodes c id)
  | updateTxBuffer fr =>
    simp only [Ctl.apiAlive, Ctl.updateTxBuffer]
    split
    · exact .inl rfl
    · split
      · exact .inl rfl
      · split
        · exact .inl rfl
        · split
          · exact .inl rfl
          · simp only [R.andThen]
            split <;> exact .inr ⟨_, rfl⟩
  | setFrameResponse r =>
    simp only [Ctl.apiAlive, Ctl.setFrameResponse]
    split
    · exact .inl rfl
    · split
      · exact .inl rfl
      · split
        · exact .inl rfl
        · split
          · exact .inl rfl
          · split
            · exact .inl rfl
            · exact uf r
  | goToSleep =>
    simp only [Ctl.apiAlive, Ctl.goToSleep]
    split
    · exact .inl rfl
    · split
      · exact .inl rfl
      · split
        · show (c.goToSleepInternal).1.nodes = _ ∨ _
          unfold Ctl.goToSleepInternal
          split <;> exact .inl rfl
        · exact .inl rfl
  | goToSleepInternal =>
    simp only [Ctl.apiAlive, Ctl.goToSleepInternal]
    split <;> exact .inl rfl
  | wakeup =>
    simp only [Ctl.apiAlive, Ctl.wakeup]
    split
    · exact .inl rfl
    · left
      split
      · show (c.wakeupInternal).1.nodes = _
        unfold Ctl.wakeupInternal
        split <;> rfl
      · show (c.wakeupInternal).1.nodes = _
        unfold Ctl.wakeupInternal
        split <;> rfl
  | wakeupInternal =>
    simp only [Ctl.apiAlive, Ctl.wakeupInternal]
    split <;> exact .inl rfl
  | getSlaveConfiguration =>
    simp only [Ctl.apiAlive, Ctl.getSlaveConfiguration]
    split <;> exact .inl rfl
  | addHandler k =>
    simp only [Ctl.apiAlive, Ctl.addHandler, R.andThen]
    split <;> exact .inl rfl
  | removeHandler k id => exact .inl rfl
  | sim x => exact absurd hs (by simp [Call.noSim])

theorem call_isDynamic (f : Conf) (a : Call) (h : a.isStatic) (hf : f.isDynamic = false) : (f.call a).isDynamic = false := by
  have hset : ∀ r : Response, (f.set r).isDynamic = false := fun r => (same_set f r).2.1.trans hf
  cases a with
  | init mode rs =>
    simp only [Conf.call, Conf.initWith]
    split
    · exact (same_sets rs _).2.1
    · exact hf
  | initDynamic mode => exact absurd h (by simp [Call.isStatic])
  | sendDynamicResponse fr => exact absurd h (by simp [Call.isStatic])
  | sendFrame fr ty =>
    cases ty <;> simp only [Conf.call]
    · split
      · exact hset _
      · exact hf
    · split
      · exact hset _
      · exact hf
    · exact hf
  | setFrameResponse r =>
    simp only [Conf.call]
    split
    · exact hset _
    · exact hf
  | updateTxBuffer fr => simp only [Conf.call]; split <;> exact hf
  | goToSleep => simp only [Conf.call]; split <;> exact hf
  | goToSleepInternal => simp only [Conf.call]; split <;> exact hf
  | wakeup => simp only [Conf.call]; split <;> exact hf
  | wakeupInternal => simp only [Conf.call]; split <;> exact hf
  | _ => exact hf

theorem call_idle (f : Conf) (a : Call) (h : a.isStatic) (hf : f.mode = .inactive → ∀ id, (f.resp id).mode = .unused)
    (hm : (f.call a).mode = .inactive) : ∀ id, ((f.call a).resp id).mode = .unused := by
  by_cases hi : f.mode = .inactive
  · have ns : ¬ f.static := fun hs => hs.1 hi
    cases a with
    | init mode rs =>
      simp only [Conf.call, Conf.initWith] at hm ⊢
      split at hm
      · rename_i h'
        rw [(same_sets rs _).1] at hm
        exact absurd hm h'.2
      · rename_i h'
        rw [if_neg h']
        exact hf hi
    | initDynamic mode => exact absurd h (by simp [Call.isStatic])
    | sendDynamicResponse fr => exact absurd h (by simp [Call.isStatic])
    | sendFrame fr ty => cases ty <;> simp only [Conf.call, ns, false_and, if_false] <;> exact hf hi
    | setFrameResponse r => simp only [Conf.call, ns, false_and, if_false]; exact hf hi
    | updateTxBuffer fr => simp only [Conf.call, ns, false_and, if_false]; exact hf hi
    | goToSleep => simp only [Conf.call]; split <;> exact hf hi
    | goToSleepInternal => simp only [Conf.call]; split <;> exact hf hi
    | wakeup => simp only [Conf.call]; split <;> exact hf hi
    | wakeupInternal => simp only [Conf.call]; split <;> exact hf hi
    | _ => exact hf hi
  · have : (f.call a).mode = f.mode := by
      have hset : ∀ r : Response, (f.set r).mode = f.mode := fun r => (same_set f r).1
      cases a with
      | init mode rs => simp only [Conf.call, Conf.initWith, hi, false_and, if_false]
      | initDynamic mode => simp only [Conf.call, Conf.initWith, hi, false_and, if_false]
      | sendDynamicResponse fr => exact hset _
      | sendFrame fr ty =>
        cases ty <;> simp only [Conf.call]
        · split
          · exact hset _
          · rfl
        · split
          · exact hset _
          · rfl
      | setFrameResponse r =>
        simp only [Conf.call]
        split
        · exact hset _
        · rfl
      | updateTxBuffer fr => simp only [Conf.call]; split <;> rfl
      | goToSleep => simp only [Conf.call]; split <;> rfl
      | goToSleepInternal => simp only [Conf.call]; split <;> rfl
      | wakeup => simp only [Conf.call]; split <;> rfl
      | wakeupInternal => simp only [Conf.call]; split <;> rfl
      | _ => rfl
    rw [this] at hm
    exact absurd hm hi

theorem announce_resp (f : Conf) (src : Nat) (rs : List Response) : (f.announce src rs).resp = f.resp := by
  unfold Conf.announce; split <;> rfl

theorem recv_idle (f : Conf) (i src : Nat) (m : Msg) : (f.recv i src m).resp = f.resp := by
  cases m with
  | config mode dyn rs =>
    simp only [Conf.recv]
    split
    · rfl
    · exact announce_resp _ src rs
  | responses rs =>
    simp only [Conf.recv]
    split
    · rfl
    · exact announce_resp _ src rs
  | _ => rfl

theorem recv_isDynamic (f : Conf) (i src : Nat) (m : Msg) : (f.recv i src m).isDynamic = f.isDynamic := by
  cases m with
  | config mode dyn rs =>
    simp only [Conf.recv]
    split
    · rfl
    · exact (announce_same _ src rs).2.1
  | responses rs =>
    simp only [Conf.recv]
    split
    · rfl
    · exact (announce_same _ src rs).2.1
  | _ => rfl

theorem posts_last (s : Net) (i : Nat) (os : List Out) (a : Nat) (h : (s.posts i os).last a ≠ none) : s.last a ≠ none ∨ (a = i ∧ ∃ m ∈ sendsOf os, m.hasHistory = true) := by
  rw [posts_eq] at h
  generalize sendsOf os = ms at h ⊢
  induction ms generalizing s with
  | nil => exact .inl h
  | cons m t ih =>
    rw [List.foldl_cons] at h
    rcases ih _ h with h | ⟨e, m', hm', hh⟩
    · unfold Net.post at h
      simp only at h
      split at h
      · rename_i hh
        unfold upd at h
        split at h
        · rename_i e
          exact .inr ⟨e, m, by simp, hh⟩
        · exact .inl h
      · exact .inl h
    · exact .inr ⟨e, m', by simp [hm'], hh⟩

theorem receive_eq {c : Ctl} {src : Nat} {m : Msg} (hd : c.dead = false) (hs : c.sim = none) (hself : src = c.self → ∃ id, m = .header id) : c.receive src m = c.take src m := by
  rw [Ctl.receive, if_neg (by simp [hd]), if_neg (by simp [hs]), if_neg]
  rintro ⟨h1, h2⟩
  obtain ⟨id, rfl⟩ := hself h2
  simp [Msg.notFromSelf] at h1

/-- The invariant. -/
structure NI (k : Nat) (h : List Act) (s : Net) (t : List Ev) : Prop where
  chanOk : ∀ i j m, m ∈ s.chan i j → m.Valid ∧ (i = j → ∃ id, m = .header id)
  inOk : ∀ i, ∀ x ∈ inputs i t, Input.Valid i x
  addr : ∀ j, ∀ x ∈ (s.ctl j).nodes, x.1 < k
  knows : ∀ i j, i < k → j < k → i ≠ j → Knows ((s.chan i j).foldl viewStep (getNode i (s.ctl j).nodes)) (s.ctl i)
  last : ∀ i, s.last i ≠ none → ∃ a, Act.api i a ∈ h ∧ i < k
  opened : ∀ i j ty, i < k → j < k → i ≠ j → Act.open i j ty ∈ h → s.opn i j ty = true
  static : ∀ i, (confAt i t).isDynamic = false
  idle : ∀ i, (confAt i t).mode = .inactive → ∀ id, ((confAt i t).resp id).mode = .unused

theorem openFirst_prefix {k : Nat} {h : List Act} {a : Act} (ho : OpenFirst k (h ++ [a])) : OpenFirst k h := by
  intro pre i x post e
  exact ho pre i x (post ++ [a]) (by rw [e]; simp)

theorem plain_prefix {h : List Act} {a : Act} (hp : Plain (h ++ [a])) : Plain h :=
  ⟨fun i x hx => hp.1 i x (by simp [hx]), fun i j hx => hp.2 i j (by simp [hx])⟩

/-- A controller of a network, by its own history. -/
theorem ctl_facts {k : Nat} {net : String} {h : List Act} (hin : ∀ i, ∀ x ∈ inputs i (run k net h).2, Input.Valid i x) (i : Nat) :
    ((run k net h).1.ctl i).self = i ∧ ((run k net h).1.ctl i).dead = false ∧ I ((run k net h).1.ctl i) (confAt i (run k net h).2) ∧
    Q ((run k net h).1.ctl i) (confAt i (run k net h).2) := by
  rw [(run_solo k net h i).1]
  obtain ⟨h1, h2, h3⟩ := solo_Q i net _ (hin i)
  exact ⟨(solo_good i net _).1, h1, h2, h3⟩

theorem NI.step {k : Nat} {net : String} {h : List Act} {a : Act} (hp : Plain (h ++ [a])) (ho : OpenFirst k (h ++ [a]))
    (ih : NI k h (run k net h).1 (run k net h).2) : NI k (h ++ [a]) ((run k net h).1.step a).1 ((run k net h).2 ++ ((run k net h).1.step a).2) := by
  have hk := run_k k net h
  have facts := ctl_facts ih.inOk
  generalize run k net h = r at ih hk facts
  obtain ⟨s, t⟩ := r
  simp only at ih hk facts ⊢
  have openFirst : ∀ i x, Act.api i x ∈ h → i < k → ∀ j, j < k → j ≠ i → ∀ ty, s.opn i j ty = true := by
    intro i x hx hi j hj hji ty
    obtain ⟨pre, post, e⟩ := List.append_of_mem hx
    refine ih.opened i j ty hi hj (Ne.symm hji) ?_
    have := (openFirst_prefix ho) pre i x post e hi j hj hji ty
    rw [e]
    simp [this]
  cases a with
  | close i j => exact absurd (by simp) (hp.2 i j)
  | api i x =>
    by_cases hi : i < s.k
    · have e : s.step (.api i x) = (s.become i ((s.ctl i).api x), .call i x :: ((s.ctl i).api x).2.map (.out i)) := by simp only [Net.step, if_pos hi]
      obtain ⟨f1, f2, f3, f4⟩ := facts i
      obtain ⟨v1, v2, v3⟩ := hp.1 i x (by simp)
      have ea : (s.ctl i).api x = (s.ctl i).apiAlive x := by rw [Ctl.api, if_neg (by simp [f2])]
      have hs := Sends.api f3 f4 x v1 v2 v3
      have hopn : ∀ j, j < k → j ≠ i → ∀ ty, s.opn i j ty = true := by
        intro j hj hji ty
        exact ih.opened i j ty (hk ▸ hi) hj (Ne.symm hji) (ho h i x [] rfl (hk ▸ hi) j hj hji ty)
      rw [e, ea]
      have hin : ∀ j, ∀ y ∈ inputs j (t ++ .call i x :: ((s.ctl i).apiAlive x).2.map (.out i)), Input.Valid j y := by
        intro j y hy
        rw [show ∀ l : List Ev, t ++ Ev.call i x :: l = t ++ ([Ev.call i x] ++ l) from fun _ => rfl, inputs_append, inputs_append, inputs_outs] at hy
        simp only [List.append_nil, List.mem_append] at hy
        rcases hy with hy | hy
        · exact ih.inOk j y hy
        · simp only [inputs, List.filterMap_cons, List.filterMap_nil, inputOf] at hy
          split at hy
          · simp at hy
          · rename_i heq
            split at heq
            · rename_i eij
              injection heq with heq
              simp only [List.mem_singleton] at hy
              rw [hy, ← heq]
              exact ⟨v1, v2⟩
            · cases heq
      refine ⟨?_, hin, ?_, ?_, ?_, ?_, ?_, ?_⟩
      · intro p q m hm
        rw [become_chan, List.mem_append] at hm
        rcases hm with hm | hm
        · exact ih.chanOk p q m hm
        · split at hm
          · rename_i ep
            rw [List.mem_filter] at hm
            refine ⟨hs.valid m hm.1, fun epq => ?_⟩
            have hg := hm.2
            simp only [Net.goesTo, ← epq, ep, if_true, Bool.and_eq_true] at hg
            cases m with
            | header id => exact ⟨id, rfl⟩
            | _ => simp [Msg.selfDelivered] at hg
          · simp at hm
      · intro j y hy
        rw [become_ctl] at hy
        unfold upd at hy
        split at hy
        · rename_i ej
          rcases api_nodes (s.ctl i) x v2 with en | ⟨u, en⟩
          · rw [en] at hy; exact ih.addr i y hy
          · rw [en] at hy
            rcases mem_updNode hy with hy | ⟨n, rfl, _⟩
            · exact ih.addr i y hy
            · simp only [f1]; omega
        · exact ih.addr j y hy
      · intro p q hp' hq hpq
        rw [become_ctl, become_chan]
        by_cases ep : p = i
        · subst ep
          have eq' : upd s.ctl p ((s.ctl p).apiAlive x).1 q = s.ctl q := by simp [upd, Ne.symm hpq]
          have epp : upd s.ctl p ((s.ctl p).apiAlive x).1 p = ((s.ctl p).apiAlive x).1 := by simp [upd]
          rw [eq', epp, if_pos rfl, List.foldl_append]
          have ef : (sendsOf ((s.ctl p).apiAlive x).2).filter (s.goesTo p q) = sendsOf ((s.ctl p).apiAlive x).2 := by
            rw [List.filter_eq_self]
            intro m _
            simp only [Net.goesTo, if_neg (Ne.symm hpq), hopn q hq (Ne.symm hpq), hk, hq, decide_true, Bool.and_self]
          rw [ef]
          exact hs.news _ (ih.knows p q hp' hq hpq)
        · have epp : upd s.ctl i ((s.ctl i).apiAlive x).1 p = s.ctl p := by simp [upd, ep]
          rw [epp, if_neg ep, List.append_nil]
          by_cases eq' : q = i
          · subst eq'
            have e' : upd s.ctl q ((s.ctl q).apiAlive x).1 q = ((s.ctl q).apiAlive x).1 := by simp [upd]
            rw [e']
            have en : getNode p ((s.ctl q).apiAlive x).1.nodes = getNode p (s.ctl q).nodes := by
              rcases api_nodes (s.ctl q) x v2 with en | ⟨u, en⟩
              · rw [en]
              · rw [en, getNode_updNode_ne]
                rw [f1]; exact hpq
            rw [en]
            exact ih.knows p q hp' hq hpq
          · have e' : upd s.ctl i ((s.ctl i).apiAlive x).1 q = s.ctl q := by simp [upd, eq']
            rw [e']
            exact ih.knows p q hp' hq hpq
      · intro p hl
        rcases posts_last _ _ _ _ hl with hl | ⟨e, _⟩
        · obtain ⟨a, ha, hp'⟩ := ih.last p hl
          exact ⟨a, by simp [ha], hp'⟩
        · exact ⟨x, by simp [e], by rw [e, ← hk]; exact hi⟩
      · intro p q ty hp' hq hpq hm
        rw [become_opn]
        refine ih.opened p q ty hp' hq hpq ?_
        simpa using hm
      · intro j
        have hst : (confAt j (t ++ .call i x :: ((s.ctl i).apiAlive x).2.map (.out i))) = if i = j then (confAt j t).call x else confAt j t := by
          unfold confAt
          rw [show ∀ l : List Ev, t ++ Ev.call i x :: l = t ++ ([Ev.call i x] ++ l) from fun _ => rfl, inputs_append, inputs_append, inputs_outs]
          by_cases eij : i = j
          · simp only [inputs, List.filterMap_cons, List.filterMap_nil, inputOf, eij, if_true, List.append_nil]
            rw [conf_append]; rfl
          · simp [inputs, inputOf, eij]
        rw [hst]
        split
        · exact call_isDynamic _ _ v3 (ih.static j)
        · exact ih.static j
      · intro j
        have hst : (confAt j (t ++ .call i x :: ((s.ctl i).apiAlive x).2.map (.out i))) = if i = j then (confAt j t).call x else confAt j t := by
          unfold confAt
          rw [show ∀ l : List Ev, t ++ Ev.call i x :: l = t ++ ([Ev.call i x] ++ l) from fun _ => rfl, inputs_append, inputs_append, inputs_outs]
          by_cases eij : i = j
          · simp only [inputs, List.filterMap_cons, List.filterMap_nil, inputOf, eij, if_true, List.append_nil]
            rw [conf_append]; rfl
          · simp [inputs, inputOf, eij]
        rw [hst]
        split
        · exact call_idle _ _ v3 (ih.idle j)
        · exact ih.idle j
    · have e : s.step (.api i x) = (s, []) := by simp only [Net.step, if_neg hi]
      rw [e]
      simp only [List.append_nil]
      refine ⟨ih.chanOk, ih.inOk, ih.addr, ih.knows, fun p hl => ?_, fun p q ty hp' hq hpq hm => ih.opened p q ty hp' hq hpq (by simpa using hm), ih.static, ih.idle⟩
      obtain ⟨a, ha, hp'⟩ := ih.last p hl
      exact ⟨a, by simp [ha], hp'⟩
  | «open» i j ty =>
    by_cases hg : i < s.k ∧ j < s.k ∧ i ≠ j ∧ s.opn i j ty = false
    · have e : s.step (.open i j ty) = (s.opened i j ty, []) := by simp only [Net.step, if_pos hg]
      have hl : s.last i = none := by
        cases hl : s.last i with
        | none => rfl
        | some m =>
          obtain ⟨a, ha, hi⟩ := ih.last i (by simp [hl])
          have := openFirst i a ha hi j (hk ▸ hg.2.1) (Ne.symm hg.2.2.1) ty
          rw [hg.2.2.2] at this
          cases this
      have ec : ∀ p q, (s.opened i j ty).chan p q = s.chan p q := by
        intro p q
        simp only [Net.opened, hl]
        split <;> simp
      rw [e]
      simp only [List.append_nil]
      refine ⟨fun p q m hm => ih.chanOk p q m (ec p q ▸ hm), ih.inOk, ih.addr, fun p q h1 h2 h3 => ?_, fun p hl => ?_, fun p q ty' hp' hq hpq hm => ?_, ih.static, ih.idle⟩
      · rw [ec]; exact ih.knows p q h1 h2 h3
      · obtain ⟨a, ha, hp'⟩ := ih.last p hl
        exact ⟨a, by simp [ha], hp'⟩
      · simp only [Net.opened]
        split
        · rfl
        · rename_i hne
          refine ih.opened p q ty' hp' hq hpq ?_
          rw [List.mem_append, List.mem_singleton] at hm
          rcases hm with hm | hm
          · exact hm
          · injection hm with h1 h2 h3
            exact absurd ⟨h1, h2, h3⟩ hne
    · have e : s.step (.open i j ty) = (s, []) := by simp only [Net.step, if_neg hg]
      rw [e]
      simp only [List.append_nil]
      refine ⟨ih.chanOk, ih.inOk, ih.addr, ih.knows, fun p hl => ?_, fun p q ty' hp' hq hpq hm => ?_, ih.static, ih.idle⟩
      · obtain ⟨a, ha, hp'⟩ := ih.last p hl
        exact ⟨a, by simp [ha], hp'⟩
      · rw [List.mem_append, List.mem_singleton] at hm
        rcases hm with hm | hm
        · exact ih.opened p q ty' hp' hq hpq hm
        · injection hm with h1 h2 h3
          subst h1 h2 h3
          cases ho' : s.opn p q ty' with
          | true => rfl
          | false => exact absurd ⟨hk ▸ hp', hk ▸ hq, hpq, ho'⟩ hg
  | deliver src j =>
    have quiet : s.step (.deliver src j) = (s, []) → NI k (h ++ [.deliver src j]) (s.step (.deliver src j)).1 (t ++ (s.step (.deliver src j)).2) := by
      intro e
      rw [e]
      simp only [List.append_nil]
      refine ⟨ih.chanOk, ih.inOk, ih.addr, ih.knows, fun p hl => ?_, fun p q ty hp' hq hpq hm => ih.opened p q ty hp' hq hpq (by simpa using hm), ih.static, ih.idle⟩
      obtain ⟨a, ha, hp'⟩ := ih.last p hl
      exact ⟨a, by simp [ha], hp'⟩
    by_cases hg : src < s.k ∧ j < s.k
    · cases hc : s.chan src j with
      | nil => exact quiet (by simp only [Net.step, if_pos hg, hc, Net.deliver])
      | cons m rest =>
        have e : s.step (.deliver src j) = ((s.pop src j).become j ((s.ctl j).receive src m), Ev.recv j src m :: ((s.ctl j).receive src m).2.map (.out j)) := by
          simp only [Net.step, if_pos hg, hc, Net.deliver]
        obtain ⟨f1, f2, f3, f4⟩ := facts j
        obtain ⟨m1, m2⟩ := ih.chanOk src j m (by rw [hc]; simp)
        have er : (s.ctl j).receive src m = (s.ctl j).take src m := receive_eq f2 f4.sim (fun e => m2 (e.trans f1))
        obtain ⟨t1, t2, t3, t4, t5, t6⟩ := take_nodes f3.sorted src m
        have tt := take_same (c := s.ctl j) (by rw [f4.st]; exact Conf.status_sp _) src m m1
        have hsend := sends_receive (s.ctl j) src m
        rw [er] at hsend
        have eown : ((s.ctl j).take src m).1.own = (s.ctl j).own := by
          rw [Ctl.own, t5]
          by_cases es : src = (s.ctl j).self
          · obtain ⟨id, rfl⟩ := m2 (es.trans f1)
            rw [← es, t3]
            simp only [viewStep, Ctl.own, es]
          · exact t2 _ (Ne.symm es)
        have echan : ∀ p q, (s.pop src j).chan p q = if p = src ∧ q = j then rest else s.chan p q := by
          intro p q
          simp only [Net.pop]
          split
          · rename_i hpq
            rw [hpq.1, hpq.2, hc]; rfl
          · rfl
        rw [e, er]
        have hin : ∀ i, ∀ y ∈ inputs i (t ++ .recv j src m :: ((s.ctl j).take src m).2.map (.out j)), Input.Valid i y := by
          intro i y hy
          rw [show ∀ l : List Ev, t ++ Ev.recv j src m :: l = t ++ ([Ev.recv j src m] ++ l) from fun _ => rfl, inputs_append, inputs_append, inputs_outs] at hy
          simp only [List.append_nil, List.mem_append] at hy
          rcases hy with hy | hy
          · exact ih.inOk i y hy
          · simp only [inputs, List.filterMap_cons, List.filterMap_nil, inputOf] at hy
            split at hy
            · simp at hy
            · rename_i heq
              split at heq
              · rename_i eij
                injection heq with heq
                simp only [List.mem_singleton] at hy
                rw [hy, ← heq]
                exact ⟨m1, fun e => m2 (e.trans eij.symm)⟩
              · cases heq
        refine ⟨?_, hin, ?_, ?_, ?_, ?_, ?_, ?_⟩
        · intro p q m' hm
          rw [become_chan, List.mem_append, echan] at hm
          rcases hm with hm | hm
          · split at hm
            · rename_i hpq
              have := ih.chanOk src j m' (by rw [hc]; simp [hm])
              rw [hpq.1, hpq.2]
              exact this
            · exact ih.chanOk p q m' hm
          · split at hm
            · rename_i ep
              rw [List.mem_filter] at hm
              obtain ⟨fr, st, rfl⟩ := hsend m' hm.1
              refine ⟨trivial, fun epq => ?_⟩
              have hg' := hm.2
              rw [ep] at epq
              simp [Net.goesTo, ← epq, Msg.selfDelivered] at hg'
            · simp at hm
        · intro i y hy
          rw [become_ctl] at hy
          unfold upd at hy
          split at hy
          · rcases t6 with en | ⟨u, en⟩
            · rw [en] at hy; exact ih.addr j y hy
            · rw [en] at hy
              rcases mem_updNode hy with hy | ⟨n, rfl, _⟩
              · exact ih.addr j y hy
              · simp only; omega
          · exact ih.addr i y hy
        · intro p q hp' hq hpq
          rw [become_ctl, become_chan, List.foldl_append]
          have hfold : ∀ v : Node, (if p = j then (sendsOf ((s.ctl j).take src m).2).filter ((s.pop src j).goesTo j q) else []).foldl viewStep v = v := by
            intro v
            refine foldl_view_bus v _ fun m' hm' => ?_
            split at hm'
            · obtain ⟨fr, st, rfl⟩ := hsend m' (List.mem_filter.1 hm').1
              exact ⟨0, .inr ⟨fr, st, rfl⟩⟩
            · simp at hm'
          rw [hfold, echan]
          have hkn : Knows ((if p = src ∧ q = j then rest else s.chan p q).foldl viewStep (getNode p (upd (s.pop src j).ctl j ((s.ctl j).take src m).1 q).nodes)) (s.ctl p) := by
            have := ih.knows p q hp' hq hpq
            by_cases eq' : q = j
            · have e' : upd (s.pop src j).ctl j ((s.ctl j).take src m).1 q = ((s.ctl j).take src m).1 := by simp [upd, eq']
              rw [e']
              by_cases ep : p = src
              · rw [if_pos ⟨ep, eq'⟩]
                rw [ep, eq', hc, List.foldl_cons] at this
                rw [ep, t3]
                exact this
              · rw [if_neg (fun h => ep h.1), t2 p ep]
                rw [eq'] at this ⊢
                exact this
            · have e' : upd (s.pop src j).ctl j ((s.ctl j).take src m).1 q = s.ctl q := by simp [upd, eq', Net.pop]
              rw [e', if_neg (fun h => eq' h.2)]
              exact this
          by_cases ep : p = j
          · have e' : upd (s.pop src j).ctl j ((s.ctl j).take src m).1 p = ((s.ctl j).take src m).1 := by simp [upd, ep]
            rw [e']
            rw [ep] at hkn ⊢
            exact hkn.kept tt.2.2.1 tt.2.1 eown
          · have e' : upd (s.pop src j).ctl j ((s.ctl j).take src m).1 p = s.ctl p := by simp [upd, ep, Net.pop]
            rw [e']
            exact hkn
        · intro p hl
          rcases posts_last _ _ _ _ hl with hl | ⟨_, m', hm', hh⟩
          · obtain ⟨a, ha, hp'⟩ := ih.last p hl
            exact ⟨a, by simp [ha], hp'⟩
          · obtain ⟨fr, st, rfl⟩ := hsend m' hm'
            simp [Msg.hasHistory] at hh
        · intro p q ty hp' hq hpq hm
          rw [become_opn]
          exact ih.opened p q ty hp' hq hpq (by simpa using hm)
        · intro i
          have hst : (confAt i (t ++ .recv j src m :: ((s.ctl j).take src m).2.map (.out j))) = if j = i then (confAt i t).recv i src m else confAt i t := by
            unfold confAt
            rw [show ∀ l : List Ev, t ++ Ev.recv j src m :: l = t ++ ([Ev.recv j src m] ++ l) from fun _ => rfl, inputs_append, inputs_append, inputs_outs]
            by_cases eij : j = i
            · simp only [inputs, List.filterMap_cons, List.filterMap_nil, inputOf, eij, if_true, List.append_nil]
              rw [conf_append]; rfl
            · simp [inputs, inputOf, eij]
          rw [hst]
          split
          · rw [recv_isDynamic]; exact ih.static i
          · exact ih.static i
        · intro i
          have hst : (confAt i (t ++ .recv j src m :: ((s.ctl j).take src m).2.map (.out j))) = if j = i then (confAt i t).recv i src m else confAt i t := by
            unfold confAt
            rw [show ∀ l : List Ev, t ++ Ev.recv j src m :: l = t ++ ([Ev.recv j src m] ++ l) from fun _ => rfl, inputs_append, inputs_append, inputs_outs]
            by_cases eij : j = i
            · simp only [inputs, List.filterMap_cons, List.filterMap_nil, inputOf, eij, if_true, List.append_nil]
              rw [conf_append]; rfl
            · simp [inputs, inputOf, eij]
          rw [hst]
          split
          · rw [recv_idle, (recv_same _ _ _ _).1]; exact ih.idle i
          · exact ih.idle i
    · exact quiet (by simp only [Net.step, if_neg hg])

theorem NI.run {k : Nat} {net : String} {h : List Act} (hp : Plain h) (ho : OpenFirst k h) : NI k h (Spec.run k net h).1 (Spec.run k net h).2 := by
  refine run_induction (P := fun h r => Plain h → OpenFirst k h → NI k h r.1 r.2) (fun _ _ => ?_) (fun h a ih hp ho => NI.step hp ho (ih (plain_prefix hp) (openFirst_prefix ho))) h hp ho
  refine ⟨by simp [Net.init], by simp [inputs], by simp [Net.init], fun i j _ _ _ => ?_, by simp [Net.init], by simp, fun i => rfl, fun i _ id => rfl⟩
  exact ⟨rfl, rfl, fun e => by simp [Net.init] at e, fun _ id => Alike.refl _⟩

end SilKit.Lin
