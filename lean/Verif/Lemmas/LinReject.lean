import Verif.Lemmas.LinAnswer
/-!
# LIN: rejected calls
-/
namespace SilKit.Lin
open SilKit.Lin.Spec SilKit.Handling.Spec

theorem forbidden_throws {c : Ctl} {f : Conf} (h : I c f) {a : Call} (hf : f.forbids a) : c.apiAlive a = c.throw := by
  have st : ∀ {P : Prop}, f.mode = .inactive ∨ P → c.status = .unknown ∨ P := fun h' => h'.imp h.st.2 id
  have mm : f.mode ≠ .master → c.mode ≠ .master := fun h' => by rw [h.mode]; exact h'
  have dd : f.isDynamic = true → c.isDynamic = true := fun h' => by rw [h.dyn]; exact h'
  cases a with
  | init mode rs =>
    simp only [Ctl.apiAlive, Ctl.init]
    by_cases hm : mode = .inactive
    · rw [if_pos hm]
    · rw [if_neg hm, if_pos (fun hu => hf.elim hm (fun h' => h' (h.st.1 hu)))]
  | initDynamic mode =>
    simp only [Ctl.apiAlive, Ctl.initDynamic]
    by_cases hm : mode = .inactive
    · rw [if_pos hm]
    · rw [if_neg hm, if_pos (fun hu => hf.elim hm (fun h' => h' (h.st.1 hu)))]
  | sendFrame fr ty =>
    simp only [Ctl.apiAlive, Ctl.sendFrame]
    split
    · rfl
    · split
      · rfl
      · rename_i h1
        have h1 : c.mode = .master := Decidable.not_not.1 h1
        rcases hf with hf | hf
        · exact absurd h1 (mm hf)
        · rw [if_pos (dd hf)]
  | sendFrameHeader x =>
    simp only [Ctl.apiAlive, Ctl.sendFrameHeader]
    split
    · rfl
    · rw [if_pos (mm hf)]
  | goToSleep =>
    simp only [Ctl.apiAlive, Ctl.goToSleep]
    split
    · rfl
    · rw [if_pos (mm hf)]
  | getSlaveConfiguration =>
    simp only [Ctl.apiAlive, Ctl.getSlaveConfiguration]
    rw [if_pos (mm hf)]
  | updateTxBuffer fr =>
    simp only [Ctl.apiAlive, Ctl.updateTxBuffer]
    rcases hf with hf | hf | hf
    · rw [if_pos (h.st.2 hf)]
    · rw [if_pos (dd hf)]; split <;> rfl
    · rw [if_neg (c := fr.id ≥ 64) (Nat.not_le.2 hf.1), if_pos (c := _ ≠ RespMode.tx) (by rw [h.ownResp]; exact hf.2)]
      split
      · rfl
      · split <;> rfl
  | setFrameResponse r =>
    simp only [Ctl.apiAlive, Ctl.setFrameResponse]
    rcases hf with hf | hf
    · rw [if_pos (h.st.2 hf)]
    · rw [if_pos (dd hf)]; split <;> rfl
  | goToSleepInternal => simp only [Ctl.apiAlive, Ctl.goToSleepInternal]; rw [if_pos (h.st.2 hf)]
  | wakeup => simp only [Ctl.apiAlive, Ctl.wakeup]; rw [if_pos (h.st.2 hf)]
  | wakeupInternal => simp only [Ctl.apiAlive, Ctl.wakeupInternal]; rw [if_pos (h.st.2 hf)]
  | sendDynamicResponse fr => exact absurd hf (by simp [Conf.forbids])
  | addHandler k => exact absurd hf (by simp [Conf.forbids])
  | removeHandler k id => exact absurd hf (by simp [Conf.forbids])
  | sim x => exact absurd hf (by simp [Conf.forbids])

/-! ## Allowed calls do not throw -/

def Calm (os : List Out) : Prop := Did.threw ∉ dids os

theorem calm_nil : Calm [] := by simp [Calm, dids]
theorem calm_tell (c : Ctl) (n : Notice) : Calm (c.tell n).2 := by
  unfold Calm Ctl.tell
  rw [Handling.dids_tell]; simp
theorem calm_append {a b : List Out} (ha : Calm a) (hb : Calm b) : Calm (a ++ b) := by
  unfold Calm at *
  rw [Handling.dids_append, List.mem_append]
  exact fun h => h.elim ha hb
theorem calm_send (c : Ctl) (m : Msg) : Calm (c.send m).2 := by simp [Calm, Ctl.send, dids]
theorem calm_ub (c : Ctl) : Calm c.ub.2 := by simp [Calm, Ctl.ub, dids]
theorem calm_andThen {r : R} {g : Ctl → R} (h1 : Calm r.2) (h2 : ∀ c, Calm (g c).2) : Calm (r.andThen g).2 := calm_append h1 (h2 _)
theorem calm_distribute (c : Ctl) (m : Msg) : Calm (c.distribute m).2 := by
  unfold Ctl.distribute
  split
  · exact calm_send _ _
  · exact calm_nil

theorem calm_requestHeader (c : Ctl) (id : Nat) : Calm (c.requestHeader id).2 := by
  unfold Ctl.requestHeader
  split
  · simp [Calm, dids]
  · split
    · exact calm_ub _
    · split
      · exact calm_send _ _
      · refine calm_andThen (calm_send _ _) fun c => ?_
        split
        · exact calm_ub _
        · exact calm_tell _ _

theorem calm_requestFrame (c : Ctl) (f : Frame) (ty : RespType) : Calm (c.requestFrame f ty).2 := by
  unfold Ctl.requestFrame
  split
  · simp [Calm, dids]
  · split
    · exact calm_nil
    · exact calm_requestHeader _ _

theorem calm_setStatus (c : Ctl) (s : Status) : Calm (c.setStatus s).2 := calm_send _ _

theorem allowed_calm {c : Ctl} {f : Conf} (h : I c f) {a : Call} (hs : a.noSim) (hd : ∀ fr, a ≠ .sendDynamicResponse fr) (hf : ¬ f.forbids a) : Calm (c.apiAlive a).2 := by
  have st : f.mode ≠ .inactive → c.status ≠ .unknown := fun h' hu => h' (h.st.1 hu)
  cases a with
  | init mode rs =>
    simp only [Conf.forbids, not_or, Decidable.not_not] at hf
    simp only [Ctl.apiAlive, Ctl.init]
    rw [if_neg hf.1, if_neg (not_not_intro (h.st.2 hf.2))]
    exact calm_distribute _ _
  | initDynamic mode =>
    simp only [Conf.forbids, not_or, Decidable.not_not] at hf
    simp only [Ctl.apiAlive, Ctl.initDynamic]
    rw [if_neg hf.1, if_neg (not_not_intro (h.st.2 hf.2))]
    exact calm_distribute _ _
  | sendFrame fr ty =>
    simp only [Conf.forbids, not_or, Decidable.not_not] at hf
    simp only [Ctl.apiAlive, Ctl.sendFrame]
    rw [if_neg (st (by rw [hf.1]; simp)), if_neg (by rw [h.mode]; exact not_not_intro hf.1), if_neg (by rw [h.dyn]; exact hf.2)]
    cases ty with
    | masterResponse =>
      simp only [Ctl.sendFrameInternal]
      exact calm_andThen (calm_distribute _ _) fun c => calm_requestFrame _ _ _
    | slaveResponse =>
      simp only [Ctl.sendFrameInternal]
      split
      · exact calm_tell _ _
      · unfold Ctl.sendFrameSlave
        split
        · exact calm_ub _
        · split
          · exact calm_andThen (calm_distribute _ _) fun c => calm_requestFrame _ _ _
          · exact calm_nil
          · exact calm_requestFrame _ _ _
    | slaveToSlave =>
      simp only [Ctl.sendFrameInternal]
      split
      · exact calm_tell _ _
      · exact calm_andThen (calm_tell _ _) fun c => calm_requestFrame _ _ _
  | sendFrameHeader x =>
    simp only [Conf.forbids, Decidable.not_not] at hf
    simp only [Ctl.apiAlive, Ctl.sendFrameHeader]
    rw [if_neg (st (by rw [hf]; simp)), if_neg (by rw [h.mode]; exact not_not_intro hf)]
    exact calm_requestHeader _ _
  | goToSleep =>
    simp only [Conf.forbids, Decidable.not_not] at hf
    have hu := st (by rw [hf]; simp)
    simp only [Ctl.apiAlive, Ctl.goToSleep]
    rw [if_neg hu, if_neg (by rw [h.mode]; exact not_not_intro hf)]
    split
    · refine calm_append (calm_append (calm_send _ _) (calm_tell _ _)) ?_
      show Calm (c.goToSleepInternal).2
      rw [Ctl.goToSleepInternal, if_neg hu]
      exact calm_setStatus _ _
    · exact calm_append (by simp [Calm, dids]) (calm_setStatus _ _)
  | getSlaveConfiguration =>
    simp only [Conf.forbids, Decidable.not_not] at hf
    simp only [Ctl.apiAlive, Ctl.getSlaveConfiguration]
    rw [if_neg (by rw [h.mode]; exact not_not_intro hf)]
    exact calm_nil
  | updateTxBuffer fr =>
    simp only [Conf.forbids, not_or, not_and, Decidable.not_not] at hf
    simp only [Ctl.apiAlive, Ctl.updateTxBuffer]
    rw [if_neg (st hf.1), if_neg (by rw [h.dyn]; exact hf.2.1)]
    split
    · exact calm_ub _
    · rename_i hid
      rw [if_neg (by rw [h.ownResp]; exact not_not_intro (hf.2.2 (Nat.lt_of_not_le hid)))]
      refine calm_andThen calm_nil fun c => ?_
      split
      · exact calm_nil
      · exact calm_send _ _
  | setFrameResponse r =>
    simp only [Conf.forbids, not_or] at hf
    simp only [Ctl.apiAlive, Ctl.setFrameResponse]
    rw [if_neg (st hf.1), if_neg (by rw [h.dyn]; exact hf.2)]
    split
    · exact calm_nil
    · split
      · exact calm_nil
      · split
        · exact calm_nil
        · exact calm_distribute _ _
  | goToSleepInternal =>
    simp only [Ctl.apiAlive, Ctl.goToSleepInternal]
    rw [if_neg (st hf)]
    exact calm_setStatus _ _
  | wakeup =>
    simp only [Ctl.apiAlive, Ctl.wakeup]
    rw [if_neg (st hf)]
    have hw : Calm c.wakeupInternal.2 := by
      rw [Ctl.wakeupInternal, if_neg (st hf)]
      exact calm_setStatus _ _
    split
    · exact calm_append (calm_append (calm_send _ _) (calm_tell _ _)) hw
    · exact calm_append (by simp [Calm, dids]) hw
  | wakeupInternal =>
    simp only [Ctl.apiAlive, Ctl.wakeupInternal]
    rw [if_neg (st hf)]
    exact calm_setStatus _ _
  | sendDynamicResponse fr => exact absurd rfl (hd fr)
  | addHandler k =>
    simp only [Ctl.apiAlive, Ctl.addHandler]
    refine calm_andThen (by simp [Calm, dids, Handling.add]) fun c => ?_
    split
    · exact calm_tell _ _
    · exact calm_nil
  | removeHandler k id => simp [Ctl.apiAlive, Ctl.removeHandler, Handling.remove, Calm, dids]
  | sim x => exact absurd hs (by simp [Call.noSim])

/-! ## Channels of a network -/

theorem chan_self (k : Nat) (net : String) (h : List Act) : (∀ i m, m ∈ (run k net h).1.chan i i → ∃ id, m = .header id) ∧
    (∀ i, ∀ x ∈ inputs i (run k net h).2, Input.Ok i x) ∧ ∀ i j, ¬ (i < k ∧ j < k) → (run k net h).1.chan i j = [] := by
  refine run_induction (P := fun _ r => (∀ i m, m ∈ r.1.chan i i → ∃ id, m = .header id) ∧ (∀ i, ∀ x ∈ inputs i r.2, Input.Ok i x) ∧
    ∀ i j, ¬ (i < k ∧ j < k) → r.1.chan i j = []) (by simp [Net.init, inputs]) (fun h a ih => ?_) h
  obtain ⟨i1, i2, i3⟩ := ih
  have hk := run_k k net h
  have selfFilter : ∀ (s : Net) (ms : List Msg) (i : Nat) (m : Msg), m ∈ ms.filter (s.goesTo i i) → ∃ id, m = .header id := by
    intro s ms i m hm
    have hg := (List.mem_filter.1 hm).2
    simp only [Net.goesTo, if_true, Bool.and_eq_true] at hg
    cases m with
    | header id => exact ⟨id, rfl⟩
    | _ => simp [Msg.selfDelivered] at hg
  have noFilter : ∀ (s : Net) (ms : List Msg) (i j : Nat), s.k = k → ¬ j < k → ms.filter (s.goesTo i j) = [] := by
    intro s ms i j hs hj
    rw [List.filter_eq_nil_iff]
    intro m _
    simp [Net.goesTo, hs, hj]
  generalize run k net h = r at *
  obtain ⟨s, t⟩ := r
  simp only at i1 i2 i3 hk
  have mkIn : ∀ i x, Input.Ok i x → ∀ os : List Out, ∀ j e, inputs j [e] = (if j = i then [x] else []) → ∀ y ∈ inputs j (t ++ e :: os.map (.out i)), Input.Ok j y := by
    intro i x hx os j e he y hy
    rw [show ∀ l : List Ev, t ++ e :: l = t ++ ([e] ++ l) from fun _ => rfl, inputs_append, inputs_append, inputs_outs, he] at hy
    simp only [List.append_nil, List.mem_append] at hy
    rcases hy with hy | hy
    · exact i2 j y hy
    · split at hy
      · rename_i e
        simp only [List.mem_singleton] at hy
        rw [hy, e]; exact hx
      · simp at hy
  cases a with
  | api i x =>
    by_cases hi : i < s.k
    · have e : s.step (.api i x) = (s.become i ((s.ctl i).api x), .call i x :: ((s.ctl i).api x).2.map (.out i)) := by simp only [Net.step, if_pos hi]
      simp only [Spec.on, e]
      refine ⟨fun j m hm => ?_, fun j => mkIn i (.call x) trivial _ j _ ?_, fun p q hpq => ?_⟩
      · rw [become_chan, List.mem_append] at hm
        rcases hm with hm | hm
        · exact i1 j m hm
        · split at hm
          · rename_i ej; subst ej; exact selfFilter _ _ _ _ hm
          · simp at hm
      · by_cases ej : j = i
        · simp [inputs, inputOf, ej]
        · simp [inputs, inputOf, ej, Ne.symm ej]
      · rw [become_chan, i3 p q hpq, List.nil_append]
        split
        · rename_i ep
          exact noFilter s _ i q hk (fun hq => hpq ⟨by omega, hq⟩)
        · rfl
    · simp only [Spec.on, Net.step, if_neg hi, List.append_nil]
      exact ⟨i1, i2, i3⟩
  | deliver src j =>
    by_cases hg : src < s.k ∧ j < s.k
    · cases hc : s.chan src j with
      | nil =>
        simp only [Spec.on, Net.step, if_pos hg, hc, Net.deliver, List.append_nil]
        exact ⟨i1, i2, i3⟩
      | cons m rest =>
        have e : s.step (.deliver src j) = ((s.pop src j).become j ((s.ctl j).receive src m), Ev.recv j src m :: ((s.ctl j).receive src m).2.map (.out j)) := by
          simp only [Net.step, if_pos hg, hc, Net.deliver]
        have hpop : ∀ p q m', m' ∈ (s.pop src j).chan p q → m' ∈ s.chan p q := by
          intro p q m' hm
          simp only [Net.pop] at hm
          split at hm
          · exact List.mem_of_mem_tail hm
          · exact hm
        simp only [Spec.on, e]
        refine ⟨fun i m' hm => ?_, fun i => mkIn j (.recv src m) (fun st em es => ?_) _ i _ ?_, fun p q hpq => ?_⟩
        · rw [become_chan, List.mem_append] at hm
          rcases hm with hm | hm
          · exact i1 i m' (hpop _ _ _ hm)
          · split at hm
            · rename_i ej; subst ej; exact selfFilter _ _ _ _ hm
            · simp at hm
        · subst es
          obtain ⟨id, em'⟩ := i1 src m (by rw [hc]; simp)
          rw [em'] at em
          cases em
        · by_cases ej : i = j
          · simp [inputs, inputOf, ej]
          · simp [inputs, inputOf, ej, Ne.symm ej]
        · have : (s.pop src j).chan p q = [] := by
            rw [List.eq_nil_iff_forall_not_mem]
            intro m' hm
            have := hpop _ _ _ hm
            rw [i3 p q hpq] at this
            simp at this
          rw [become_chan, this, List.nil_append]
          split
          · rename_i ep
            exact noFilter _ _ j q hk (fun hq => hpq ⟨by omega, hq⟩)
          · rfl
    · simp only [Spec.on, Net.step, if_neg hg, List.append_nil]
      exact ⟨i1, i2, i3⟩
  | «open» i j ty =>
    by_cases hg : i < s.k ∧ j < s.k ∧ i ≠ j ∧ s.opn i j ty = false
    · simp only [Spec.on, Net.step, if_pos hg, List.append_nil]
      refine ⟨fun p m hm => ?_, i2, fun p q hpq => ?_⟩
      · simp only [Net.opened] at hm
        rw [if_neg (fun h => hg.2.2.1 (h.1.symm.trans h.2.1))] at hm
        exact i1 p m hm
      · simp only [Net.opened]
        rw [if_neg (fun h => hpq ⟨by omega, by omega⟩)]
        exact i3 p q hpq
    · simp only [Spec.on, Net.step, if_neg hg, List.append_nil]
      exact ⟨i1, i2, i3⟩
  | close i j =>
    simp only [Spec.on, Net.step]
    split
    · simp only [List.append_nil]
      refine ⟨fun p m hm => ?_, i2, fun p q hpq => ?_⟩
      · simp only [Net.closed] at hm
        split at hm
        · simp at hm
        · exact i1 p m hm
      · simp only [Net.closed]
        split
        · rfl
        · exact i3 p q hpq
    · simp only [List.append_nil]
      exact ⟨i1, i2, i3⟩

end SilKit.Lin
