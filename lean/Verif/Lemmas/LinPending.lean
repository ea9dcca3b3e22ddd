import Verif.Lemmas.LinReject
namespace SilKit.Lin
open Spec Handling.Spec

/-- The flag for later handlers of slave configurations is not cleared. -/
def Stays (c : Ctl) (r : R) : Prop := c.pending = true → r.1.pending = true

theorem Stays.andThen {c : Ctl} {r : R} {f : Ctl → R} (h : Stays c r) (h' : ∀ c, Stays c (f c)) : Stays c (r.andThen f) := fun e => h' _ (h e)

theorem Stays.same {c c' : Ctl} {os : List Out} (h : c'.pending = c.pending) : Stays c (c', os) := fun e => h.trans e

theorem Stays.distribute {c c' : Ctl} (h : c'.pending = c.pending) (m : Msg) : Stays c (c'.distribute m) := by
  unfold Ctl.distribute
  split <;> exact Stays.same h

theorem Stays.response (c : Ctl) (r : Response) : Stays c (c.updateFrameResponse r) := by
  unfold Ctl.updateFrameResponse
  refine Stays.distribute ?_ _
  rfl

theorem Stays.requestHeader (c : Ctl) (id : Nat) : Stays c (c.requestHeader id) := by
  unfold Ctl.requestHeader
  split
  · exact Stays.same rfl
  · split
    · exact Stays.same rfl
    · split
      · exact Stays.same rfl
      · refine Stays.andThen (Stays.same rfl) fun c => ?_
        split <;> exact Stays.same rfl

theorem Stays.requestFrame (c : Ctl) (f : Frame) (ty : RespType) : Stays c (c.requestFrame f ty) := by
  unfold Ctl.requestFrame
  split
  · exact Stays.same rfl
  · split
    · exact Stays.same rfl
    · exact Stays.requestHeader c _

theorem Stays.processHeader (c : Ctl) (id : Nat) : Stays c (c.processHeader id) := by
  unfold Ctl.processHeader
  split
  · exact Stays.same rfl
  · split
    · exact Stays.same rfl
    · split
      · exact Stays.same rfl
      · split
        · exact Stays.same rfl
        · exact Stays.andThen (Stays.same rfl) fun c => Stays.same rfl

theorem Stays.slaveConfigured {c c' : Ctl} (h : c'.pending = c.pending) : Stays c c'.slaveConfigured := by
  unfold Ctl.slaveConfigured
  split
  · exact fun _ => rfl
  · exact Stays.same h

theorem Stays.take (c : Ctl) (src : Nat) (m : Msg) : Stays c (c.take src m) := by
  cases m <;> simp only [Ctl.take]
  · exact Stays.same rfl
  · unfold Ctl.onHeader
    split
    · exact Stays.same rfl
    · exact Stays.processHeader c _
  · unfold Ctl.onTransmission
    split
    · exact Stays.same rfl
    · split
      · exact Stays.same rfl
      · split
        · exact Stays.same rfl
        · split
          · exact Stays.same rfl
          · refine Stays.andThen ?_ fun c => ?_
            · split <;> exact Stays.same rfl
            · unfold Ctl.sleepFrame
              split
              · split
                · exact Stays.same rfl
                · refine Stays.same ?_
                  split <;> rfl
                · exact Stays.same rfl
              · exact Stays.same rfl
  · exact Stays.same rfl
  · exact Stays.slaveConfigured rfl
  · exact Stays.slaveConfigured rfl
  · exact Stays.same rfl

theorem Stays.sendFrame (c : Ctl) (f : Frame) (ty : RespType) : Stays c (c.sendFrameInternal f ty) := by
  cases ty <;> simp only [Ctl.sendFrameInternal]
  · exact Stays.andThen (Stays.response c _) fun c => Stays.requestFrame c _ _
  · split
    · exact Stays.same rfl
    · unfold Ctl.sendFrameSlave
      split
      · exact Stays.same rfl
      · split
        · exact Stays.andThen (Stays.response c _) fun c => Stays.requestFrame c _ _
        · exact Stays.same rfl
        · exact Stays.requestFrame c _ _
  · split
    · exact Stays.same rfl
    · exact Stays.andThen (Stays.same rfl) fun c => Stays.requestFrame c _ _

theorem Stays.status {c c' : Ctl} (h : c'.pending = c.pending) (s : Status) : Stays c (c'.setStatus s) := Stays.same h

theorem Stays.apiAlive (c : Ctl) (a : Call) (ha : a ≠ .addHandler .slaveConfig) : Stays c (c.apiAlive a) := by
  have w : ∀ c : Ctl, Stays c c.wakeupInternal := by
    intro c; unfold Ctl.wakeupInternal; split <;> exact Stays.same rfl
  have g : ∀ c : Ctl, Stays c c.goToSleepInternal := by
    intro c; unfold Ctl.goToSleepInternal; split <;> exact Stays.same rfl
  cases a <;> simp only [Ctl.apiAlive]
  · unfold Ctl.init
    split
    · exact Stays.same rfl
    · split
      · exact Stays.same rfl
      · refine Stays.distribute ?_ _; rfl
  · unfold Ctl.initDynamic
    split
    · exact Stays.same rfl
    · split
      · exact Stays.same rfl
      · refine Stays.distribute ?_ _; rfl
  · unfold Ctl.sendDynamicResponse
    split
    · exact Stays.same rfl
    · exact Stays.andThen (Stays.response c _) fun c => Stays.processHeader c _
  · unfold Ctl.sendFrame
    split
    · exact Stays.same rfl
    · split
      · exact Stays.same rfl
      · split
        · exact Stays.same rfl
        · exact Stays.sendFrame c _ _
  · unfold Ctl.sendFrameHeader
    split
    · exact Stays.same rfl
    · split
      · exact Stays.same rfl
      · exact Stays.requestHeader c _
  · unfold Ctl.updateTxBuffer
    split
    · exact Stays.same rfl
    · split
      · exact Stays.same rfl
      · split
        · exact Stays.same rfl
        · split
          · exact Stays.same rfl
          · refine Stays.andThen (Stays.same rfl) fun c => ?_
            split <;> exact Stays.same rfl
  · unfold Ctl.setFrameResponse
    split
    · exact Stays.same rfl
    · split
      · exact Stays.same rfl
      · split
        · exact Stays.same rfl
        · split
          · exact Stays.same rfl
          · split
            · exact Stays.same rfl
            · exact Stays.response c _
  · unfold Ctl.goToSleep
    split
    · exact Stays.same rfl
    · split
      · exact Stays.same rfl
      · split
        · exact Stays.andThen (Stays.andThen (Stays.same rfl) fun c => Stays.same rfl) g
        · exact Stays.andThen (Stays.same rfl) fun c => Stays.same rfl
  · exact g c
  · unfold Ctl.wakeup
    split
    · exact Stays.same rfl
    · split
      · exact Stays.andThen (Stays.andThen (Stays.same rfl) fun c => Stays.same rfl) w
      · exact Stays.andThen (Stays.same rfl) w
  · exact w c
  · unfold Ctl.getSlaveConfiguration
    split <;> exact Stays.same rfl
  · rename_i k
    unfold Ctl.addHandler
    refine Stays.andThen (Stays.same rfl) fun c => ?_
    rw [if_neg (fun h => ha (by rw [h.1]))]
    exact Stays.same rfl
  · exact Stays.same rfl
  · rename_i x
    cases x <;> simp only [Ctl.onSim] <;> split <;> first | exact Stays.same rfl | exact Stays.take c _ _

theorem Stays.input (c : Ctl) (x : Input) (hx : x ≠ .call (.addHandler .slaveConfig)) : Stays c (c.input x) := by
  cases x with
  | call a =>
    simp only [Ctl.input, Ctl.api]
    split
    · exact Stays.same rfl
    · exact Stays.apiAlive c a (fun e => hx (by rw [e]))
  | recv src m =>
    simp only [Ctl.input, Ctl.receive]
    split
    · exact Stays.same rfl
    · split
      · exact Stays.same rfl
      · split
        · exact Stays.same rfl
        · exact Stays.take c _ _

theorem announce_eq {c : Ctl} {src : Nat} {m : Msg} (hd : c.dead = false) (hs : src ≠ c.self) (hm : m.notFromSelf = true) :
    ∃ c' : Ctl, c'.handlers = c.handlers ∧ c'.pending = c.pending ∧ c.input (.recv src m) = c'.slaveConfigured := by
  simp only [Ctl.input, Ctl.receive]
  rw [if_neg (by simp [hd]), if_neg (by cases m <;> simp [Msg.guarded, Msg.notFromSelf] at hm ⊢), if_neg (by simp [hs])]
  cases m <;> simp [Msg.notFromSelf] at hm
  · rename_i mode dyn rs
    exact ⟨Ctl.learn { c with nodes := updNode src (fun n => { n with mode := mode, status := .operational, isDynamic := dyn }) c.nodes } src rs, rfl, rfl, rfl⟩
  · rename_i rs
    exact ⟨c.learn src rs, rfl, rfl, rfl⟩

/-- Without a handler, an announcement is remembered. -/
theorem announced_pending {i : Nat} {net : String} (h : List Input) (hv : ∀ x ∈ h, Input.Valid i x)
    (hno : ∀ id mask, Handling.Out.added .slaveConfig id mask ∉ (solo i net h).2) (hx : ∃ src m, src ≠ i ∧ m.notFromSelf = true ∧ Input.recv src m ∈ h) :
    (solo i net h).1.pending = true := by
  rw [← List.reverse_reverse h] at hv hno hx ⊢
  generalize h.reverse = l at hv hno hx ⊢
  induction l with
  | nil => simp at hx
  | cons x t ih =>
    rw [List.reverse_cons] at hv hno hx ⊢
    rw [solo_append] at hno ⊢
    simp only [onInput, List.mem_append, not_or] at hno
    have hd := (solo_Q i net t.reverse (fun y hy => hv y (by simp [List.mem_reverse.1 hy]))).1
    have hself := (solo_good i net t.reverse).1
    have hent := (solo_good i net t.reverse).2.2.2.ent .slaveConfig
    show ((solo i net t.reverse).1.input x).1.pending = true
    by_cases hxx : x = .call (.addHandler .slaveConfig)
    · subst hxx
      refine absurd ?_ (hno ((solo i net t.reverse).1.handlers .slaveConfig).next 0).2
      simp only [Ctl.input, Ctl.api]
      rw [if_neg (by simp [hd])]
      simp [Ctl.apiAlive, Ctl.addHandler, R.andThen, Handling.add]
    · by_cases hl : ∃ src m, src ≠ i ∧ m.notFromSelf = true ∧ Input.recv src m ∈ t.reverse
      · exact Stays.input _ x hxx (ih (fun y hy => hv y (List.mem_append_left _ hy)) (fun id mask => (hno id mask).1) hl)
      · obtain ⟨src, m, h1, h2, h3⟩ := hx
        rw [List.mem_append] at h3
        rcases h3 with h3 | h3
        · exact absurd ⟨src, m, h1, h2, h3⟩ hl
        · rw [List.mem_singleton] at h3
          subst h3
          obtain ⟨c', e1, _, e3⟩ := announce_eq hd (by rw [hself]; exact h1) h2
          rw [e3, Ctl.slaveConfigured, e1, if_pos]
          cases e : ((solo i net t.reverse).1.handlers .slaveConfig).entries with
          | nil => rfl
          | cons y _ => exact absurd (hent y (by rw [e]; simp)) (hno _ _).1

end SilKit.Lin
