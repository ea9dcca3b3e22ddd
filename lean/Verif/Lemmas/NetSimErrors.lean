import Verif.Lemmas.NetSim
/-!
# Lemmas on the errors of network simulators (C51)
-/
namespace SilKit.NetSim
open SilKit.NetSim.Spec

/-- What the simulator holds comes from the operations so far. -/
def Held (name : String) (done : List Op) (s : Sim) : Prop :=
  s.name = name ∧ (∀ k, (s.net? k).isSome → Op.simulate k ∈ done) ∧ ∀ svc ∈ s.known, Op.created svc ∈ done

theorem Held.frame {name : String} {done : List Op} {s s' : Sim} (h : Held name done s) (f : Frame s s') : Held name done s' :=
  ⟨f.1.trans h.1, fun k hk => h.2.1 k (by rw [← f.2.2.2.2.2 k]; exact hk), fun svc hs => h.2.2 svc (by rw [← f.2.2.2.1]; exact hs)⟩

theorem Held.mono {name : String} {done : List Op} {s : Sim} (h : Held name done s) (o : Op) : Held name (done ++ [o]) s :=
  ⟨h.1, fun k hk => List.mem_append_left _ (h.2.1 k hk), fun svc hs => List.mem_append_left _ (h.2.2 svc hs)⟩

theorem handleCreated_error {user : Key → Nat → Option Nat} {s : Sim} {svc : Service} (h : Out.error ∈ (s.handleCreated user svc).2) :
    svc.kind = .link ∧ svc.participant ≠ s.name ∧ (s.net? svc.net).isSome := by
  unfold Sim.handleCreated at h
  split at h
  · rename_i hk
    split at h
    · rename_i hc; exact ⟨hk, hc.1, hc.2⟩
    · cases h
  · cases h
  · exfalso
    simp only [List.mem_append] at h
    rcases h with h | h
    · unfold Sim.networkDiscovered at h
      dsimp only at h
      split at h
      · cases h
      · split at h
        · split at h <;> simp at h
        · cases h
    · unfold Sim.controllerDiscovered at h
      dsimp only at h
      split at h <;> simp at h

theorem handleRemoved_error {s : Sim} {svc : Service} (h : Out.error ∈ (s.handleRemoved svc).2) :
    svc.kind = .link ∧ svc.participant ≠ s.name ∧ (s.net? svc.net).isSome := by
  unfold Sim.handleRemoved at h
  split at h
  · rename_i hk
    split at h
    · rename_i hc; exact ⟨hk, hc.1, hc.2⟩
    · cases h
  · cases h
  · exfalso
    unfold Sim.controllerRemoved at h
    split at h
    · simp only [Net.remove] at h
      split at h <;> simp at h
    · cases h

/-- Another participant's link on a simulated network. -/
def Foreign (name : String) (os : List Op) : Prop :=
  ∃ svc, svc.kind = .link ∧ svc.participant ≠ name ∧ Op.simulate svc.net ∈ os ∧ (Op.created svc ∈ os ∨ Op.removed svc ∈ os)

theorem register_held {user : Key → Nat → Option Nat} {name : String} {done : List Op} (l : List Service) {s : Sim} (h : Held name done s)
    (hl : ∀ svc ∈ l, Op.created svc ∈ done) :
    Held name done (Sim.register user l s).1 ∧ (Out.error ∈ (Sim.register user l s).2 → Foreign name done) := by
  induction l generalizing s with
  | nil => exact ⟨h, fun he => by cases he⟩
  | cons svc l ih =>
    have h1 := h.frame (frame_handleCreated user s svc)
    have he : Out.error ∈ (s.handleCreated user svc).2 → Foreign name done := fun he => by
      obtain ⟨a, b, c⟩ := handleCreated_error he
      exact ⟨svc, a, by rw [← h.1]; exact b, h.2.1 _ c, .inl (hl svc (by simp))⟩
    unfold Sim.register
    dsimp only
    split
    · exact ⟨h1, he⟩
    · rename_i hn
      have := ih h1 (fun x hx => hl x (List.mem_cons_of_mem _ hx))
      refine ⟨this.1, fun hm => ?_⟩
      rcases List.mem_append.1 hm with hm | hm
      · exact absurd hm hn
      · exact this.2 hm

theorem step_held {user : Key → Nat → Option Nat} {name : String} {done : List Op} {s s' : Sim} {o : Op} {outs : List Out} (h : Held name done s)
    (hs : s.step user o = .ok (s', outs)) :
    Held name (done ++ [o]) s' ∧ (Out.error ∈ outs → (∃ k, 2 ≤ (done ++ [o]).count (.simulate k)) ∨ Foreign name (done ++ [o])) := by
  cases o with
  | simulate k =>
    simp only [Sim.step, Res.ok.injEq] at hs
    unfold Sim.simulate at hs
    split at hs
    · cases hs; exact ⟨h.mono _, fun he => by cases he⟩
    · cases hn : s.net? k with
      | some n =>
        rw [hn] at hs; cases hs
        refine ⟨h.mono _, fun _ => .inl ⟨k, ?_⟩⟩
        have : Op.simulate k ∈ done := h.2.1 k (by rw [hn]; rfl)
        have := List.count_pos_iff.2 this
        rw [List.count_append, List.count_singleton_self]; omega
      | none =>
        rw [hn] at hs; cases hs
        refine ⟨⟨h.1, fun k' hk => ?_, (h.mono (.simulate k)).2.2⟩, fun he => by cases he⟩
        by_cases e : k = k'
        · subst e; simp
        · refine List.mem_append_left _ (h.2.1 k' ?_)
          simpa [Sim.net?, List.find?_append, e] using hk
  | start =>
    simp only [Sim.step, Res.ok.injEq] at hs
    unfold Sim.start at hs
    split at hs
    · cases hs; exact ⟨h.mono _, fun he => by cases he⟩
    · have h' : Held name (done ++ [.start]) { s with started := true } := h.mono _
      have := register_held (user := user) s.known h' h'.2.2
      rw [hs] at this
      exact ⟨this.1, fun he => .inr (this.2 he)⟩
  | created svc =>
    simp only [Sim.step, Res.ok.injEq] at hs
    have h' : Held name (done ++ [.created svc]) { s with known := s.known ++ [svc] } :=
      ⟨h.1, (h.mono _).2.1, fun x hx => by
        rcases List.mem_append.1 hx with hx | hx
        · exact List.mem_append_left _ (h.2.2 x hx)
        · simp only [List.mem_singleton] at hx; subst hx; simp⟩
    unfold Sim.created at hs
    dsimp only at hs
    split at hs
    · have f := h'.frame (frame_handleCreated user _ svc)
      have e := fun he => handleCreated_error (user := user) (s := { s with known := s.known ++ [svc] }) (svc := svc) he
      rw [hs] at f e
      refine ⟨f, fun he => .inr ?_⟩
      obtain ⟨a, b, c⟩ := e he
      exact ⟨svc, a, by rw [← h'.1]; exact b, h'.2.1 _ c, .inl (by simp)⟩
    · cases hs; exact ⟨h', fun he => by cases he⟩
  | removed svc =>
    simp only [Sim.step, Res.ok.injEq] at hs
    have h' : Held name (done ++ [.removed svc]) { s with known := s.known.erase svc } :=
      ⟨h.1, (h.mono _).2.1, fun x hx => List.mem_append_left _ (h.2.2 x (List.mem_of_mem_erase hx))⟩
    unfold Sim.removed at hs
    dsimp only at hs
    split at hs
    · have f := h'.frame (frame_handleRemoved _ svc)
      have e := fun he => handleRemoved_error (s := { s with known := s.known.erase svc }) (svc := svc) he
      rw [hs] at f e
      refine ⟨f, fun he => .inr ?_⟩
      obtain ⟨a, b, c⟩ := e he
      exact ⟨svc, a, by rw [← h'.1]; exact b, h'.2.1 _ c, .inr (by simp)⟩
    · cases hs; exact ⟨h', fun he => by cases he⟩
  | receive k p i b m =>
    simp only [Sim.step] at hs
    unfold Sim.receive at hs
    split at hs
    · cases hs
    · split at hs
      · cases hs
        refine ⟨h.mono _, fun he => ?_⟩
        simp only [Net.receive] at he
        split at he
        · cases he
        · split at he <;> simp at he
      · cases hs; exact ⟨h.mono _, fun he => by cases he⟩
  | produce k m rs =>
    simp only [Sim.step, Res.ok.injEq] at hs
    unfold Sim.produce at hs
    split at hs
    · split at hs
      · cases hs
        refine ⟨h.mono _, fun he => ?_⟩
        simp only [Net.send, List.mem_flatMap] at he
        obtain ⟨d, -, hd⟩ := he
        unfold Net.sendTo at hd
        split at hd <;> simp at hd
      · cases hs; exact ⟨h.mono _, fun he => by cases he⟩
    · cases hs; exact ⟨h.mono _, fun he => by cases he⟩

theorem run_held {user : Key → Nat → Option Nat} {name : String} (os : List Op) {done : List Op} {s s' : Sim} {outs : List Out} (h : Held name done s)
    (hr : Sim.run user os s = .ok (s', outs)) (he : Out.error ∈ outs) :
    (∃ k, 2 ≤ (done ++ os).count (.simulate k)) ∨ Foreign name (done ++ os) := by
  induction os generalizing done s outs with
  | nil => cases hr; cases he
  | cons o os ih =>
    simp only [Sim.run] at hr
    cases h1 : s.step user o with
    | ok r =>
      rw [h1] at hr
      simp only [Res.bind] at hr
      cases h2 : Sim.run user os r.1 with
      | ok r' =>
        rw [h2] at hr
        cases hr
        have hh := step_held h h1
        rcases List.mem_append.1 he with he | he
        · rw [show done ++ o :: os = (done ++ [o]) ++ os by simp]
          rcases hh.2 he with ⟨k, hk⟩ | ⟨svc, a, b, c, d⟩
          · exact .inl ⟨k, by rw [List.count_append]; omega⟩
          · exact .inr ⟨svc, a, b, List.mem_append_left _ c, d.elim (fun d => .inl (List.mem_append_left _ d)) (fun d => .inr (List.mem_append_left _ d))⟩
        · have := ih hh.1 h2 he
          simpa using this
      | _ => rw [h2] at hr; cases hr
    | _ => rw [h1] at hr; cases hr

end SilKit.NetSim
