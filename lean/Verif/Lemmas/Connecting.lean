import Verif.Spec.Connecting
/-! # Lemmas for C68 -/
namespace SilKit.Connecting
open Spec

/-- How much can still follow from a message: in the queue to the registry, to B, back to the registry, to A, and on the connections. -/
def wUp : Msg → Nat
  | .request => 11
  | .announce => 4
  | _ => 2

def wToB : Msg → Nat
  | .request => 10
  | .announce => 3
  | _ => 1

def wBack : Msg → Nat
  | .failed => 6
  | _ => 2

def wDown : Msg → Nat
  | .failed => 5
  | _ => 1

def wRemoteA : Msg → Nat
  | .remoteAnnouncement => 3
  | _ => 1

def sum (w : Msg → Nat) (l : List Msg) : Nat := (l.map w).sum

theorem sum_nil (w : Msg → Nat) : sum w [] = 0 := rfl
theorem sum_cons (w : Msg → Nat) (m : Msg) (l : List Msg) : sum w (m :: l) = w m + sum w l := by simp [sum]
theorem sum_snoc (w : Msg → Nat) (m : Msg) (l : List Msg) : sum w (l ++ [m]) = sum w l + w m := by simp [sum]

def measure (s : State) : Nat :=
  (if s.stage = .direct then 17 else 0) + (if s.armed = true then 5 else 0) + sum wUp s.up + sum wToB s.toB + sum wBack s.back + sum wDown s.down
    + 2 * s.directB.length + s.directA.length + 2 * s.remoteB.length + sum wRemoteA s.remoteA + 7 * s.trying + (if s.gone = true then 0 else 1)

theorem wBack_wDown (m : Msg) : wDown m < wBack m := by cases m <;> decide
theorem wUp_wToB (m : Msg) : wToB m < wUp m := by cases m <;> decide
theorem wToB_pos (m : Msg) : 0 < wToB m := by cases m <;> decide
theorem wDown_pos (m : Msg) : 0 < wDown m := by cases m <;> decide

theorem tryProxy_measure (c : Setup) (s : State) (h : s.stage ≠ .direct) : measure (tryProxy c s).1 ≤ measure s + 4 := by
  unfold tryProxy
  split
  · simp [measure, h]
  · split
    · simp [measure, h]
    · split
      · simp [measure, h]
      · simp [measure, h, sum_snoc, wUp]; omega

theorem step_measure {c : Setup} {s s' : State} {e : Event} {o : List Out} (h : step c s e = some (s', o)) : measure s' < measure s := by
  unfold step at h
  cases e with
  | directOk =>
    dsimp only at h
    split at h
    · rename_i hc
      simp at hc
      cases h
      simp [measure, hc.1]; omega
    · cases h
  | directFailed =>
    dsimp only at h
    split at h
    · rename_i hc
      simp at hc
      have e1 := Option.some.inj h
      have e2 : s' = (onFailure c s).1 := by rw [e1]
      subst e2
      unfold onFailure
      split
      · simp [measure, hc.1, sum_snoc, wUp]
        split <;> omega
      · unfold tryProxy
        split
        · simp [measure, hc.1]
        · split
          · simp [measure, hc.1]
          · split
            · simp [measure, hc.1]
            · simp [measure, hc.1, sum_snoc, wUp]; omega
    · cases h
  | timer =>
    dsimp only at h
    split at h
    · rename_i hc
      simp at hc
      split at h
      · rename_i hs
        have e1 := Option.some.inj h
        have e2 : s' = (tryProxy c { s with armed := false }).1 := by rw [e1]
        subst e2
        have := tryProxy_measure c { s with armed := false } (by simp [hs])
        have h2 : measure { s with armed := false } + 5 = measure s := by simp [measure, hc.1]; omega
        omega
      · cases h
        simp [measure, hc.1]
    · cases h
  | up =>
    dsimp only at h
    split at h
    · cases h
    · rename_i m l hu
      cases h
      have := wUp_wToB m
      cases hr : relay c m <;> simp [measure, hu, sum_cons, sum_snoc] <;> omega
  | toB =>
    dsimp only at h
    split at h
    · cases h
    · rename_i m l hu
      split at h
      · cases h
      · have e1 := Option.some.inj h
        have e2 : s' = (atB c { s with toB := l } m).1 := by rw [e1]
        subst e2
        have := wToB_pos m
        cases m <;> simp only [atB] <;> (try split) <;> simp [measure, hu, sum_cons, sum_snoc, wToB, wBack] <;> omega
  | back =>
    dsimp only at h
    split at h
    · cases h
    · rename_i m l hu
      cases h
      have := wBack_wDown m
      cases hr : relay c m <;> simp [measure, hu, sum_cons, sum_snoc] <;> omega
  | down =>
    dsimp only at h
    split at h
    · cases h
    · rename_i m l hu
      split at h
      · cases h
      · have e1 := Option.some.inj h
        have e2 : s' = (atA c { s with down := l } m).1 := by rw [e1]
        subst e2
        have hm : measure { s with down := l } + wDown m = measure s := by simp only [measure, hu, sum_cons]; omega
        have hp := wDown_pos m
        cases m with
        | failed =>
          simp only [atA]
          split
          · rename_i hs
            have := tryProxy_measure c { s with down := l } (by intro h; have h : s.stage = .direct := h; rw [h] at hs; simp at hs)
            have : wDown .failed = 5 := rfl
            omega
          · simpa using (by omega : measure { s with down := l } < measure s)
        | connecting =>
          simp only [atA]
          split
          · rename_i hs
            have hs : s.stage = .requested := hs
            have : measure { s with down := l, stage := .remoteConnecting } = measure { s with down := l } := by simp [measure, hs]
            rw [this]; omega
          · simpa using (by omega : measure { s with down := l } < measure s)
        | reply =>
          simp only [atA, onReply]
          split
          · split
            · rename_i hs
              have hs : s.stage = .waiting := hs
              have : measure { s with down := l, stage := .replied } = measure { s with down := l } := by simp [measure, hs]
              rw [this]; omega
            · simpa using (by omega : measure { s with down := l } < measure s)
          · simpa using (by omega : measure { s with down := l } < measure s)
        | _ => simp only [atA]; omega
  | directB =>
    dsimp only at h
    split at h
    · rename_i l hu
      split at h
      · cases h
      · cases h
        simp [measure, hu]; omega
    · cases h
  | directA =>
    dsimp only at h
    split at h
    · rename_i l hu
      split at h
      · cases h
      · have e1 := Option.some.inj h
        have e2 : s' = (onReply { s with directA := l }).1 := by rw [e1]
        subst e2
        unfold onReply
        split
        · rename_i hs
          have hs : s.stage = .waiting := hs
          simp [measure, hu, hs]
        · simp [measure, hu]
    · cases h
  | remoteB =>
    dsimp only at h
    split at h
    · rename_i l hu
      split at h
      · cases h
      · cases h
        simp [measure, hu, sum_snoc, wRemoteA]; omega
    · cases h
  | remoteA =>
    dsimp only at h
    split at h
    · cases h
    · rename_i m l hu
      split at h
      · cases h
      · have e1 := Option.some.inj h
        have e2 : s' = (atRemoteA { s with remoteA := l } m).1 := by rw [e1]
        subst e2
        have hst : ∀ st : Stage, (if st = .requested ∨ st = .remoteConnecting then Stage.waiting else st) = .direct ↔ st = .direct := by
          intro st; cases st <;> decide
        cases m with
        | remoteAnnouncement => simp [atRemoteA, measure, hu, sum_cons, wRemoteA, hst]; omega
        | reply =>
          simp only [atRemoteA, onReply]
          split
          · rename_i hs
            have hs : s.stage = .waiting := hs
            simp [measure, hu, hs, sum_cons, wRemoteA]
          · simp [measure, hu, sum_cons, wRemoteA]
        | _ =>
          show measure { s with remoteA := l } < measure s
          simp only [measure, hu, sum_cons, wRemoteA]; omega
  | remoteOk =>
    dsimp only at h
    split at h
    · cases h
      simp [measure, sum_snoc, wRemoteA]; omega
    · cases h
  | remoteFailed =>
    dsimp only at h
    split at h
    · cases h
      simp [measure, sum_snoc, wBack]; omega
    · cases h
  | crash =>
    dsimp only at h
    split at h
    · cases h
    · rename_i hg
      cases h
      simp [measure, hg]

theorem run_measure {c : Setup} : ∀ (es : List Event) {s s' : State} {o : List Out}, run c s es = some (s', o) → es.length + measure s' ≤ measure s
  | [], _, _, _, h => by cases h; simp
  | e :: es, s, s', o, h => by
    unfold run at h
    split at h
    · cases h
    · rename_i s1 o1 hs
      split at h
      · cases h
      · rename_i s2 o2 hr
        cases h
        have := step_measure hs
        have := run_measure es hr
        simp only [List.length_cons]; omega

/-- Something from which A learns how the attempt of B has ended. -/
def remoteUnderWay (s : State) : Prop := 0 < s.trying ∨ .failed ∈ s.back ∨ .failed ∈ s.down ∨ .remoteAnnouncement ∈ s.remoteA

/-- An announcement of A or the reply to it. -/
def announceUnderWay (s : State) : Prop :=
  .announce ∈ s.up ∨ .announce ∈ s.toB ∨ .reply ∈ s.back ∨ .reply ∈ s.down ∨ .announce ∈ s.directB ∨ .reply ∈ s.directA ∨ .announce ∈ s.remoteB
    ∨ .reply ∈ s.remoteA

structure Inv (c : Setup) (s : State) : Prop where
  dB : ∀ m ∈ s.directB, m = .announce
  dA : ∀ m ∈ s.directA, m = .reply
  rB : ∀ m ∈ s.remoteB, m = .announce
  rA : ∀ m ∈ s.remoteA, m = .remoteAnnouncement ∨ m = .reply
  up : ∀ m ∈ s.up, (m = .request ∧ mayAsk c) ∨ (m = .announce ∧ mayRelay c)
  toB : ∀ m ∈ s.toB, (m = .request ∧ mayAsk c ∧ c.r.request = true) ∨ (m = .announce ∧ mayRelay c ∧ c.r.proxy = true)
  back : ∀ m ∈ s.back, ((m = .connecting ∨ m = .failed) ∧ mayAsk c ∧ c.r.request = true) ∨ (m = .reply ∧ mayRelay c ∧ c.r.proxy = true)
  down : ∀ m ∈ s.down, ((m = .connecting ∨ m = .failed) ∧ mayAsk c ∧ c.r.request = true) ∨ (m = .reply ∧ mayRelay c ∧ c.r.proxy = true)
  tr : 0 < s.trying → mayAsk c ∧ c.r.request = true
  armed : s.stage = .requested → s.armed = true
  brk : c.parses = true → s.broken = false
  tell : s.stage = .requested → .connecting ∈ s.back ∨ .connecting ∈ s.down → remoteUnderWay s
  tells : s.stage = .remoteConnecting → remoteUnderWay s
  ann : s.stage = .waiting → s.broken = false → c.r.proxy = true → announceUnderWay s
  fail : s.stage = .failure → ¬ mayRelay c
  fresh : s.stage = .direct → s.up = [] ∧ s.toB = [] ∧ s.back = [] ∧ s.down = [] ∧ s.directB = [] ∧ s.directA = [] ∧ s.remoteB = [] ∧ s.remoteA = []
    ∧ s.trying = 0 ∧ s.armed = false

theorem Inv.init (c : Setup) : Inv c {} := by
  constructor <;> simp

theorem Inv.tryProxy {c : Setup} {s : State} (i : Inv c s) : Inv c (tryProxy c s).1 := by
  obtain ⟨h1, h2, h3, h4, h5, h6, h7, h8, h9, h10, h11, h12, h13, h14, h15, h16⟩ := i
  unfold Connecting.tryProxy
  split
  · constructor <;> grind [remoteUnderWay, announceUnderWay, mayRelay, mayAsk]
  · split
    · constructor <;> grind [remoteUnderWay, announceUnderWay, mayRelay, mayAsk]
    · split
      · constructor <;> grind [remoteUnderWay, announceUnderWay, mayRelay, mayAsk]
      · constructor <;> grind [remoteUnderWay, announceUnderWay, mayRelay, mayAsk]

set_option maxHeartbeats 2000000 in
theorem Inv.step {c : Setup} {s s' : State} {e : Event} {o : List Out} (i : Inv c s) (h : step c s e = some (s', o)) : Inv c s' := by
  unfold Connecting.step at h
  cases e with
  | directOk =>
    dsimp only at h
    split at h
    · cases h
      obtain ⟨h1, h2, h3, h4, h5, h6, h7, h8, h9, h10, h11, h12, h13, h14, h15, h16⟩ := i
      constructor <;> grind [remoteUnderWay, announceUnderWay, mayRelay, mayAsk]
    · cases h
  | directFailed =>
    dsimp only at h
    split at h
    · rename_i hc
      simp at hc
      have e1 := Option.some.inj h
      have e2 : s' = (onFailure c s).1 := by rw [e1]
      subst e2
      unfold onFailure
      split
      · obtain ⟨h1, h2, h3, h4, h5, h6, h7, h8, h9, h10, h11, h12, h13, h14, h15, h16⟩ := i
        clear h e1
        constructor <;> grind [remoteUnderWay, announceUnderWay, mayRelay, mayAsk]
      · exact i.tryProxy
    · cases h
  | timer =>
    dsimp only at h
    split at h
    · split at h
      · rename_i hs
        have e1 := Option.some.inj h
        have e2 : s' = (Connecting.tryProxy c { s with armed := false }).1 := by rw [e1]
        subst e2
        clear h e1
        have e3 : (Connecting.tryProxy c { s with armed := false }).1 = { (Connecting.tryProxy c s).1 with armed := false } := by
          unfold Connecting.tryProxy
          split
          · rfl
          · split
            · rfl
            · split <;> rfl
        have e4 : (Connecting.tryProxy c s).1.stage = .failure ∨ (Connecting.tryProxy c s).1.stage = .waiting := by
          unfold Connecting.tryProxy
          split
          · exact Or.inl rfl
          · split
            · exact Or.inr rfl
            · split
              · exact Or.inl rfl
              · exact Or.inr rfl
        rw [e3]
        have j := i.tryProxy
        generalize (Connecting.tryProxy c s).1 = t at *
        exact { j with armed := by intro h; dsimp only at h; simp [h] at e4
                       fresh := by intro h; dsimp only at h; simp [h] at e4 }
      · rename_i hs
        cases h
        exact { i with armed := fun h => absurd h hs, fresh := fun h => by have := i.fresh h; simp [this] }
    · cases h
  | up =>
    dsimp only at h
    split at h
    · cases h
    · rename_i m l hu
      cases h
      obtain ⟨h1, h2, h3, h4, h5, h6, h7, h8, h9, h10, h11, h12, h13, h14, h15, h16⟩ := i
      have hm := h5 m (by rw [hu]; exact List.mem_cons_self)
      have hd : s.stage ≠ .direct := fun h => by have := h16 h; simp [hu] at this
      clear h16
      rcases hm with ⟨rfl, hm⟩ | ⟨rfl, hm⟩ <;> cases hr : relay c _ <;> simp only [relay] at hr <;> constructor <;>
        grind [remoteUnderWay, announceUnderWay, mayRelay, mayAsk]
  | toB =>
    dsimp only at h
    split at h
    · cases h
    · rename_i m l hu
      split at h
      · cases h
      · have e1 := Option.some.inj h
        have e2 : s' = (atB c { s with toB := l } m).1 := by rw [e1]
        subst e2
        clear h e1
        obtain ⟨h1, h2, h3, h4, h5, h6, h7, h8, h9, h10, h11, h12, h13, h14, h15, h16⟩ := i
        have hm := h6 m (by rw [hu]; exact List.mem_cons_self)
        have hd : s.stage ≠ .direct := fun h => by have := h16 h; simp [hu] at this
        clear h16
        rcases hm with ⟨rfl, hm⟩ | ⟨rfl, hm⟩
        · simp only [atB, hm.1.2.1]
          constructor <;> grind [remoteUnderWay, announceUnderWay, mayRelay, mayAsk]
        · simp only [atB, hm.1.2.1]
          constructor <;> grind [remoteUnderWay, announceUnderWay, mayRelay, mayAsk]
  | back =>
    dsimp only at h
    split at h
    · cases h
    · rename_i m l hu
      cases h
      obtain ⟨h1, h2, h3, h4, h5, h6, h7, h8, h9, h10, h11, h12, h13, h14, h15, h16⟩ := i
      have hm := h7 m (by rw [hu]; exact List.mem_cons_self)
      have hd : s.stage ≠ .direct := fun h => by have := h16 h; simp [hu] at this
      clear h16
      rcases hm with ⟨rfl | rfl, hm⟩ | ⟨rfl, hm⟩ <;> simp only [relay, hm.2] <;> constructor <;>
        grind [remoteUnderWay, announceUnderWay, mayRelay, mayAsk]
  | down =>
    dsimp only at h
    split at h
    · cases h
    · rename_i m l hu
      split at h
      · cases h
      · have e1 := Option.some.inj h
        have e2 : s' = (atA c { s with down := l } m).1 := by rw [e1]
        subst e2
        clear h e1
        have hd : s.stage ≠ .direct := fun h => by have := i.fresh h; simp [hu] at this
        rcases i.down m (by rw [hu]; exact List.mem_cons_self) with ⟨rfl | rfl, hm⟩ | ⟨rfl, hm⟩
        · obtain ⟨h1, h2, h3, h4, h5, h6, h7, h8, h9, h10, h11, h12, h13, h14, h15, h16⟩ := i
          clear h16
          simp only [atA]
          split <;> constructor <;> grind [remoteUnderWay, announceUnderWay, mayRelay, mayAsk]
        · simp only [atA]
          split
          · rename_i hs
            have hs : s.stage = .requested ∨ s.stage = .remoteConnecting := hs
            obtain ⟨h1, h2, h3, h4, h5, h6, h7, h8, h9, h10, h11, h12, h13, h14, h15, h16⟩ := i
            unfold Connecting.tryProxy
            split
            · constructor <;> grind [remoteUnderWay, announceUnderWay, mayRelay, mayAsk]
            · split
              · constructor <;> grind [remoteUnderWay, announceUnderWay, mayRelay, mayAsk]
              · split
                · constructor <;> grind [remoteUnderWay, announceUnderWay, mayRelay, mayAsk]
                · constructor <;> grind [remoteUnderWay, announceUnderWay, mayRelay, mayAsk]
          · obtain ⟨h1, h2, h3, h4, h5, h6, h7, h8, h9, h10, h11, h12, h13, h14, h15, h16⟩ := i
            constructor <;> grind [remoteUnderWay, announceUnderWay, mayRelay, mayAsk]
        · obtain ⟨h1, h2, h3, h4, h5, h6, h7, h8, h9, h10, h11, h12, h13, h14, h15, h16⟩ := i
          simp only [atA, hm.1.1, onReply]
          clear h16
          split <;> constructor <;> grind [remoteUnderWay, announceUnderWay, mayRelay, mayAsk]
  | directB =>
    dsimp only at h
    split at h
    · rename_i l hu
      split at h
      · cases h
      · cases h
        obtain ⟨h1, h2, h3, h4, h5, h6, h7, h8, h9, h10, h11, h12, h13, h14, h15, h16⟩ := i
        constructor <;> grind [remoteUnderWay, announceUnderWay, mayRelay, mayAsk]
    · cases h
  | directA =>
    dsimp only at h
    split at h
    · rename_i l hu
      split at h
      · cases h
      · have e1 := Option.some.inj h
        have e2 : s' = (onReply { s with directA := l }).1 := by rw [e1]
        subst e2
        clear h e1
        obtain ⟨h1, h2, h3, h4, h5, h6, h7, h8, h9, h10, h11, h12, h13, h14, h15, h16⟩ := i
        unfold onReply
        split <;> constructor <;> grind [remoteUnderWay, announceUnderWay, mayRelay, mayAsk]
    · cases h
  | remoteB =>
    dsimp only at h
    split at h
    · rename_i l hu
      split at h
      · cases h
      · cases h
        obtain ⟨h1, h2, h3, h4, h5, h6, h7, h8, h9, h10, h11, h12, h13, h14, h15, h16⟩ := i
        constructor <;> grind [remoteUnderWay, announceUnderWay, mayRelay, mayAsk]
    · cases h
  | remoteA =>
    dsimp only at h
    split at h
    · cases h
    · rename_i m l hu
      split at h
      · cases h
      · have e1 := Option.some.inj h
        have e2 : s' = (atRemoteA { s with remoteA := l } m).1 := by rw [e1]
        subst e2
        clear h e1
        obtain ⟨h1, h2, h3, h4, h5, h6, h7, h8, h9, h10, h11, h12, h13, h14, h15, h16⟩ := i
        cases m <;> simp only [atRemoteA, onReply] <;> (try split) <;> constructor <;>
          grind [remoteUnderWay, announceUnderWay, mayRelay, mayAsk]
  | remoteOk =>
    dsimp only at h
    split at h
    · cases h
      obtain ⟨h1, h2, h3, h4, h5, h6, h7, h8, h9, h10, h11, h12, h13, h14, h15, h16⟩ := i
      constructor <;> grind [remoteUnderWay, announceUnderWay, mayRelay, mayAsk]
    · cases h
  | remoteFailed =>
    dsimp only at h
    split at h
    · cases h
      obtain ⟨h1, h2, h3, h4, h5, h6, h7, h8, h9, h10, h11, h12, h13, h14, h15, h16⟩ := i
      constructor <;> grind [remoteUnderWay, announceUnderWay, mayRelay, mayAsk]
    · cases h
  | crash =>
    dsimp only at h
    split at h
    · cases h
    · cases h
      exact { i with }

theorem Inv.run {c : Setup} : ∀ (es : List Event) {s s' : State} {o : List Out}, Inv c s → run c s es = some (s', o) → Inv c s'
  | [], _, _, _, i, h => by cases h; exact i
  | e :: es, s, s', o, i, h => by
    unfold Connecting.run at h
    split at h
    · cases h
    · rename_i s1 o1 hs
      split at h
      · cases h
      · rename_i s2 o2 hr
        cases h
        exact Inv.run es (i.step hs) hr

/-- As long as B lives and the registry relays, A is never stuck before it knows the end. -/
theorem Inv.last {c : Setup} {s : State} (i : Inv c s) (hb : s.broken = false) (hg : s.gone = false) (hr : c.r.proxy = true)
    (h : ∀ e, e ≠ .crash → Connecting.step c s e = none) : s.stage = .replied ∨ s.stage = .failure := by
  have hback : s.back = [] := by
    have := h .back (by decide)
    unfold Connecting.step at this
    dsimp only at this
    split at this
    · assumption
    · cases this
  have hup : s.up = [] := by
    have := h .up (by decide)
    unfold Connecting.step at this
    dsimp only at this
    split at this
    · assumption
    · cases this
  have hdown : s.down = [] := by
    have := h .down (by decide)
    unfold Connecting.step at this
    dsimp only at this
    split at this
    · assumption
    · rw [hb] at this; cases this
  have hto : s.toB = [] := by
    have := h .toB (by decide)
    unfold Connecting.step at this
    dsimp only at this
    split at this
    · assumption
    · rw [hg] at this; cases this
  have hrA : s.remoteA = [] := by
    have := h .remoteA (by decide)
    unfold Connecting.step at this
    dsimp only at this
    split at this
    · assumption
    · rw [hb] at this; cases this
  have hrB : s.remoteB = [] := by
    have := h .remoteB (by decide)
    cases hq : s.remoteB with
    | nil => rfl
    | cons m l =>
      have hm := i.rB m (by rw [hq]; exact List.mem_cons_self)
      subst hm
      simp [Connecting.step, hq, hg] at this
  have hdB : s.directB = [] := by
    have := h .directB (by decide)
    cases hq : s.directB with
    | nil => rfl
    | cons m l =>
      have hm := i.dB m (by rw [hq]; exact List.mem_cons_self)
      subst hm
      simp [Connecting.step, hq, hg] at this
  have hdA : s.directA = [] := by
    have := h .directA (by decide)
    cases hq : s.directA with
    | nil => rfl
    | cons m l =>
      have hm := i.dA m (by rw [hq]; exact List.mem_cons_self)
      subst hm
      simp [Connecting.step, hq, hb] at this
  have htr : s.trying = 0 := by
    have := h .remoteOk (by decide)
    simp [Connecting.step, hg] at this
    exact this
  cases hs : s.stage with
  | direct =>
    have := h .directOk (by decide)
    simp [Connecting.step, hs, hb] at this
  | requested =>
    have := h .timer (by decide)
    simp [Connecting.step, hs, hb, i.armed hs] at this
  | remoteConnecting =>
    have := i.tells hs
    simp [remoteUnderWay, htr, hback, hdown, hrA] at this
  | waiting =>
    have := i.ann hs hb hr
    simp [announceUnderWay, hup, hto, hback, hdown, hdB, hdA, hrB, hrA] at this
  | replied => exact Or.inl rfl
  | failure => exact Or.inr rfl

end SilKit.Connecting
