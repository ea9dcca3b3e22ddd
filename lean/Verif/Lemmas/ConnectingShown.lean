import Verif.Lemmas.Connecting
/-! # Lemmas for C68: what is shown -/
namespace SilKit.Connecting
open Spec

/-- What has been shown so far, and what can still follow. -/
structure Shown (c : Setup) (es : List Event) (s : State) (o : List Out) : Prop where
  con : o.count .connected = if s.stage = .replied then 1 else 0
  gave : o.count .gaveUp = if s.stage = .failure then 1 else 0
  ask : .asked ∈ o → mayAsk c
  relayed : .announced .proxy ∈ o → mayRelay c
  crashed : .crashed ∈ o ↔ s.broken = true
  failed : s.stage = .requested ∨ s.stage = .remoteConnecting ∨ s.stage = .failure → .directFailed ∈ es
  told : .failed ∈ s.back ∨ .failed ∈ s.down → .remoteFailed ∈ es
  why : s.stage = .failure → mayAsk c → .timer ∈ es ∨ .remoteFailed ∈ es
  atUp : .announce ∈ s.up ∨ .announce ∈ s.toB → .announced .proxy ∈ o
  atDirect : .announce ∈ s.directB → .announced .direct ∈ o
  atRemote : .announce ∈ s.remoteB → .announced .remote ∈ o
  joined : ∀ w, .joined w ∈ o → .announced w ∈ o

theorem Shown.init (c : Setup) : Shown c [] {} [] := by
  constructor <;> simp

set_option maxHeartbeats 4000000 in
theorem Shown.step {c : Setup} {es : List Event} {s s' : State} {e : Event} {o o' : List Out} (i : Inv c s) (k : Shown c es s o)
    (h : step c s e = some (s', o')) : Shown c (es ++ [e]) s' (o ++ o') := by
  obtain ⟨k1, k2, k3, k4, k5, k6, k7, k8, k9, k10, k11, k12⟩ := k
  have u := i.up
  have b := i.toB
  have bk := i.back
  have dn := i.down
  have f := i.fresh
  clear i
  unfold Connecting.step at h
  cases e with
  | directOk =>
    dsimp only at h
    split at h
    · cases h
      constructor <;> grind
    · cases h
  | directFailed =>
    dsimp only at h
    split at h
    · unfold onFailure tryProxy at h
      split at h
      · cases h
        constructor <;> grind [mayRelay, mayAsk]
      · split at h
        · cases h
          constructor <;> grind [mayRelay, mayAsk]
        · split at h
          · cases h
            constructor <;> grind [mayRelay, mayAsk]
          · split at h
            · cases h
              constructor <;> grind [mayRelay, mayAsk]
            · cases h
              constructor <;> grind [mayRelay, mayAsk]
    · cases h
  | timer =>
    dsimp only at h
    split at h
    · split at h
      · unfold tryProxy at h
        split at h
        · cases h
          constructor <;> grind [mayRelay, mayAsk]
        · split at h
          · cases h
            constructor <;> grind [mayRelay, mayAsk]
          · split at h
            · cases h
              constructor <;> grind [mayRelay, mayAsk]
            · cases h
              constructor <;> grind [mayRelay, mayAsk]
      · cases h
        constructor <;> grind
    · cases h
  | up =>
    dsimp only at h
    split at h
    · cases h
    · rename_i m l hu
      cases h
      constructor <;> grind
  | toB =>
    dsimp only at h
    split at h
    · cases h
    · rename_i m l hu
      split at h
      · cases h
      · cases m <;> simp only [atB] at h <;> (try split at h) <;> cases h <;> constructor <;> grind
  | back =>
    dsimp only at h
    split at h
    · cases h
    · rename_i m l hu
      cases h
      constructor <;> grind
  | down =>
    dsimp only at h
    split at h
    · cases h
    · rename_i m l hu
      split at h
      · cases h
      · cases m with
        | failed =>
          simp only [atA] at h
          split at h
          · rename_i hs
            have hs : s.stage = .requested ∨ s.stage = .remoteConnecting := hs
            have hf : .remoteFailed ∈ es := k7 (Or.inr (by simp [hu]))
            unfold tryProxy at h
            split at h
            · cases h
              constructor <;> grind [mayRelay, mayAsk]
            · split at h
              · cases h
                constructor <;> grind [mayRelay, mayAsk]
              · split at h
                · cases h
                  constructor <;> grind [mayRelay, mayAsk]
                · cases h
                  constructor <;> grind [mayRelay, mayAsk]
          · cases h
            constructor <;> grind
        | connecting =>
          simp only [atA] at h
          split at h <;> cases h <;> constructor <;> grind
        | reply =>
          simp only [atA, onReply] at h
          split at h
          · split at h <;> cases h <;> constructor <;> grind
          · cases h
            constructor <;> grind
        | _ =>
          cases h
          constructor <;> grind
  | directB =>
    dsimp only at h
    split at h
    · split at h
      · cases h
      · cases h
        constructor <;> grind
    · cases h
  | directA =>
    dsimp only at h
    split at h
    · split at h
      · cases h
      · unfold onReply at h
        split at h <;> cases h <;> constructor <;> grind
    · cases h
  | remoteB =>
    dsimp only at h
    split at h
    · split at h
      · cases h
      · cases h
        constructor <;> grind
    · cases h
  | remoteA =>
    dsimp only at h
    split at h
    · cases h
    · rename_i m l hu
      split at h
      · cases h
      · cases m <;> simp only [atRemoteA, onReply] at h <;> (try split at h) <;> cases h <;> constructor <;> grind
  | remoteOk =>
    dsimp only at h
    split at h
    · cases h
      constructor <;> grind
    · cases h
  | remoteFailed =>
    dsimp only at h
    split at h
    · cases h
      constructor <;> grind
    · cases h
  | crash =>
    dsimp only at h
    split at h
    · cases h
    · cases h
      constructor <;> grind

theorem Shown.run {c : Setup} : ∀ (es : List Event) {es0 : List Event} {s s' : State} {o0 o : List Out}, Inv c s → Shown c es0 s o0 →
    run c s es = some (s', o) → Shown c (es0 ++ es) s' (o0 ++ o)
  | [], _, _, _, _, _, _, k, h => by cases h; simpa using k
  | e :: es, es0, s, s', o0, o, i, k, h => by
    unfold Connecting.run at h
    split at h
    · cases h
    · rename_i s1 o1 hs
      split at h
      · cases h
      · rename_i s2 o2 hr
        cases h
        have := Shown.run es (i.step hs) (k.step i hs) hr
        simpa using this

/-- Once A waits for an attempt of B that will not end, since B is gone, nothing happens any more. -/
structure Lost (s : State) : Prop where
  stage : s.stage = .remoteConnecting
  gone : s.gone = true
  back : .failed ∉ s.back
  down : .failed ∉ s.down
  remoteA : .remoteAnnouncement ∉ s.remoteA

set_option maxHeartbeats 2000000 in
theorem Lost.step {c : Setup} {s s' : State} {e : Event} {o : List Out} (k : Lost s) (h : step c s e = some (s', o)) :
    Lost s' ∧ .connected ∉ o ∧ .gaveUp ∉ o ∧ ∀ w, .announced w ∉ o := by
  obtain ⟨k1, k2, k3, k4, k5⟩ := k
  unfold Connecting.step at h
  cases e <;> dsimp only at h
  case up =>
    split at h
    · cases h
    · cases h
      exact ⟨by constructor <;> grind, by grind⟩
  case back =>
    split at h
    · cases h
    · cases h
      exact ⟨by constructor <;> grind, by grind⟩
  case down =>
    split at h
    · cases h
    · rename_i m l hu
      split at h
      · cases h
      · have hm : m ≠ .failed := by intro h; simp [hu, h] at k4
        cases m with
        | failed => exact absurd rfl hm
        | connecting => simp [atA, k1] at h; obtain ⟨rfl, rfl⟩ := h; exact ⟨by constructor <;> grind, by grind⟩
        | reply => simp [atA, onReply, k1] at h; obtain ⟨rfl, rfl⟩ := h; exact ⟨by constructor <;> grind, by grind⟩
        | _ => cases h; exact ⟨by constructor <;> grind, by grind⟩
  case remoteA =>
    split at h
    · cases h
    · rename_i m l hu
      split at h
      · cases h
      · have hm : m ≠ .remoteAnnouncement := by intro h; simp [hu, h] at k5
        cases m with
        | remoteAnnouncement => exact absurd rfl hm
        | reply => simp [atRemoteA, onReply, k1] at h; obtain ⟨rfl, rfl⟩ := h; exact ⟨by constructor <;> grind, by grind⟩
        | _ => cases h; exact ⟨by constructor <;> grind, by grind⟩
  case directA =>
    split at h
    · split at h
      · cases h
      · simp [onReply, k1] at h
        obtain ⟨rfl, rfl⟩ := h
        exact ⟨by constructor <;> grind, by grind⟩
    · cases h
  all_goals grind [Lost]

theorem Lost.run {c : Setup} : ∀ (es : List Event) {s s' : State} {o : List Out}, Lost s → run c s es = some (s', o) →
    .connected ∉ o ∧ .gaveUp ∉ o ∧ ∀ w, .announced w ∉ o
  | [], _, _, _, _, h => by cases h; simp
  | e :: es, s, s', o, k, h => by
    unfold Connecting.run at h
    split at h
    · cases h
    · rename_i s1 o1 hs
      split at h
      · cases h
      · rename_i s2 o2 hr
        cases h
        obtain ⟨k', a1, a2, a3⟩ := k.step hs
        obtain ⟨b1, b2, b3⟩ := Lost.run es k' hr
        simp [a1, a2, a3, b1, b2, b3]

theorem run_append (c : Setup) : ∀ (a b : List Event) (s : State), run c s (a ++ b) =
    match run c s a with
    | none => none
    | some (s1, o1) =>
      match run c s1 b with
      | none => none
      | some (s2, o2) => some (s2, o1 ++ o2)
  | [], b, s => by
    simp only [Connecting.run, List.nil_append]
    cases run c s b <;> rfl
  | e :: a, b, s => by
    simp only [Connecting.run, List.cons_append]
    cases step c s e with
    | none => rfl
    | some r =>
      dsimp only
      rw [run_append c a b r.1]
      cases run c r.1 a with
      | none => rfl
      | some q =>
        dsimp only
        cases run c q.1 b with
        | none => rfl
        | some z => simp

theorem step_gone {c : Setup} {s s' : State} {e : Event} {o : List Out} (h : step c s e = some (s', o)) (he : e ≠ .crash) : s'.gone = s.gone := by
  unfold Connecting.step at h
  cases e <;> dsimp only at h
  case toB =>
    split at h
    · cases h
    · rename_i m l hu
      cases m <;> simp only [atB] at h <;> grind
  case down =>
    split at h
    · cases h
    · rename_i m l hu
      cases m <;> simp only [atA] at h <;> grind [tryProxy, onReply]
  case remoteA =>
    split at h
    · cases h
    · rename_i m l hu
      cases m <;> simp only [atRemoteA] at h <;> grind [onReply]
  all_goals grind [onFailure, tryProxy, onReply]

theorem run_gone {c : Setup} : ∀ (es : List Event) {s s' : State} {o : List Out}, run c s es = some (s', o) → .crash ∉ es → s.gone = false → s'.gone = false
  | [], _, _, _, h, _, hg => by cases h; exact hg
  | e :: es, s, s', o, h, hc, hg => by
    unfold Connecting.run at h
    split at h
    · cases h
    · rename_i s1 o1 hs
      split at h
      · cases h
      · rename_i s2 o2 hr
        cases h
        simp only [List.mem_cons, not_or] at hc
        exact run_gone es hr hc.2 (by rw [step_gone hs (Ne.symm hc.1)]; exact hg)

/-- A reply is sent only by a B that has accepted A, and A is connected only by a reply. -/
structure Accepted (s : State) (o : List Out) : Prop where
  reply : .reply ∈ s.back ∨ .reply ∈ s.down ∨ .reply ∈ s.directA ∨ .reply ∈ s.remoteA → ∃ w, .joined w ∈ o
  con : .connected ∈ o → ∃ w, .joined w ∈ o

set_option maxHeartbeats 2000000 in
theorem Accepted.step {c : Setup} {s s' : State} {e : Event} {o o' : List Out} (k : Accepted s o) (h : step c s e = some (s', o')) : Accepted s' (o ++ o') := by
  obtain ⟨k1, k2⟩ := k
  have hmono : (∃ w, .joined w ∈ o) → ∃ w, .joined w ∈ o ++ o' := fun ⟨w, h⟩ => ⟨w, List.mem_append_left _ h⟩
  by_cases hj : ∃ w, .joined w ∈ o ++ o'
  · exact ⟨fun _ => hj, fun _ => hj⟩
  have hj0 : ¬ ∃ w, .joined w ∈ o := fun h => hj (hmono h)
  have k1 : ¬ (.reply ∈ s.back ∨ .reply ∈ s.down ∨ .reply ∈ s.directA ∨ .reply ∈ s.remoteA) := fun h => hj0 (k1 h)
  have k2 : .connected ∉ o := fun h => hj0 (k2 h)
  have hn : ∀ w, .joined w ∉ o' := fun w hw => hj ⟨w, List.mem_append_right _ hw⟩
  have key : ¬ (.reply ∈ s'.back ∨ .reply ∈ s'.down ∨ .reply ∈ s'.directA ∨ .reply ∈ s'.remoteA) ∧ .connected ∉ o' := by
    clear hj hj0 hmono
    simp only [not_or] at k1
    obtain ⟨a1, a2, a3, a4⟩ := k1
    unfold Connecting.step at h
    cases e <;> dsimp only at h
    case toB =>
      split at h
      · cases h
      · rename_i m l hu
        cases m <;> simp only [atB] at h <;> grind
    case down =>
      split at h
      · cases h
      · rename_i m l hu
        cases m <;> simp only [atA] at h <;> grind [tryProxy]
    case remoteA =>
      split at h
      · cases h
      · rename_i m l hu
        cases m <;> simp only [atRemoteA] at h <;> grind
    case directFailed =>
      unfold onFailure tryProxy at h
      grind
    case timer =>
      unfold tryProxy at h
      grind
    case directA =>
      split at h
      · rename_i l hu
        simp [hu] at a3
      · cases h
    all_goals grind
  exact ⟨fun h => absurd h key.1, fun h => absurd h (by simp [k2, key.2])⟩

theorem Accepted.run {c : Setup} : ∀ (es : List Event) {s s' : State} {o0 o : List Out}, Accepted s o0 → run c s es = some (s', o) → Accepted s' (o0 ++ o)
  | [], _, _, _, _, k, h => by cases h; simpa using k
  | e :: es, s, s', o0, o, k, h => by
    unfold Connecting.run at h
    split at h
    · cases h
    · rename_i s1 o1 hs
      split at h
      · cases h
      · rename_i s2 o2 hr
        cases h
        have := Accepted.run es (k.step hs) hr
        simpa using this

theorem connected_joined {c : Setup} (es : List Event) {s : State} {o : List Out} (h : Connecting.run c {} es = some (s, o)) (hc : .connected ∈ o) :
    ∃ w, .joined w ∈ o := by
  have k := Accepted.run es (s := {}) (o0 := []) ⟨by simp, by simp⟩ h
  exact k.con hc

/-- A is connected to B by its own attempt. -/
structure Direct (s : State) (o : List Out) : Prop where
  stage : s.stage = .waiting ∨ s.stage = .replied
  up : s.up = []
  toB : s.toB = []
  back : s.back = []
  down : s.down = []
  remoteA : s.remoteA = []
  remoteB : s.remoteB = []
  trying : s.trying = 0
  armed : s.armed = false
  ann : announcements o = [.direct]
  asked : .asked ∉ o
  gaveUp : .gaveUp ∉ o

theorem Direct.step {c : Setup} {s s' : State} {e : Event} {o o' : List Out} (k : Direct s o) (h : step c s e = some (s', o')) : Direct s' (o ++ o') := by
  obtain ⟨k1, k2, k3, k4, k5, k6, k7, k8, k9, k10, k11, k12⟩ := k
  unfold Connecting.step at h
  cases e <;> dsimp only at h
  case directB =>
    split at h
    · split at h
      · cases h
      · cases h
        constructor <;> simp_all [announcements]
    · cases h
  case directA =>
    split at h
    · split at h
      · cases h
      · unfold onReply at h
        split at h <;> cases h <;> constructor <;> simp_all [announcements]
    · cases h
  case crash =>
    split at h
    · cases h
    · cases h
      constructor <;> simp_all
  all_goals simp_all

theorem Direct.run {c : Setup} : ∀ (es : List Event) {s s' : State} {o0 o : List Out}, Direct s o0 → run c s es = some (s', o) → Direct s' (o0 ++ o)
  | [], _, _, _, _, k, h => by cases h; simpa using k
  | e :: es, s, s', o0, o, k, h => by
    unfold Connecting.run at h
    split at h
    · cases h
    · rename_i s1 o1 hs
      split at h
      · cases h
      · rename_i s2 o2 hr
        cases h
        have := Direct.run es (k.step hs) hr
        simpa using this

theorem direct_only {c : Setup} (es : List Event) {s : State} {o : List Out} (h : Connecting.run c {} (.directOk :: es) = some (s, o)) :
    announcements o = [.direct] ∧ .asked ∉ o ∧ .gaveUp ∉ o := by
  simp only [Connecting.run, Connecting.step] at h
  simp at h
  split at h
  · cases h
  · rename_i s2 o2 hr
    cases h
    have k := Direct.run es (o0 := [.announced .direct]) (by constructor <;> simp [announcements]) hr
    exact ⟨k.ann, k.asked, k.gaveUp⟩

end SilKit.Connecting
