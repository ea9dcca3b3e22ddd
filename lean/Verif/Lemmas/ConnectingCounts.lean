import Verif.Lemmas.Connecting
/-! # Lemmas for C68: the connections counted -/
namespace SilKit.Connecting
open Spec

theorem announcements_append (a b : List Out) : announcements (a ++ b) = announcements a ++ announcements b := by simp [announcements]
theorem announcements_nil : announcements [] = [] := rfl
theorem announcements_announced (w : Way) : announcements [.announced w] = [w] := rfl
theorem announcements_asked : announcements [.asked] = [] := rfl
theorem announcements_joined (w : Way) : announcements [.joined w] = [] := rfl
theorem announcements_connected : announcements [.connected] = [] := rfl
theorem announcements_gaveUp : announcements [.gaveUp] = [] := rfl
theorem announcements_crashed : announcements [.crashed] = [] := rfl
theorem joins_append (a b : List Out) : joins (a ++ b) = joins a ++ joins b := by simp [joins]
theorem joins_nil : joins [] = [] := rfl
theorem joins_announced (w : Way) : joins [.announced w] = [] := rfl
theorem joins_asked : joins [.asked] = [] := rfl
theorem joins_joined (w : Way) : joins [.joined w] = [w] := rfl
theorem joins_connected : joins [.connected] = [] := rfl
theorem joins_gaveUp : joins [.gaveUp] = [] := rfl
theorem joins_crashed : joins [.crashed] = [] := rfl

/-- What is left of the request to B. -/
def requests (s : State) : Nat :=
  s.up.count .request + s.toB.count .request + s.trying + s.back.count .failed + s.down.count .failed + s.remoteA.count .remoteAnnouncement

structure Counted (es : List Event) (s : State) (o : List Out) : Prop where
  early : s.stage = .direct ∨ s.stage = .requested ∨ s.stage = .remoteConnecting → announcements o = []
  once : requests s + (announcements o).count .remote + (if s.stage = .direct then 1 else 0) ≤ 1
  direct : .direct ∈ announcements o → requests s = 0 ∧ announcements o = [.direct]
  form : announcements o = [] ∨ (∃ w, announcements o = [w]) ∨ announcements o = [.proxy, .remote]
  calm : .timer ∉ es → (announcements o).length + (if s.stage = .direct then 1 else 0) + requests s ≤ 1
  alone : .remoteOk ∉ es → .remoteAnnouncement ∉ s.remoteA ∧ .remote ∉ announcements o
  joins : (joins o).length + s.up.count .announce + s.toB.count .announce + s.directB.count .announce + s.remoteB.count .announce ≤ (announcements o).length

theorem Counted.init : Counted [] {} [] := by
  constructor <;> simp [announcements, requests, Spec.joins]

set_option maxHeartbeats 4000000 in
theorem Counted.step {c : Setup} {es : List Event} {s s' : State} {e : Event} {o o' : List Out} (i : Inv c s) (k : Counted es s o)
    (h : step c s e = some (s', o')) : Counted (es ++ [e]) s' (o ++ o') := by
  obtain ⟨k1, k2, k3, k4, k5, k6, k7⟩ := k
  have u := i.up
  have b := i.toB
  have bk := i.back
  have dn := i.down
  have f := i.fresh
  clear i
  unfold Connecting.step at h
  cases e with
  | directOk =>
    dsimp only at h
    split at h
    · cases h
      constructor <;> grind [announcements_append, announcements_nil, announcements_announced, announcements_asked, announcements_joined, announcements_connected, announcements_gaveUp, announcements_crashed, joins_append, joins_nil, joins_announced, joins_asked, joins_joined, joins_connected, joins_gaveUp, joins_crashed, requests]
    · cases h
  | directFailed =>
    dsimp only at h
    split at h
    · unfold onFailure tryProxy at h
      split at h
      · cases h
        constructor <;> grind [announcements_append, announcements_nil, announcements_announced, announcements_asked, announcements_joined, announcements_connected, announcements_gaveUp, announcements_crashed, joins_append, joins_nil, joins_announced, joins_asked, joins_joined, joins_connected, joins_gaveUp, joins_crashed, requests]
      · split at h
        · cases h
          constructor <;> grind [announcements_append, announcements_nil, announcements_announced, announcements_asked, announcements_joined, announcements_connected, announcements_gaveUp, announcements_crashed, joins_append, joins_nil, joins_announced, joins_asked, joins_joined, joins_connected, joins_gaveUp, joins_crashed, requests]
        · split at h
          · cases h
            constructor <;> grind [announcements_append, announcements_nil, announcements_announced, announcements_asked, announcements_joined, announcements_connected, announcements_gaveUp, announcements_crashed, joins_append, joins_nil, joins_announced, joins_asked, joins_joined, joins_connected, joins_gaveUp, joins_crashed, requests]
          · split at h
            · cases h
              constructor <;> grind [announcements_append, announcements_nil, announcements_announced, announcements_asked, announcements_joined, announcements_connected, announcements_gaveUp, announcements_crashed, joins_append, joins_nil, joins_announced, joins_asked, joins_joined, joins_connected, joins_gaveUp, joins_crashed, requests]
            · cases h
              constructor <;> grind [announcements_append, announcements_nil, announcements_announced, announcements_asked, announcements_joined, announcements_connected, announcements_gaveUp, announcements_crashed, joins_append, joins_nil, joins_announced, joins_asked, joins_joined, joins_connected, joins_gaveUp, joins_crashed, requests]
    · cases h
  | timer =>
    dsimp only at h
    split at h
    · split at h
      · unfold tryProxy at h
        split at h
        · cases h
          constructor <;> grind [announcements_append, announcements_nil, announcements_announced, announcements_asked, announcements_joined, announcements_connected, announcements_gaveUp, announcements_crashed, joins_append, joins_nil, joins_announced, joins_asked, joins_joined, joins_connected, joins_gaveUp, joins_crashed, requests]
        · split at h
          · cases h
            constructor <;> grind [announcements_append, announcements_nil, announcements_announced, announcements_asked, announcements_joined, announcements_connected, announcements_gaveUp, announcements_crashed, joins_append, joins_nil, joins_announced, joins_asked, joins_joined, joins_connected, joins_gaveUp, joins_crashed, requests]
          · split at h
            · cases h
              constructor <;> grind [announcements_append, announcements_nil, announcements_announced, announcements_asked, announcements_joined, announcements_connected, announcements_gaveUp, announcements_crashed, joins_append, joins_nil, joins_announced, joins_asked, joins_joined, joins_connected, joins_gaveUp, joins_crashed, requests]
            · cases h
              constructor <;> grind [announcements_append, announcements_nil, announcements_announced, announcements_asked, announcements_joined, announcements_connected, announcements_gaveUp, announcements_crashed, joins_append, joins_nil, joins_announced, joins_asked, joins_joined, joins_connected, joins_gaveUp, joins_crashed, requests]
      · cases h
        constructor <;> grind [announcements_append, announcements_nil, announcements_announced, announcements_asked, announcements_joined, announcements_connected, announcements_gaveUp, announcements_crashed, joins_append, joins_nil, joins_announced, joins_asked, joins_joined, joins_connected, joins_gaveUp, joins_crashed, requests]
    · cases h
  | up =>
    dsimp only at h
    split at h
    · cases h
    · rename_i m l hu
      cases h
      constructor <;> grind [announcements_append, announcements_nil, announcements_announced, announcements_asked, announcements_joined, announcements_connected, announcements_gaveUp, announcements_crashed, joins_append, joins_nil, joins_announced, joins_asked, joins_joined, joins_connected, joins_gaveUp, joins_crashed, requests]
  | toB =>
    dsimp only at h
    split at h
    · cases h
    · rename_i m l hu
      split at h
      · cases h
      · cases m <;> simp only [atB] at h <;> (try split at h) <;> cases h <;> constructor <;> grind [announcements_append, announcements_nil, announcements_announced, announcements_asked, announcements_joined, announcements_connected, announcements_gaveUp, announcements_crashed, joins_append, joins_nil, joins_announced, joins_asked, joins_joined, joins_connected, joins_gaveUp, joins_crashed, requests]
  | back =>
    dsimp only at h
    split at h
    · cases h
    · rename_i m l hu
      cases h
      constructor <;> grind [announcements_append, announcements_nil, announcements_announced, announcements_asked, announcements_joined, announcements_connected, announcements_gaveUp, announcements_crashed, joins_append, joins_nil, joins_announced, joins_asked, joins_joined, joins_connected, joins_gaveUp, joins_crashed, requests]
  | down =>
    dsimp only at h
    split at h
    · cases h
    · rename_i m l hu
      split at h
      · cases h
      · cases m with
        | failed =>
          simp only [atA] at h
          split at h
          · rename_i hs
            have hs : s.stage = .requested ∨ s.stage = .remoteConnecting := hs
            unfold tryProxy at h
            split at h
            · cases h
              constructor <;> grind [announcements_append, announcements_nil, announcements_announced, announcements_asked, announcements_joined, announcements_connected, announcements_gaveUp, announcements_crashed, joins_append, joins_nil, joins_announced, joins_asked, joins_joined, joins_connected, joins_gaveUp, joins_crashed, requests]
            · split at h
              · cases h
                constructor <;> grind [announcements_append, announcements_nil, announcements_announced, announcements_asked, announcements_joined, announcements_connected, announcements_gaveUp, announcements_crashed, joins_append, joins_nil, joins_announced, joins_asked, joins_joined, joins_connected, joins_gaveUp, joins_crashed, requests]
              · split at h
                · cases h
                  constructor <;> grind [announcements_append, announcements_nil, announcements_announced, announcements_asked, announcements_joined, announcements_connected, announcements_gaveUp, announcements_crashed, joins_append, joins_nil, joins_announced, joins_asked, joins_joined, joins_connected, joins_gaveUp, joins_crashed, requests]
                · cases h
                  constructor <;> grind [announcements_append, announcements_nil, announcements_announced, announcements_asked, announcements_joined, announcements_connected, announcements_gaveUp, announcements_crashed, joins_append, joins_nil, joins_announced, joins_asked, joins_joined, joins_connected, joins_gaveUp, joins_crashed, requests]
          · cases h
            constructor <;> grind [announcements_append, announcements_nil, announcements_announced, announcements_asked, announcements_joined, announcements_connected, announcements_gaveUp, announcements_crashed, joins_append, joins_nil, joins_announced, joins_asked, joins_joined, joins_connected, joins_gaveUp, joins_crashed, requests]
        | connecting =>
          simp only [atA] at h
          split at h <;> cases h <;> constructor <;> grind [announcements_append, announcements_nil, announcements_announced, announcements_asked, announcements_joined, announcements_connected, announcements_gaveUp, announcements_crashed, joins_append, joins_nil, joins_announced, joins_asked, joins_joined, joins_connected, joins_gaveUp, joins_crashed, requests]
        | reply =>
          simp only [atA, onReply] at h
          split at h
          · split at h <;> cases h <;> constructor <;> grind [announcements_append, announcements_nil, announcements_announced, announcements_asked, announcements_joined, announcements_connected, announcements_gaveUp, announcements_crashed, joins_append, joins_nil, joins_announced, joins_asked, joins_joined, joins_connected, joins_gaveUp, joins_crashed, requests]
          · cases h
            constructor <;> grind [announcements_append, announcements_nil, announcements_announced, announcements_asked, announcements_joined, announcements_connected, announcements_gaveUp, announcements_crashed, joins_append, joins_nil, joins_announced, joins_asked, joins_joined, joins_connected, joins_gaveUp, joins_crashed, requests]
        | _ =>
          cases h
          constructor <;> grind [announcements_append, announcements_nil, announcements_announced, announcements_asked, announcements_joined, announcements_connected, announcements_gaveUp, announcements_crashed, joins_append, joins_nil, joins_announced, joins_asked, joins_joined, joins_connected, joins_gaveUp, joins_crashed, requests]
  | directB =>
    dsimp only at h
    split at h
    · split at h
      · cases h
      · cases h
        constructor <;> grind [announcements_append, announcements_nil, announcements_announced, announcements_asked, announcements_joined, announcements_connected, announcements_gaveUp, announcements_crashed, joins_append, joins_nil, joins_announced, joins_asked, joins_joined, joins_connected, joins_gaveUp, joins_crashed, requests]
    · cases h
  | directA =>
    dsimp only at h
    split at h
    · split at h
      · cases h
      · unfold onReply at h
        split at h <;> cases h <;> constructor <;> grind [announcements_append, announcements_nil, announcements_announced, announcements_asked, announcements_joined, announcements_connected, announcements_gaveUp, announcements_crashed, joins_append, joins_nil, joins_announced, joins_asked, joins_joined, joins_connected, joins_gaveUp, joins_crashed, requests]
    · cases h
  | remoteB =>
    dsimp only at h
    split at h
    · split at h
      · cases h
      · cases h
        constructor <;> grind [announcements_append, announcements_nil, announcements_announced, announcements_asked, announcements_joined, announcements_connected, announcements_gaveUp, announcements_crashed, joins_append, joins_nil, joins_announced, joins_asked, joins_joined, joins_connected, joins_gaveUp, joins_crashed, requests]
    · cases h
  | remoteA =>
    dsimp only at h
    split at h
    · cases h
    · rename_i m l hu
      split at h
      · cases h
      · have hq : 0 < requests s ∨ m ≠ .remoteAnnouncement := by
          by_cases hm : m = .remoteAnnouncement
          · left; simp [requests, hu, hm]; omega
          · exact Or.inr hm
        cases m with
        | remoteAnnouncement =>
          simp at hq
          have hf : announcements o = [] ∨ announcements o = [.proxy] := by
            rcases k4 with h | ⟨w, h⟩ | h
            · exact Or.inl h
            · cases w with
              | direct => have := (k3 (by simp [h])).1; omega
              | remote => simp [h] at k2; omega
              | proxy => exact Or.inr h
            · simp [h] at k2; omega
          simp only [atRemoteA] at h
          cases h
          constructor <;> grind [announcements_append, announcements_nil, announcements_announced, announcements_asked, announcements_joined, announcements_connected, announcements_gaveUp, announcements_crashed, joins_append, joins_nil, joins_announced, joins_asked, joins_joined, joins_connected, joins_gaveUp, joins_crashed, requests]
        | _ =>
          simp only [atRemoteA, onReply] at h <;> (try split at h) <;> cases h <;> constructor <;> grind [announcements_append, announcements_nil, announcements_announced, announcements_asked, announcements_joined, announcements_connected, announcements_gaveUp, announcements_crashed, joins_append, joins_nil, joins_announced, joins_asked, joins_joined, joins_connected, joins_gaveUp, joins_crashed, requests]
  | remoteOk =>
    dsimp only at h
    split at h
    · cases h
      constructor <;> grind [announcements_append, announcements_nil, announcements_announced, announcements_asked, announcements_joined, announcements_connected, announcements_gaveUp, announcements_crashed, joins_append, joins_nil, joins_announced, joins_asked, joins_joined, joins_connected, joins_gaveUp, joins_crashed, requests]
    · cases h
  | remoteFailed =>
    dsimp only at h
    split at h
    · cases h
      constructor <;> grind [announcements_append, announcements_nil, announcements_announced, announcements_asked, announcements_joined, announcements_connected, announcements_gaveUp, announcements_crashed, joins_append, joins_nil, joins_announced, joins_asked, joins_joined, joins_connected, joins_gaveUp, joins_crashed, requests]
    · cases h
  | crash =>
    dsimp only at h
    split at h
    · cases h
    · cases h
      constructor <;> grind [announcements_append, announcements_nil, announcements_announced, announcements_asked, announcements_joined, announcements_connected, announcements_gaveUp, announcements_crashed, joins_append, joins_nil, joins_announced, joins_asked, joins_joined, joins_connected, joins_gaveUp, joins_crashed, requests]

theorem Counted.run {c : Setup} : ∀ (es : List Event) {es0 : List Event} {s s' : State} {o0 o : List Out}, Inv c s → Counted es0 s o0 →
    run c s es = some (s', o) → Counted (es0 ++ es) s' (o0 ++ o)
  | [], _, _, _, _, _, _, k, h => by cases h; simpa using k
  | e :: es, es0, s, s', o0, o, i, k, h => by
    unfold Connecting.run at h
    split at h
    · cases h
    · rename_i s1 o1 hs
      split at h
      · cases h
      · rename_i s2 o2 hr
        cases h
        have := Counted.run es (i.step hs) (k.step i hs) hr
        simpa using this

end SilKit.Connecting
