import Verif.Lemmas.RingBuffer
import Verif.Model.PeerReceive
import Verif.Spec.Framing
/-! Helper lemmas for the receive path of a peer. -/
namespace SilKit

namespace Spec

theorem prefixLength_append (s x : List UInt8) (h : 4 ≤ s.length) : prefixLength (s ++ x) = prefixLength s := by
  match s, h with
  | a :: b :: c :: d :: r, _ => rfl

theorem parse_short {s : List UInt8} (h : s.length < 4) : parse s = ([], false) := by
  unfold parse; simp [h]

theorem parse_illegal {s : List UInt8} (h : 4 ≤ s.length) (h2 : prefixLength s = 0 ∨ maxFrame < prefixLength s) :
    parse s = ([], true) := by
  unfold parse
  rw [if_neg (by omega), if_pos h2]

theorem parse_incomplete {s : List UInt8} (h : 4 ≤ s.length) (h2 : ¬ (prefixLength s = 0 ∨ maxFrame < prefixLength s))
    (h3 : s.length < prefixLength s) : parse s = ([], false) := by
  unfold parse
  rw [if_neg (by omega), if_neg h2, if_pos h3]

theorem parse_cons {s : List UInt8} (h : 4 ≤ s.length) (h2 : ¬ (prefixLength s = 0 ∨ maxFrame < prefixLength s))
    (h3 : prefixLength s ≤ s.length) :
    parse s = (s.take (prefixLength s) :: (parse (s.drop (prefixLength s))).1,
      (parse (s.drop (prefixLength s))).2) := by
  rw [parse]
  rw [if_neg (by omega), if_neg h2, if_neg (by omega)]

theorem parse_legal_append (m rest : List UInt8) (h : LegalFrame m) :
    parse (m ++ rest) = (m :: (parse rest).1, (parse rest).2) := by
  obtain ⟨h1, h2, h3⟩ := h
  have hp : prefixLength (m ++ rest) = m.length := by rw [prefixLength_append _ _ h1, h2]
  rw [parse_cons (by simp; omega) (by rw [hp]; unfold maxFrame at *; omega) (by rw [hp]; simp), hp]
  simp

theorem parse_flatten_append (ms : List (List UInt8)) (h : ∀ m ∈ ms, LegalFrame m) (rest : List UInt8) :
    parse (ms.flatten ++ rest) = (ms ++ (parse rest).1, (parse rest).2) := by
  induction ms with
  | nil => simp
  | cons m ms ih =>
    simp only [List.flatten_cons, List.append_assoc]
    rw [parse_legal_append m _ (h m (by simp)), ih (fun x hx => h x (by simp [hx]))]
    simp

/-- A proper prefix of a legal frame parses to nothing. -/
theorem parse_proper_prefix (m p q : List UInt8) (h : LegalFrame m) (hm : m = p ++ q) (hq : q ≠ []) :
    parse p = ([], false) := by
  obtain ⟨h1, h2, h3⟩ := h
  by_cases hp : p.length < 4
  · exact parse_short hp
  · have : prefixLength p = m.length := by rw [← h2, hm, prefixLength_append _ _ (by omega)]
    have hl : m.length = p.length + q.length := by rw [hm]; simp
    have : 0 < q.length := List.length_pos_iff.mpr hq
    exact parse_incomplete (by omega) (by unfold maxFrame at *; omega) (by omega)

end Spec

namespace PeerReceive
open Spec

theorem le32_take (s : List UInt8) (h : 4 ≤ s.length) : le32 (s.take 4) = prefixLength s := by
  match s, h with
  | a :: b :: c :: d :: r, _ => rfl

/-- Invariant of the receive state at the start of a dispatch iteration. -/
structure Inv (s : State) : Prop where
  ring : s.ring.Inv
  cap : 4 ≤ s.ring.capacity
  cur : s.currentMsgSize = 0 ∨
    (4 ≤ s.ring.size ∧ s.currentMsgSize = prefixLength s.ring.contents ∧ s.currentMsgSize ≤ maxFrame)

/-- What is known after a dispatch, relative to the state `s` before. -/
structure Post (s s' : State) (esc : Bool) : Prop where
  inv : s'.ring.Inv
  cap : s.ring.capacity ≤ s'.ring.capacity
  del : ∃ d, s'.delivered = s.delivered ++ d ∧
    ∀ x, parse (s.ring.contents ++ x) = (d ++ (parse (s'.ring.contents ++ x)).1, (parse (s'.ring.contents ++ x)).2)
  pending : s'.readPending = true → Inv s' ∧ parse s'.ring.contents = ([], false) ∧ s'.ring.size < s'.ring.capacity ∧
    esc = false
  stuck : s'.readPending = false → s'.isShuttingDown = true ∨ esc = true

/-- Extra facts if the listener never throws and never shuts the peer down. -/
structure PostOk (s' : State) (esc : Bool) : Prop where
  notEsc : esc = false
  closed : s'.isShuttingDown = true → s'.readPending = false ∧ ∀ x, parse (s'.ring.contents ++ x) = ([], true)

def outState : Outcome → Option (State × Bool)
  | .done s => some (s, false)
  | .escaped s => some (s, true)
  | _ => none

theorem outState_cases {o : Outcome} {s : State} {e : Bool} (h : outState o = some (s, e)) :
    o = .done s ∨ o = .escaped s := by
  cases o <;> simp [outState] at h <;> simp [h.1]

/-- The shape of one frame at the head of the buffer, for all continuations. -/
theorem parse_head (c x : List UInt8) (n : Nat) (h4 : 4 ≤ c.length) (hn : n = prefixLength c) (h0 : n ≠ 0)
    (hmax : n ≤ maxFrame) (hle : n ≤ c.length) :
    parse (c ++ x) = (c.take n :: (parse (c.drop n ++ x)).1, (parse (c.drop n ++ x)).2) := by
  have hp : prefixLength (c ++ x) = n := by rw [prefixLength_append _ _ h4, hn]
  rw [parse_cons (by simp; omega) (by rw [hp]; omega) (by rw [hp]; simp; omega), hp]
  rw [List.take_append_of_le_length hle, List.drop_append_of_le_length hle]

theorem body (react : List (List UInt8) → List UInt8 → Reaction) (fuel : Nat) (s : State)
    (ih : ∀ s, Inv s → s.readPending = false → s.ring.size < fuel →
      ∃ s' esc, outState (dispatchBuffer react fuel s) = some (s', esc) ∧ Post s s' esc ∧
        ((∀ h m, react h m = .ok) → s.isShuttingDown = false → PostOk s' esc))
    (hi : s.ring.Inv) (hcap : 4 ≤ s.ring.capacity) (h4 : 4 ≤ s.ring.size) (hcur : s.currentMsgSize = prefixLength s.ring.contents)
    (hr : s.readPending = false) (hf : s.ring.size < fuel + 1) :
    ∃ s' esc, outState (handleMessage react (dispatchBuffer react fuel) s) = some (s', esc) ∧ Post s s' esc ∧
        ((∀ h m, react h m = .ok) → s.isShuttingDown = false → PostOk s' esc) := by
  unfold handleMessage
  have hlen : s.ring.contents.length = s.ring.size := by simp
  have hmaxe : maxFrame = 1024 * 1024 * 1024 := rfl
  by_cases hill : s.currentMsgSize = 0 ∨ s.currentMsgSize > 1024 * 1024 * 1024
  · rw [if_pos hill]
    refine ⟨shutdown s, false, rfl, ⟨hi, Nat.le_refl _, ⟨[], by simp [shutdown], by simp [shutdown]⟩, ?_, ?_⟩, ?_⟩
    · intro h; simp [shutdown, hr] at h
    · intro _; left; rfl
    · intro _ _
      refine ⟨rfl, fun _ => ⟨hr, fun x => ?_⟩⟩
      refine parse_illegal (by simp [shutdown]; omega) ?_
      rw [show (shutdown s).ring = s.ring from rfl, prefixLength_append _ _ (by omega), ← hcur, hmaxe]
      exact hill
  rw [if_neg hill]
  by_cases hless : s.ring.size < s.currentMsgSize
  · rw [if_pos hless]
    have : ∃ r, (if s.ring.capacity < s.currentMsgSize then s.ring.reserve s.currentMsgSize else .ok s.ring) = .ok r ∧
        r.Inv ∧ r.contents = s.ring.contents ∧ s.ring.capacity ≤ r.capacity ∧ s.currentMsgSize ≤ r.capacity := by
      by_cases hc : s.ring.capacity < s.currentMsgSize
      · rw [if_pos hc]
        obtain ⟨b, h1, h2, h3, h4⟩ := s.ring.reserve_spec hi s.currentMsgSize
        exact ⟨b, h1, h2, h3, by omega, by omega⟩
      · rw [if_neg hc]; exact ⟨s.ring, rfl, hi, rfl, Nat.le_refl _, by omega⟩
    obtain ⟨r, h1, h2, h3, h4', h5⟩ := this
    rw [h1]
    have hsz : r.size = s.ring.size := by rw [← r.contents_length, h3, s.ring.contents_length]
    have hra : readSomeAsync { s with ring := r } = .ok { s with ring := r, readPending := true } := by
      unfold readSomeAsync
      rw [if_pos (by show r.capacity - r.size > 0; omega)]
    simp only [hra]
    refine ⟨{ s with ring := r, readPending := true }, false, rfl, ⟨h2, h4', ⟨[], by simp, by simp [h3]⟩, ?_, ?_⟩, ?_⟩
    · intro _
      refine ⟨⟨h2, Nat.le_trans hcap h4', Or.inr ⟨?_, ?_, ?_⟩⟩, ?_, ?_, rfl⟩
      · show 4 ≤ r.size; omega
      · show s.currentMsgSize = prefixLength r.contents; rw [h3]; exact hcur
      · show s.currentMsgSize ≤ maxFrame; omega
      · show parse r.contents = _
        rw [h3]
        exact parse_incomplete (by omega) (by rw [← hcur]; omega) (by omega)
      · show r.size < r.capacity; omega
    · intro h; simp at h
    · intro _ hs
      refine ⟨rfl, fun h => ?_⟩
      simp [hs] at h
  · rw [if_neg hless]
    obtain ⟨b, h1, h2, h3, h5⟩ := s.ring.read_spec hi s.currentMsgSize
    rw [if_pos (by omega)] at h1 h3
    rw [h1]
    simp only
    have hbs : b.size = s.ring.size - s.currentMsgSize := by rw [← b.contents_length, h3]; simp
    have hhead := fun x => parse_head s.ring.contents x s.currentMsgSize (by omega) hcur (by omega) (by omega) (by omega)
    have lift : ∀ (s1 : State), s1.ring = b → s1.delivered = s.delivered ++ [s.ring.contents.take s.currentMsgSize] →
        ∀ s' esc, Post s1 s' esc → Post s s' esc := by
      intro s1 hb hd s' esc hp
      obtain ⟨d, hd1, hd2⟩ := hp.del
      refine ⟨hp.inv, by have := hp.cap; rw [hb, h5] at this; exact this,
        ⟨s.ring.contents.take s.currentMsgSize :: d, ?_, ?_⟩, hp.pending, hp.stuck⟩
      · rw [hd1, hd]; simp
      · intro x
        have := hd2 x
        rw [hb, h3] at this
        rw [hhead x, this]; simp
    have hlt : b.size < fuel := by omega
    cases hre : react s.delivered (s.ring.contents.take s.currentMsgSize) with
    | ok =>
      obtain ⟨s', esc, e1, e2, e3⟩ := ih
        { s with ring := b, delivered := s.delivered ++ [s.ring.contents.take s.currentMsgSize], currentMsgSize := 0 }
        ⟨h2, by simpa [h5] using hcap, Or.inl rfl⟩ hr hlt
      exact ⟨s', esc, e1, lift _ (by rfl) (by rfl) _ _ e2, fun a b => e3 a b⟩
    | shutdown =>
      obtain ⟨s', esc, e1, e2, e3⟩ := ih
        (shutdown { s with ring := b, delivered := s.delivered ++ [s.ring.contents.take s.currentMsgSize],
                           currentMsgSize := 0 })
        ⟨h2, by simpa [h5, shutdown] using hcap, Or.inl rfl⟩ hr hlt
      exact ⟨s', esc, e1, lift _ (by rfl) (by rfl) _ _ e2, fun a _ => by rw [a] at hre; simp at hre⟩
    | throws =>
      refine ⟨_, true, rfl, ⟨h2, by simp [h5], ⟨[s.ring.contents.take s.currentMsgSize], rfl, ?_⟩, ?_, ?_⟩, ?_⟩
      · intro x; rw [hhead x]; simp only [h3]; rfl
      · intro h; simp [hr] at h
      · intro _; right; rfl
      · intro a; rw [a] at hre; simp at hre

theorem dispatch_spec (react : List (List UInt8) → List UInt8 → Reaction) (fuel : Nat) :
    ∀ s, Inv s → s.readPending = false → s.ring.size < fuel →
      ∃ s' esc, outState (dispatchBuffer react fuel s) = some (s', esc) ∧ Post s s' esc ∧
        ((∀ h m, react h m = .ok) → s.isShuttingDown = false → PostOk s' esc) := by
  induction fuel with
  | zero => intro s _ _ h; omega
  | succ fuel ih =>
    intro s hi hr hf
    have hcp := hi.cap
    have hlen : s.ring.contents.length = s.ring.size := by simp
    unfold dispatchBuffer
    by_cases h0 : s.currentMsgSize = 0
    · by_cases hs : s.isShuttingDown = true
      · have : nextSize s = .inl (.done s) := by unfold nextSize; rw [if_pos h0, if_pos hs]
        rw [this]
        refine ⟨s, false, rfl, ⟨hi.ring, Nat.le_refl _, ⟨[], by simp, by simp⟩, ?_, ?_⟩, ?_⟩
        · intro h; rw [hr] at h; simp at h
        · intro _; left; exact hs
        · intro _ h; simp [hs] at h
      · by_cases h4 : s.ring.size ≥ 4
        · have : nextSize s = .inr { s with currentMsgSize := prefixLength s.ring.contents } := by
            unfold nextSize
            rw [if_pos h0, if_neg hs, if_pos h4, s.ring.peek_spec hi.ring 4, if_pos h4]
            simp only [le32_take s.ring.contents (by omega)]
          rw [this]
          obtain ⟨s', esc, e1, e2, e3⟩ :=
            body react fuel { s with currentMsgSize := prefixLength s.ring.contents } ih hi.ring hi.cap h4 rfl hr hf
          exact ⟨s', esc, e1, ⟨e2.inv, e2.cap, e2.del, e2.pending, e2.stuck⟩, e3⟩
        · have : nextSize s = .inl (.done { s with readPending := true }) := by
            unfold nextSize
            rw [if_pos h0, if_neg hs, if_neg h4]
            unfold readSomeAsync
            rw [if_pos (by omega)]
          rw [this]
          refine ⟨_, false, rfl, ⟨hi.ring, Nat.le_refl _, ⟨[], by simp, by simp⟩, ?_, ?_⟩, ?_⟩
          · intro _
            exact ⟨⟨hi.ring, hi.cap, Or.inl h0⟩, parse_short (by simp; omega), by show s.ring.size < s.ring.capacity; omega, rfl⟩
          · intro h; simp at h
          · intro _ h
            exact ⟨rfl, fun h2 => absurd h2 hs⟩
    · have : nextSize s = .inr s := by unfold nextSize; rw [if_neg h0]
      rw [this]
      rcases hi.cur with h | ⟨h4, hcur, hm⟩
      · exact absurd h h0
      · exact body react fuel s ih hi.ring hi.cap h4 hcur hr hf

/-- Invariant of a connection on which the remote side writes `total`. -/
structure ConnInv (total : List UInt8) (c : Conn) : Prop where
  split : c.taken ++ c.stream = total
  del : ∀ x, parse (c.taken ++ x) =
    (c.peer.delivered ++ (parse (c.peer.ring.contents ++ x)).1, (parse (c.peer.ring.contents ++ x)).2)
  pending : c.peer.readPending = true →
    Inv c.peer ∧ parse c.peer.ring.contents = ([], false) ∧ c.peer.ring.size < c.peer.ring.capacity

/-- Additional invariant if the listener never throws and never shuts the peer down. -/
def ConnOk (c : Conn) : Prop :=
  (c.peer.readPending = true ∧ c.peer.isShuttingDown = false) ∨
  (c.peer.readPending = false ∧ c.peer.isShuttingDown = true ∧
    ∀ x, parse (c.peer.ring.contents ++ x) = ([], true))

theorem start_inv {cap : Nat} (hcap : 4 ≤ cap) (total : List UInt8) :
    ∃ c, Conn.start cap total = some c ∧ ConnInv total c ∧ ConnOk c ∧ c.stream = total := by
  have hc : (RingBuffer.mk' cap).capacity = cap := by simp [RingBuffer.mk', RingBuffer.capacity]
  have hcont : (RingBuffer.mk' cap).contents = [] := by simp [RingBuffer.mk', RingBuffer.contents]
  have hs : (RingBuffer.mk' cap).size = 0 := rfl
  unfold Conn.start start readSomeAsync
  simp only [hc, hs]
  rw [if_pos (by omega)]
  refine ⟨_, rfl, ⟨by simp, ?_, ?_⟩, Or.inl ⟨rfl, rfl⟩, rfl⟩
  · intro x; simp [hcont]
  · intro _
    refine ⟨⟨RingBuffer.mk'_inv (by omega), by simp [hc]; omega, Or.inl rfl⟩, ?_, ?_⟩
    · exact parse_short (by simp [hcont])
    · simp [hc, hs]; omega

theorem recv_inv (react : List (List UInt8) → List UInt8 → Reaction) (total : List UInt8) (c : Conn) (k : Nat)
    (h : ConnInv total c) :
    ∃ c', c.recv react k = some c' ∧ ConnInv total c' ∧
      ((∀ h m, react h m = .ok) → ConnOk c → ConnOk c') ∧
      (c.peer.readPending = true → 0 < k → c.stream ≠ [] → c'.stream.length < c.stream.length) := by
  unfold Conn.recv
  by_cases hno : c.peer.readPending = false ∨ k = 0 ∨ c.stream = []
  · rw [if_pos hno]
    refine ⟨c, rfl, h, fun _ h => h, fun h1 h2 h3 => ?_⟩
    rcases hno with h4 | h4 | h4
    · rw [h1] at h4; simp at h4
    · omega
    · exact absurd h4 h3
  · rw [if_neg hno]
    simp only [not_or] at hno
    obtain ⟨hp, hk, hst⟩ := hno
    have hp : c.peer.readPending = true := by simpa using hp
    obtain ⟨hi, hpar, hlt⟩ := h.pending hp
    obtain ⟨r, r1, r2, r3, r4⟩ := c.peer.ring.receive_spec hi.ring (c.stream.take k)
    have hstl : 0 < c.stream.length := List.length_pos_iff.mpr hst
    let n := min (c.stream.take k).length (c.peer.ring.capacity - c.peer.ring.size)
    have hn : n = min (c.stream.take k).length (c.peer.ring.capacity - c.peer.ring.size) := rfl
    have hn0 : 0 < n := by rw [hn, List.length_take]; omega
    have htk : (c.stream.take k).take (c.peer.ring.capacity - c.peer.ring.size) = c.stream.take n := by
      rw [List.take_take, hn, List.length_take]
      by_cases hle : min (c.peer.ring.capacity - c.peer.ring.size) k ≤ c.stream.length
      · congr 1; omega
      · rw [List.take_of_length_le (by omega), List.take_of_length_le (by omega)]
    rw [htk] at r3
    rw [← hn] at r1
    have hon : onAsyncReadSomeDone react c.peer (c.stream.take k) =
        (dispatchBuffer react (r.size + 2) { c.peer with ring := r, readPending := false }, n) := by
      unfold onAsyncReadSomeDone; rw [r1]
    rw [hon]
    have hrs : r.size = c.peer.ring.size + (c.stream.take n).length := by
      rw [← r.contents_length, r3]; simp
    have hi' : Inv { c.peer with ring := r, readPending := false } := by
      refine ⟨r2, by simpa [r4] using hi.cap, ?_⟩
      rcases hi.cur with h0 | ⟨h1, h2, h3⟩
      · exact Or.inl h0
      · right
        refine ⟨?_, ?_, h3⟩
        · show 4 ≤ r.size; omega
        · show c.peer.currentMsgSize = prefixLength r.contents
          rw [r3, prefixLength_append _ _ (by simpa using h1)]; exact h2
    obtain ⟨s', esc, e1, e2, e3⟩ := dispatch_spec react (r.size + 2) _ hi' rfl (by show r.size < _; omega)
    have hcases := outState_cases e1
    refine ⟨Conn.mk s' (c.stream.drop n) (c.taken ++ c.stream.take n), ?_, ?_, ?_, ?_⟩
    · rcases hcases with h | h <;> rw [h]
    · refine ⟨?_, ?_, ?_⟩
      · rw [List.append_assoc, List.take_append_drop]; exact h.split
      · intro x
        obtain ⟨d, d1, d2⟩ := e2.del
        have := h.del (c.stream.take n ++ x)
        rw [← List.append_assoc, ← List.append_assoc, ← r3] at this
        rw [this]
        have d2 := d2 x
        simp only at d2 d1
        rw [d2, d1]
        simp
      · intro hpd
        obtain ⟨a, b, c, _⟩ := e2.pending hpd
        exact ⟨a, b, c⟩
    · intro hok hco
      rcases hco with ⟨_, hns⟩ | ⟨h1, _⟩
      · have := e3 hok hns
        cases hsd : s'.isShuttingDown with
        | false =>
          left
          refine ⟨?_, hsd⟩
          cases hrp : s'.readPending with
          | true => rfl
          | false =>
            rcases e2.stuck hrp with h | h
            · rw [hsd] at h; simp at h
            · rw [this.notEsc] at h; simp at h
        | true => right; exact ⟨(this.closed hsd).1, hsd, (this.closed hsd).2⟩
      · rw [hp] at h1; simp at h1
    · intro _ _ _
      simp; omega

theorem run_inv (react : List (List UInt8) → List UInt8 → Reaction) (total : List UInt8) (ks : List Nat) :
    ∀ c, ConnInv total c → ∃ c', c.run react ks = some c' ∧ ConnInv total c' ∧
      ((∀ h m, react h m = .ok) → ConnOk c → ConnOk c') := by
  induction ks with
  | nil => intro c h; exact ⟨c, rfl, h, fun _ h => h⟩
  | cons k ks ih =>
    intro c h
    obtain ⟨c1, h1, h2, h3, _⟩ := recv_inv react total c k h
    obtain ⟨c2, e1, e2, e3⟩ := ih c1 h2
    exact ⟨c2, by simp only [Conn.run, h1]; exact e1, e2, fun a b => e3 a (h3 a b)⟩

/-- With a well-behaved listener, `stream.length` positive read completions take everything or close the peer. -/
theorem run_drains (total : List UInt8) (ks : List Nat) (hk : ∀ k ∈ ks, 0 < k) :
    ∀ c, ConnInv total c → ConnOk c → c.stream.length ≤ ks.length →
      ∃ c', c.run (fun _ _ => .ok) ks = some c' ∧ (c'.stream = [] ∨ c'.peer.isShuttingDown = true) := by
  induction ks with
  | nil =>
    intro c _ _ hl
    exact ⟨c, rfl, Or.inl (List.length_eq_zero_iff.mp (by simpa using hl))⟩
  | cons k ks ih =>
    intro c h ho hl
    obtain ⟨c1, h1, h2, h3, h4⟩ := recv_inv (fun _ _ => .ok) total c k h
    have ho1 := h3 (fun _ _ => rfl) ho
    by_cases hst : c1.stream.length ≤ ks.length
    · obtain ⟨c2, e1, e2⟩ := ih (fun x hx => hk x (by simp [hx])) c1 h2 ho1 hst
      exact ⟨c2, by simp only [Conn.run, h1]; exact e1, e2⟩
    · obtain ⟨c2, e1, e2, e3⟩ := run_inv (fun _ _ => .ok) total ks c1 h2
      refine ⟨c2, by simp only [Conn.run, h1]; exact e1, ?_⟩
      rcases ho with ⟨hp, _⟩ | ⟨hp, hsd, _⟩
      · by_cases hne : c.stream = []
        · have hc1 : c1 = c := by
            unfold Conn.recv at h1
            rw [if_pos (Or.inr (Or.inr hne))] at h1
            simpa using h1.symm
          rw [hc1, hne] at hst
          simp at hst
        · have := h4 hp (hk k (by simp)) hne
          simp at hl; omega
      · have hstay : ∀ ks (c : Conn), c.peer.readPending = false → c.run (fun _ _ => .ok) ks = some c := by
          intro ks
          induction ks with
          | nil => intro c _; rfl
          | cons k ks ih =>
            intro c hc
            have : c.recv (fun _ _ => .ok) k = some c := by unfold Conn.recv; rw [if_pos (Or.inl hc)]
            simp only [Conn.run, this]; exact ih c hc
        have h5 := hstay (k :: ks) c hp
        simp only [Conn.run, h1] at h5
        rw [e1] at h5
        have : c2 = c := by simpa using h5
        right; rw [this]; exact hsd

end PeerReceive
end SilKit
