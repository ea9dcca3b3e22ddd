import Verif.Lemmas.PeerReceive
/-!
# C02, C03 – message framing on a connection

`total` is everything the remote side writes on the connection; `ks` is an arbitrary schedule of read completions, where
the operating system hands over at most `k` bytes per completion. `cap` is the initial buffer capacity (4096 in the
code, any value ≥ 4 works).
-/
namespace SilKit.Props
open Spec PeerReceive

/-- The listener neither throws nor shuts the connection down. -/
abbrev calm : List (List UInt8) → List UInt8 → Reaction := fun _ _ => .ok

/-- **C02.** If the remote side writes the legal messages `ms`, then for every chunking the run has no undefined
behaviour and does not loop forever, and afterwards
* the messages delivered so far are an initial segment of `ms`, byte for byte and in order,
* every message all of whose bytes have been taken from the socket has been delivered,
* the connection is open and a read is outstanding,
* once everything has been taken, exactly `ms` has been delivered. -/
theorem C02_framing_chunk_independent (cap : Nat) (hcap : 4 ≤ cap) (ms : List (List UInt8))
    (hms : ∀ m ∈ ms, LegalFrame m) (ks : List Nat) :
    ∃ c0 c, Conn.start cap ms.flatten = some c0 ∧ c0.run calm ks = some c ∧
      c.taken ++ c.stream = ms.flatten ∧
      c.peer.delivered <+: ms ∧
      (∀ i, (ms.take i).flatten.length ≤ c.taken.length → i ≤ ms.length → i ≤ c.peer.delivered.length) ∧
      c.peer.isShuttingDown = false ∧ c.peer.readPending = true ∧
      (c.stream = [] → c.peer.delivered = ms) := by
  obtain ⟨c0, h0, hi, ho, _⟩ := start_inv hcap ms.flatten
  obtain ⟨c, h1, h2, h3⟩ := run_inv calm ms.flatten ks c0 hi
  have h3 := h3 (fun _ _ => rfl) ho
  have hfull := h2.del c.stream
  rw [h2.split] at hfull
  have hp := parse_flatten_append ms hms []
  rw [List.append_nil, parse_short (s := []) (by simp)] at hp
  simp only [List.append_nil] at hp
  rw [hp] at hfull
  have hpre : c.peer.delivered <+: ms := by
    have := congrArg Prod.fst hfull
    simp only at this
    rw [this]; exact List.prefix_append _ _
  have hopen : c.peer.readPending = true ∧ c.peer.isShuttingDown = false := by
    rcases h3 with h | ⟨_, _, h⟩
    · exact h
    · have := congrArg Prod.snd hfull
      rw [h] at this
      simp at this
  have hdel := h2.del []
  rw [List.append_nil, List.append_nil, (h2.pending hopen.1).2.1] at hdel
  simp only [List.append_nil] at hdel
  refine ⟨c0, c, h0, h1, h2.split, hpre, ?_, hopen.2, hopen.1, ?_⟩
  · intro i hi' hil
    have : (ms.take i).flatten <+: c.taken := by
      have e : (ms.take i).flatten ++ (ms.drop i).flatten = c.taken ++ c.stream := by
        rw [h2.split, ← List.flatten_append, List.take_append_drop]
      exact List.prefix_of_prefix_length_le ⟨_, e⟩ (List.prefix_append _ _) hi'
    obtain ⟨t, ht⟩ := this
    have := parse_flatten_append (ms.take i) (fun m hm => hms m (List.mem_of_mem_take hm)) t
    rw [ht, hdel] at this
    have := congrArg (fun x => x.1.length) this
    simp only [List.length_append, List.length_take] at this
    omega
  · intro hs
    have := h2.split
    rw [hs, List.append_nil] at this
    rw [this, hp] at hdel
    exact (congrArg Prod.fst hdel).symm

/-- **C02 (progress).** As many read completions as there are bytes are enough: then everything has been delivered. -/
theorem C02_all_delivered (cap : Nat) (hcap : 4 ≤ cap) (ms : List (List UInt8)) (hms : ∀ m ∈ ms, LegalFrame m)
    (ks : List Nat) (hk : ∀ k ∈ ks, 0 < k) (hlen : ms.flatten.length ≤ ks.length) :
    ∃ c0 c, Conn.start cap ms.flatten = some c0 ∧ c0.run calm ks = some c ∧ c.peer.delivered = ms := by
  obtain ⟨c0, h0, hi, ho, hs⟩ := start_inv hcap ms.flatten
  obtain ⟨c, h1, h2⟩ := run_drains ms.flatten ks hk c0 hi ho (by rw [hs]; exact hlen)
  obtain ⟨c0', c', e0, e1, _, _, _, e2, _, e3⟩ := C02_framing_chunk_independent cap hcap ms hms ks
  rw [h0] at e0
  obtain rfl : c0 = c0' := by simpa using e0
  have e1' : c0.run (fun _ _ => .ok) ks = some c' := e1
  rw [h1] at e1'
  obtain rfl : c = c' := by simpa using e1'
  refine ⟨c0, c, h0, h1, ?_⟩
  rcases h2 with h | h
  · exact e3 h
  · rw [e2] at h; simp at h

/-- **C02 (any peer behaviour).** Whatever bytes arrive, in whatever chunks, and however the listener reacts (including
exceptions and closing the connection from inside the callback), there is no undefined behaviour and no endless loop,
and what has been delivered is an initial segment of the frames of the bytes written. -/
theorem C02_delivered_is_prefix_of_frames (cap : Nat) (hcap : 4 ≤ cap) (total : List UInt8)
    (react : List (List UInt8) → List UInt8 → Reaction) (ks : List Nat) :
    ∃ c0 c, Conn.start cap total = some c0 ∧ c0.run react ks = some c ∧ c.peer.delivered <+: (parse total).1 := by
  obtain ⟨c0, h0, hi, _, _⟩ := start_inv hcap total
  obtain ⟨c, h1, h2, _⟩ := run_inv react total ks c0 hi
  have hfull := h2.del c.stream
  rw [h2.split] at hfull
  refine ⟨c0, c, h0, h1, ?_⟩
  rw [hfull]
  exact List.prefix_append _ _

/-- **C03.** After legal messages `ms` the remote side sends bytes `bad` that start with an illegal length (zero, or more
than 1 GiB), followed by anything. For every chunking, only messages from `ms` are ever delivered; once at least the
four length bytes have been taken, all of `ms` has been delivered, the connection is shut down and never reads again. -/
theorem C03_illegal_length_closes (cap : Nat) (hcap : 4 ≤ cap) (ms : List (List UInt8))
    (hms : ∀ m ∈ ms, LegalFrame m) (bad : List UInt8) (hbad : IllegalStart bad) (ks : List Nat) :
    ∃ c0 c, Conn.start cap (ms.flatten ++ bad) = some c0 ∧ c0.run calm ks = some c ∧
      c.peer.delivered <+: ms ∧
      (ms.flatten.length + 4 ≤ c.taken.length →
        c.peer.delivered = ms ∧ c.peer.isShuttingDown = true ∧ c.peer.readPending = false) ∧
      (c.taken.length < ms.flatten.length + 4 → c.peer.isShuttingDown = false ∧ c.peer.readPending = true) := by
  obtain ⟨c0, h0, hi, ho, _⟩ := start_inv hcap (ms.flatten ++ bad)
  obtain ⟨c, h1, h2, h3⟩ := run_inv calm (ms.flatten ++ bad) ks c0 hi
  have h3 := h3 (fun _ _ => rfl) ho
  have hfull := h2.del c.stream
  rw [h2.split, parse_flatten_append ms hms bad, parse_illegal hbad.1 hbad.2] at hfull
  simp only [List.append_nil] at hfull
  refine ⟨c0, c, h0, h1, ?_, ?_, ?_⟩
  · have := congrArg Prod.fst hfull
    simp only at this
    rw [this]; exact List.prefix_append _ _
  · intro hl
    have hpt : ∃ t, c.taken = ms.flatten ++ t ∧ 4 ≤ t.length ∧ t <+: bad := by
      have h5 := h2.split
      have : ms.flatten <+: c.taken := by
        have e : ms.flatten ++ bad = c.taken ++ c.stream := h5.symm
        exact List.prefix_of_prefix_length_le ⟨_, e⟩ (List.prefix_append _ _) (by omega)
      obtain ⟨t, ht⟩ := this
      refine ⟨t, ht.symm, ?_, c.stream, ?_⟩
      · rw [← ht] at hl; simp only [List.length_append] at hl; omega
      · rw [← ht, List.append_assoc] at h5
        exact List.append_cancel_left h5
    obtain ⟨t, ht, ht4, u, hu⟩ := hpt
    have hd := h2.del []
    rw [List.append_nil, List.append_nil, ht, parse_flatten_append ms hms t,
      parse_illegal ht4 (by rw [← prefixLength_append t u ht4, hu]; exact hbad.2)] at hd
    simp only [List.append_nil] at hd
    rcases h3 with ⟨h, _⟩ | ⟨ha, hb, hc⟩
    · rw [(h2.pending h).2.1] at hd
      simp at hd
    · have hc := hc []
      rw [List.append_nil] at hc
      rw [hc] at hd
      simp only [List.append_nil] at hd
      exact ⟨(congrArg Prod.fst hd).symm, hb, ha⟩
  · intro hl
    rcases h3 with h | ⟨ha, hb, hc⟩
    · exact ⟨h.2, h.1⟩
    · exfalso
      -- a closed peer has seen four bytes of an illegal prefix
      have hd := h2.del []
      have hc' := hc []
      rw [List.append_nil] at hc'
      rw [List.append_nil, List.append_nil, hc'] at hd
      by_cases hlt : ms.flatten.length ≤ c.taken.length
      · have : ms.flatten <+: c.taken := by
          have e : ms.flatten ++ bad = c.taken ++ c.stream := h2.split.symm
          exact List.prefix_of_prefix_length_le ⟨_, e⟩ (List.prefix_append _ _) hlt
        obtain ⟨t, ht⟩ := this
        rw [← ht, parse_flatten_append ms hms t, parse_short] at hd
        · simp at hd
        · rw [← ht] at hl; simp only [List.length_append] at hl; omega
      · have : c.taken <+: ms.flatten := by
          have e : ms.flatten ++ bad = c.taken ++ c.stream := h2.split.symm
          exact List.prefix_of_prefix_length_le (List.prefix_append c.taken c.stream) ⟨_, e⟩ (by omega)
        obtain ⟨w, hw⟩ := this
        have h6 := h2.del w
        rw [hw, hc w] at h6
        have h7 := parse_flatten_append ms hms []
        rw [List.append_nil, parse_short (s := []) (by simp)] at h7
        rw [h7] at h6
        simp at h6

/-- Non-vacuity of C02/C03: two legal messages (one of exactly four bytes) and an illegal prefix. -/
example : LegalFrame [4, 0, 0, 0] ∧ LegalFrame [6, 0, 0, 0, 1, 2] ∧ IllegalStart [0, 0, 0, 0] ∧
    IllegalStart [1, 0, 0, 64, 9] ∧ ¬ IllegalStart [0, 0, 0, 64] := by decide

/-- The model really runs: three read completions (3, 100 and 7 bytes) with a 4-byte initial buffer. -/
example : ((Conn.start 4 [4, 0, 0, 0, 6, 0, 0, 0, 1, 2, 0, 0, 0, 0, 77]).bind
      (·.run calm [3, 100, 7, 1, 9, 9])).map
      (fun c => (c.peer.delivered, c.peer.isShuttingDown, c.stream)) =
    some ([[4, 0, 0, 0], [6, 0, 0, 0, 1, 2]], true, []) := by decide +kernel

/-- Disagreement (see DESIGN.md §5): after an exception in the message callback the peer stays open but has no
outstanding read – later messages on the connection are never delivered, although the connection is not closed. -/
theorem C03_exception_leaves_peer_deaf :
    ((Conn.start 4096 [4, 0, 0, 0, 5, 0, 0, 0, 7]).bind (·.run (fun _ _ => .throws) [4, 9, 9])).map
      (fun c => (c.peer.delivered, c.peer.isShuttingDown, c.peer.readPending, c.stream)) =
    some ([[4, 0, 0, 0]], false, false, [5, 0, 0, 0, 7]) := by decide +kernel

end SilKit.Props
