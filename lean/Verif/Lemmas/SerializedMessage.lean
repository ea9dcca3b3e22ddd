import Verif.Lemmas.SerdesMessages
/-!
# Framing headers
-/
namespace SilKit.Wire
open Spec MessageBuffer

theorem R_assoc {α β γ : Type} (r : R α) (f : α → R β) (g : β → R γ) :
    (r >>= f >>= g) = (r >>= fun a => f a >>= g) := by
  funext b
  simp only [R.bind_def]
  cases r b <;> rfl

theorem R_pure_bind {α β : Type} (a : α) (f : α → R β) : (pure a >>= f) = f a := rfl

theorem copyTo_front (a b c : List UInt8) (h : c.length = a.length) : copyTo (a ++ b) 0 c = .ok (c ++ b) := by
  unfold copyTo
  rw [if_pos (by simp; omega)]
  simp [h]

theorem releaseStorage_ok {b : MessageBuffer} {x y bytes : List UInt8} (hb : b.storage = x ++ y) (hx : x.length = 4)
    (h : releaseStorage b = .ok bytes) :
    bytes = leBytes 4 (4 + y.length) ++ y ∧ 4 + y.length < 2 ^ 32 := by
  have hl : b.storage.length = 4 + y.length := by rw [hb]; simp; omega
  unfold releaseStorage at h
  rw [hl] at h
  split at h
  · cases h
  · rename_i hlen
    rw [hb, copyTo_front _ _ _ (by simp [hx])] at h
    simp only [Res.ok.injEq] at h
    exact ⟨h.symm, by unfold uint32Max at hlen; omega⟩

/-- What `readNetworkHeaders` does after the size and the kind. -/
def headersTail (messageSize : BitVec 32) (messageKind : BitVec 8) : R Headers :=
  if messageKind = kindRegistryMessage then do
    let registryKind ← rInt 8
    let header ← readRegistryHeader registryKind
    pure ⟨messageSize, messageKind, some registryKind, header, none, none, none⟩
  else if messageKind = kindProxyMessage then do
    let v ← peekProxyMessageHeader
    pure ⟨messageSize, messageKind, none, none, some v, none, none⟩
  else if isMwOrSim messageKind then do
    let remoteIndex ← rInt 64
    let addr ← rEndpointAddress
    pure ⟨messageSize, messageKind, none, none, none, some remoteIndex, some addr⟩
  else pure ⟨messageSize, messageKind, none, none, none, none, none⟩

theorem readNetworkHeaders_eq : readNetworkHeaders = (rInt 32 >>= fun s => rInt 8 >>= fun k => headersTail s k) := rfl

/-- Any message of a kind without registry headers: frame, then parse. -/
theorem frame_roundtrip {α : Type} {kind rk : BitVec 8} {idx : BitVec 64} {addr : EndpointAddress}
    {w : R Unit} {r : R α} {a : α} {hdr : BitVec 32 → Headers} {tail : R Unit}
    (hw : (do writeNetworkHeaders kind rk idx addr; w : R Unit) = (wInt (0 : BitVec 32) >>= fun _ => wInt kind >>= fun _ => tail))
    (ht : ∀ s, RoundTrips currentProtocolVersion tail (headersTail s kind >>= fun h => r >>= fun a => pure (h, a)) (hdr s, a))
    {bytes : List UInt8} (hs : serialize kind rk idx addr w = .ok bytes) :
    parse r bytes = .ok (hdr (BitVec.ofNat 32 bytes.length), a) := by
  obtain ⟨bs, hne, ha, -⟩ := ht 0
  have hA : Appends currentProtocolVersion (wInt (0 : BitVec 32) >>= fun _ => wInt kind >>= fun _ => tail)
      (leBytes 4 0 ++ (leBytes 1 kind.toNat ++ bs)) :=
    appends_bind (appends_int (0 : BitVec 32) (by decide))
      (appends_bind (w2 := fun _ => tail) (appends_int kind (by decide)) ha)
  unfold serialize at hs
  rw [hw, hA MessageBuffer.empty rfl rfl] at hs
  obtain ⟨hb, hN32⟩ := releaseStorage_ok (x := leBytes 4 0) (y := leBytes 1 kind.toNat ++ bs) rfl (by simp) hs
  have hl : bytes.length = 4 + (leBytes 1 kind.toNat ++ bs).length := by rw [hb]; simp
  rw [← hl] at hb hN32
  rw [hb]
  generalize hN : bytes.length = N at *
  have hlN : (leBytes 4 N ++ (leBytes 1 kind.toNat ++ bs)).length = N := by rw [hl]; simp
  rw [hlN]
  obtain ⟨bs', hne', ha', hy'⟩ := ht (BitVec.ofNat 32 N)
  have hbs := appends_unique ha ha'
  subst hbs
  have h32 := yields_int (ver := currentProtocolVersion) (BitVec.ofNat 32 N) (by decide)
  rw [toNat_ofNat32 hN32] at h32
  have h8 := yields_int (ver := currentProtocolVersion) kind (by decide)
  have hY := yields_bind (k := fun s => rInt 8 >>= fun k => headersTail s k >>= fun h => r >>= fun a => pure (h, a))
    h32 (yields_bind (k := fun k => headersTail (BitVec.ofNat 32 N) k >>= fun h => r >>= fun a => pure (h, a)) h8 hy')
  unfold parse
  rw [readNetworkHeaders_eq, R_assoc]
  simp only [R_assoc]
  rw [hY (MessageBuffer.ofBytes _) [] [] rfl (by simp [MessageBuffer.ofBytes]) rfl]

/-- Framing of simulation and middleware messages. -/
theorem frame_sim {α : Type} {kind rk : BitVec 8} (hk : kind = kindSimMsg ∨ kind = kindMwMsg) (idx : BitVec 64)
    (addr : EndpointAddress) {w : R Unit} {r : R α} {a : α} (h : RoundTrips currentProtocolVersion w r a)
    {bytes : List UInt8} (hs : serialize kind rk idx addr w = .ok bytes) :
    parse r bytes =
      .ok (⟨BitVec.ofNat 32 bytes.length, kind, none, none, none, some idx, some addr⟩, a) := by
  have h5 : kind ≠ kindRegistryMessage := by rcases hk with h | h <;> subst h <;> decide
  have h6 : kind ≠ kindProxyMessage := by rcases hk with h | h <;> subst h <;> decide
  have h7 : isMwOrSim kind = true := by rcases hk with h | h <;> subst h <;> decide
  refine frame_roundtrip (hdr := fun s => ⟨s, kind, none, none, none, some idx, some addr⟩)
    (tail := (wInt idx >>= fun _ => wEndpointAddress addr >>= fun _ => w)) ?_ ?_ hs
  · simp only [writeNetworkHeaders, R_assoc, h5, h7, ↓reduceIte, R_pure_bind]
  · intro s
    simp only [headersTail, h5, h6, h7, ↓reduceIte, R_assoc, R_pure_bind]
    refine rt_bind (rt_int idx (by decide) (by decide)) ?_
    refine rt_bind (rt_EndpointAddress addr) ?_
    exact rt_last h rfl

/-- Framing of subscription messages. -/
theorem frame_plain {α : Type} {kind rk : BitVec 8}
    (hk : kind = kindSubscriptionAnnouncement ∨ kind = kindSubscriptionAcknowledge) (idx : BitVec 64)
    (addr : EndpointAddress) {w : R Unit} {r : R α} {a : α} (h : RoundTrips currentProtocolVersion w r a)
    {bytes : List UInt8} (hs : serialize kind rk idx addr w = .ok bytes) :
    parse r bytes = .ok (⟨BitVec.ofNat 32 bytes.length, kind, none, none, none, none, none⟩, a) := by
  have h5 : kind ≠ kindRegistryMessage := by rcases hk with h | h <;> subst h <;> decide
  have h6 : kind ≠ kindProxyMessage := by rcases hk with h | h <;> subst h <;> decide
  have h7 : isMwOrSim kind = false := by rcases hk with h | h <;> subst h <;> decide
  refine frame_roundtrip (hdr := fun s => ⟨s, kind, none, none, none, none, none⟩) (tail := w) ?_ ?_ hs
  · simp only [writeNetworkHeaders, R_assoc, h5, h7, ↓reduceIte, R_pure_bind, Bool.false_eq_true]
  · intro s
    simp only [headersTail, h5, h6, h7, ↓reduceIte, R_pure_bind, Bool.false_eq_true]
    exact rt_last h rfl

/-- A frame always starts with its own length. -/
theorem serialize_length_prefix {kind rk : BitVec 8} {idx : BitVec 64} {addr : EndpointAddress} {w : R Unit}
    {bytes : List UInt8} (hs : serialize kind rk idx addr w = .ok bytes) :
    4 ≤ bytes.length ∧ leVal (bytes.take 4) = bytes.length := by
  unfold serialize at hs
  split at hs
  · rename_i u b _
    unfold releaseStorage at hs
    split at hs
    · cases hs
    · rename_i hlen
      unfold copyTo at hs
      split at hs
      · rename_i h4
        simp only [leBytes_length, Nat.zero_add, List.take_zero, List.nil_append, Res.ok.injEq] at hs h4
        subst hs
        have hl : (leBytes 4 b.storage.length ++ b.storage.drop 4).length = b.storage.length := by
          simp; omega
        rw [hl]
        refine ⟨h4, ?_⟩
        rw [List.take_append_of_le_length (by simp), List.take_of_length_le (by simp), leVal_leBytes]
        apply Nat.mod_eq_of_lt
        unfold uint32Max at hlen
        omega
      · cases hs
  · cases hs
  · cases hs

/-! ## safety of reading the headers -/

theorem leBytes_ok_header {raw : List UInt8} (h : raw.length = 8) :
    ∃ hd b', rRegistryMsgHeader (MessageBuffer.ofBytes raw) = .ok (hd, b') := by
  match raw, h with
  | [a, b, c, d, e, f, g, i], _ => exact ⟨_, _, rfl⟩

theorem peekRegistry_ok {b : MessageBuffer} (h : b.rPos + 8 ≤ b.storage.length) :
    ∃ hd, peekRegistryMessageHeader b = .ok (hd, b) := by
  unfold peekRegistryMessageHeader copyFrom
  rw [if_pos h]
  obtain ⟨hd, b', e⟩ := leBytes_ok_header (raw := (b.storage.drop b.rPos).take 8) (by simp; omega)
  simp only [e]
  exact ⟨hd, rfl⟩

theorem good_peekProxy : SafeDecoder peekProxyMessageHeader := by
  intro b hb
  have h := safe_ProxyMessageHeader b hb
  unfold peekProxyMessageHeader
  revert h
  cases rProxyMessageHeader b with
  | ok p =>
    intro h
    obtain ⟨v, b'⟩ := p
    obtain ⟨h1, h2, h3, h4⟩ := h
    refine ⟨h1, h2, Nat.le_refl _, ?_⟩
    simp only [h1]
    exact hb
  | throw m => intro h; trivial
  | ub m => intro h; exact h

theorem readRegistryHeader_outcome {b : MessageBuffer} {hd : RegistryMsgHeader}
    (hpeek : peekRegistryMessageHeader b = .ok (hd, b)) (rk : BitVec 8) :
    (∃ v, readRegistryHeader rk b = .ok (v, b)) ∨ (∃ m, readRegistryHeader rk b = .throw m) := by
  unfold readRegistryHeader
  split
  · left
    refine ⟨some hd, ?_⟩
    rw [R.bind_def, hpeek]; rfl
  · split
    · rw [R.bind_def]
      simp only [getProtocolVersion]
      split
      · left
        refine ⟨some hd, ?_⟩
        rw [R.bind_def, hpeek]; rfl
      · split
        · left; exact ⟨_, rfl⟩
        · right; exact ⟨_, rfl⟩
    · split
      · right; exact ⟨_, rfl⟩
      · left; exact ⟨_, rfl⟩

theorem headers_after_kind (b : MessageBuffer) (hb : b.rPos ≤ b.storage.length) (s : BitVec 32) (k : BitVec 8)
    (h : k = kindRegistryMessage → b.rPos + 9 ≤ b.storage.length) : GoodOutcome b (headersTail s k b) := by
  unfold headersTail
  split
  · rename_i hk
    have hlen := h hk
    have h8 := safe_int 8 b hb
    rw [R.bind_def]
    revert h8
    generalize hg : rInt 8 b = res
    cases res with
    | throw m => intro _; trivial
    | ub m => intro h; exact h.elim
    | ok p =>
      obtain ⟨rk, b'⟩ := p
      intro h8
      obtain ⟨g1, g2, g3, g4⟩ := h8
      have hr : b'.rPos = b.rPos + 1 := by
        unfold rInt at hg
        rw [R.bind_def, guardRead_ok (by omega)] at hg
        simp only [R.bind_def, takeRead, copyFrom] at hg
        rw [if_pos (by omega)] at hg
        simp only [R.pure_def, Res.ok.injEq, Prod.mk.injEq] at hg
        rw [← hg.2]
      obtain ⟨hd, hpeek⟩ := peekRegistry_ok (b := b') (by rw [g1]; omega)
      have hgood : ∀ v, GoodOutcome b (.ok (v, b') : Res (Headers × MessageBuffer)) := fun v => ⟨g1, g2, g3, g4⟩
      simp only [R.bind_def]
      rcases readRegistryHeader_outcome hpeek rk with ⟨v, e⟩ | ⟨m, e⟩
      · simp only [e, R.pure_def]
        exact hgood _
      · simp only [e]
        trivial
  · refine safe_ite ?_ ?_ b hb
    · exact safe_bind good_peekProxy (fun _ => safe_pure _)
    · exact safe_ite (safe_bind (safe_int 64) (fun _ => safe_bind safe_EndpointAddress (fun _ => safe_pure _)))
        (safe_pure _)

end SilKit.Wire
