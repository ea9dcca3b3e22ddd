import Verif.Spec.VersionHandshake
import Verif.Lemmas.SerdesMessages
/-!
# Lemmas about the handshake between versions
-/
namespace SilKit.VersionHandshake
open SilKit.Wire SilKit.Spec MessageBuffer Spec

/-! ## Headers -/

def hdrBytes (h : RegistryMsgHeader) : List UInt8 := leBytes 4 h.preamble.toNat ++ (leBytes 2 h.versionHigh.toNat ++ leBytes 2 h.versionLow.toNat)

theorem hdrBytes_length (h : RegistryMsgHeader) : (hdrBytes h).length = 8 := by simp [hdrBytes]

theorem hdrBytes_headerOf (v : ProtocolVersion) : hdrBytes (headerOf v) = headerBytes v := by
  have : leBytes 4 registryPreamble.toNat = [0x56, 0x49, 0x42, 0x2d] := by decide +kernel
  simp only [hdrBytes, headerOf, headerBytes, this, List.append_assoc]

theorem appends_hdr {ver : ProtocolVersion} (h : RegistryMsgHeader) : Appends ver (wRegistryMsgHeader h) (hdrBytes h) :=
  appends_bind (appends_int h.preamble (by decide)) (appends_bind (appends_int h.versionHigh (by decide)) (appends_int h.versionLow (by decide)))

theorem yields_hdr {ver : ProtocolVersion} (h : RegistryMsgHeader) : Yields ver rRegistryMsgHeader (hdrBytes h) h := by
  have := yields_bind (k := fun a => rInt 16 >>= fun b => rInt 16 >>= fun c => pure (⟨a, b, c⟩ : RegistryMsgHeader)) (yields_int (ver := ver) h.preamble (by decide))
    (yields_bind (k := fun b => rInt 16 >>= fun c => pure (⟨h.preamble, b, c⟩ : RegistryMsgHeader)) (yields_int (ver := ver) h.versionHigh (by decide))
      (yields_bind (k := fun c => pure (⟨h.preamble, h.versionHigh, c⟩ : RegistryMsgHeader)) (yields_int (ver := ver) h.versionLow (by decide)) (yields_pure _)))
  exact this

theorem peek_hdr (h : RegistryMsgHeader) (b : MessageBuffer) (before after : List UInt8) (hs : b.storage = before ++ (hdrBytes h ++ after)) (hr : b.rPos = before.length) :
    peekRegistryMessageHeader b = .ok (h, b) := by
  unfold peekRegistryMessageHeader
  rw [hs, hr, ← List.append_assoc, copyFrom_mid _ _ _ _ (hdrBytes_length h).symm]
  dsimp only
  rw [yields_hdr (ver := currentProtocolVersion) h (MessageBuffer.ofBytes (hdrBytes h)) [] [] rfl (by simp [MessageBuffer.ofBytes]) rfl]

/-! ## Frames -/

theorem message_eq (kind : BitVec 8) (k : UInt8) (hk : leBytes 1 kind.toNat = [k]) (c : List UInt8) :
    message k c = leBytes 4 (c.length + 6) ++ (leBytes 1 kindRegistryMessage.toNat ++ (leBytes 1 kind.toNat ++ c)) := by
  have : leBytes 1 kindRegistryMessage.toNat = [5] := by decide +kernel
  rw [hk, this, message]
  simp

theorem read_headers (b : MessageBuffer) (size : BitVec 32) (kind : BitVec 8) (c : List UInt8)
    (hs : b.storage = leBytes 4 size.toNat ++ (leBytes 1 kindRegistryMessage.toNat ++ (leBytes 1 kind.toNat ++ c))) (hr : b.rPos = 0) :
    readNetworkHeaders b = match readRegistryHeader kind { b with rPos := 6 } with
      | .ok (h, b') => .ok (⟨size, kindRegistryMessage, some kind, h, none, none, none⟩, b')
      | .throw m => .throw m
      | .ub m => .ub m := by
  have h1 : rInt 32 b = .ok (size, { b with rPos := 4 }) := by
    rw [yields_int (ver := b.protocolVersion) size (by decide) b [] _ rfl (by simpa using hs) (by simpa using hr)]
    simp [hr]
  have h2 : rInt 8 { b with rPos := 4 } = .ok (kindRegistryMessage, { b with rPos := 5 }) := by
    rw [yields_int (ver := b.protocolVersion) kindRegistryMessage (by decide) { b with rPos := 4 } (leBytes 4 size.toNat) (leBytes 1 kind.toNat ++ c) rfl
      (by simpa using hs) (by simp)]
    simp
  have h3 : rInt 8 { b with rPos := 5 } = .ok (kind, { b with rPos := 6 }) := by
    rw [yields_int (ver := b.protocolVersion) kind (by decide) { b with rPos := 5 } (leBytes 4 size.toNat ++ leBytes 1 kindRegistryMessage.toNat) c rfl
      (by simpa using hs) (by simp)]
    simp
  unfold readNetworkHeaders
  rw [R.bind_def, h1]
  dsimp only
  rw [R.bind_def, h2]
  dsimp only
  rw [if_pos rfl, R.bind_def, h3]
  dsimp only
  rw [R.bind_def]
  cases readRegistryHeader kind { b with rPos := 6 } with
  | ok p => obtain ⟨h, b'⟩ := p; rfl
  | throw m => rfl
  | ub m => rfl

/-- `w` appends `bytes`, and sets the version of the buffer. -/
def AppendsTo (v v' : ProtocolVersion) (w : R Unit) (bytes : List UInt8) : Prop :=
  ∀ b : MessageBuffer, b.protocolVersion = v → b.wPos = b.storage.length →
    w b = .ok ((), { b with protocolVersion := v', storage := b.storage ++ bytes, wPos := b.wPos + bytes.length })

theorem AppendsTo.of {v : ProtocolVersion} {w : R Unit} {bytes : List UInt8} (h : Appends v w bytes) : AppendsTo v v w bytes := by
  intro b hv hw
  rw [h b hv hw]
  simp [← hv]

theorem serializeAt_eq {v v' : ProtocolVersion} {kind : BitVec 8} {k : UInt8} (hk : leBytes 1 kind.toNat = [k]) {w : R Unit} {c : List UInt8} (h : AppendsTo v v' w c) :
    serializeAt v kind w = match readRegistryHeader kind ⟨v', leBytes 4 0 ++ (leBytes 1 kindRegistryMessage.toNat ++ (leBytes 1 kind.toNat ++ c)), c.length + 6, 6⟩ with
      | .ok _ => if c.length + 6 > uint32Max then .throw "SerializedMessage::Serialize: message buffer is too large" else .ok (message k c)
      | .throw m => .throw m
      | .ub m => .ub m := by
  have hA : Appends v (writeNetworkHeaders kindRegistryMessage kind 0 ⟨0, 0⟩) (leBytes 4 0 ++ (leBytes 1 kindRegistryMessage.toNat ++ leBytes 1 kind.toNat)) := by
    unfold writeNetworkHeaders
    refine appends_bind (appends_int (0 : BitVec 32) (by decide)) (appends_bind (appends_int kindRegistryMessage (by decide)) ?_)
    dsimp only
    rw [if_pos rfl, if_neg (by decide)]
    have := appends_bind (w2 := fun _ => (pure () : R Unit)) (appends_int (ver := v) kind (by decide)) (b2 := []) (fun b _ _ => by simp [R.pure_def])
    simpa using this
  unfold serializeAt
  rw [R.bind_def, hA { MessageBuffer.empty with protocolVersion := v } rfl rfl]
  dsimp only
  rw [h _ rfl (by simp [MessageBuffer.empty])]
  dsimp only
  have e : (⟨v', MessageBuffer.empty.storage ++ (leBytes 4 0 ++ (leBytes 1 kindRegistryMessage.toNat ++ leBytes 1 kind.toNat)) ++ c,
      MessageBuffer.empty.wPos + (leBytes 4 0 ++ (leBytes 1 kindRegistryMessage.toNat ++ leBytes 1 kind.toNat)).length + c.length, MessageBuffer.empty.rPos⟩ : MessageBuffer) =
      ⟨v', leBytes 4 0 ++ (leBytes 1 kindRegistryMessage.toNat ++ (leBytes 1 kind.toNat ++ c)), c.length + 6, 0⟩ := by
    simp [MessageBuffer.empty, Nat.add_comm]
  rw [e, read_headers _ 0 kind c rfl rfl]
  cases readRegistryHeader kind ⟨v', leBytes 4 0 ++ (leBytes 1 kindRegistryMessage.toNat ++ (leBytes 1 kind.toNat ++ c)), c.length + 6, 6⟩ with
  | throw m => rfl
  | ub m => rfl
  | ok p =>
    dsimp only
    unfold releaseStorage
    have hl : (leBytes 4 0 ++ (leBytes 1 kindRegistryMessage.toNat ++ (leBytes 1 kind.toNat ++ c))).length = c.length + 6 := by simp; omega
    dsimp only
    rw [hl]
    by_cases hs : c.length + 6 > uint32Max
    · rw [if_pos hs, if_pos hs]
    · rw [if_neg hs, if_neg hs]
      unfold copyTo
      rw [if_pos (by simp), message_eq kind k hk]
      simp

/-- What a node does with a handshake message whose contents start with a header. -/
theorem receive_any (n : Node) (p : Peer) (kind : BitVec 8) (k : UInt8) (hk : leBytes 1 kind.toNat = [k]) (h : RegistryMsgHeader) (rest : List UInt8)
    (hkind : kind = 1 ∨ kind = 2 ∨ kind = 3) (hsz : (hdrBytes h ++ rest).length + 6 < 2 ^ 32) :
    n.receive p (message k (hdrBytes h ++ rest)) =
      (if preambleIsPresent p.version kind ∧ h.preamble ≠ registryPreamble then (p, [.ignored]) else
       let b : MessageBuffer := ⟨p.version, message k (hdrBytes h ++ rest), (message k (hdrBytes h ++ rest)).length, 6⟩
       if kind = 1 then n.receiveAnnouncement p h b else if kind = 2 then p.receiveReply b else n.receiveKnown p b) := by
  have e : message k (hdrBytes h ++ rest) =
      leBytes 4 (BitVec.ofNat 32 ((hdrBytes h ++ rest).length + 6)).toNat ++ (leBytes 1 kindRegistryMessage.toNat ++ (leBytes 1 kind.toNat ++ (hdrBytes h ++ rest))) := by
    rw [message_eq kind k hk, toNat_ofNat32 hsz]
  have hpeek : peekRegistryMessageHeader { MessageBuffer.ofBytes (message k (hdrBytes h ++ rest)) with rPos := 6 } =
      .ok (h, { MessageBuffer.ofBytes (message k (hdrBytes h ++ rest)) with rPos := 6 }) := by
    refine peek_hdr h _ (leBytes 4 ((hdrBytes h ++ rest).length + 6) ++ [5, k]) rest ?_ (by simp)
    simp [MessageBuffer.ofBytes, message]
  have hread : readRegistryHeader kind { MessageBuffer.ofBytes (message k (hdrBytes h ++ rest)) with rPos := 6 } =
      .ok (some h, { MessageBuffer.ofBytes (message k (hdrBytes h ++ rest)) with rPos := 6 }) := by
    unfold readRegistryHeader
    rcases hkind with rfl | rfl | rfl
    · rw [if_pos (by decide), R.bind_def, hpeek]; rfl
    · rw [if_neg (by decide), if_pos rfl, R.bind_def]
      show (if currentProtocolVersion = ⟨3, 1⟩ then _ else _ : R (Option RegistryMsgHeader)) _ = _
      rw [if_pos (show currentProtocolVersion = ⟨3, 1⟩ from rfl), R.bind_def, hpeek]; rfl
    · rw [if_pos (by decide), R.bind_def, hpeek]; rfl
  unfold Node.receive
  rw [read_headers (MessageBuffer.ofBytes (message k (hdrBytes h ++ rest))) _ kind _ e rfl, hread]
  dsimp only
  rcases hkind with rfl | rfl | rfl
  · rfl
  · rfl
  · rfl

theorem receive_message (n : Node) (p : Peer) (kind : BitVec 8) (k : UInt8) (hk : leBytes 1 kind.toNat = [k]) (h : RegistryMsgHeader) (rest : List UInt8)
    (hp : h.preamble = registryPreamble) (hkind : kind = 1 ∨ kind = 2 ∨ kind = 3) (hsz : (hdrBytes h ++ rest).length + 6 < 2 ^ 32) :
    n.receive p (message k (hdrBytes h ++ rest)) =
      (let b : MessageBuffer := ⟨p.version, message k (hdrBytes h ++ rest), (message k (hdrBytes h ++ rest)).length, 6⟩
       if kind = 1 then n.receiveAnnouncement p h b else if kind = 2 then p.receiveReply b else n.receiveKnown p b) := by
  rw [receive_any n p kind k hk h rest hkind hsz, if_neg (by simp [hp])]

/-! ## Texts -/

theorem decimal_length (n : BitVec 16) : (decimal n).length ≤ 5 := by
  have : ∀ (l : List Nat) (f : Nat → Bool), (l.dropWhile f).length ≤ l.length := fun l f => (List.dropWhile_suffix f).length_le
  have h := this [n.toNat / 10000, n.toNat / 1000 % 10, n.toNat / 100 % 10, n.toNat / 10 % 10] (· = 0)
  simp only [decimal, List.length_map, List.length_append, List.length_cons, List.length_nil] at h ⊢
  omega

theorem unsupportedText_length (h : RegistryMsgHeader) : (unsupportedText h).length < 100 := by
  have h1 := decimal_length h.versionHigh
  have h2 := decimal_length h.versionLow
  have e1 : (text "protocol version ").length = 17 := by decide +kernel
  have e2 : (text ".").length = 1 := by decide +kernel
  have e3 : (text " is not supported").length = 17 := by decide +kernel
  simp only [unsupportedText, List.length_append, e1, e2, e3]
  omega

/-! ## Writers that do not depend on the version -/

def setV (v : ProtocolVersion) : Res (Unit × MessageBuffer) → Res (Unit × MessageBuffer)
  | .ok (u, b) => .ok (u, { b with protocolVersion := v })
  | .throw m => .throw m
  | .ub m => .ub m

def Free (w : R Unit) : Prop := ∀ b v, w { b with protocolVersion := v } = setV v (w b)

theorem free_pure : Free (pure ()) := fun _ _ => rfl

theorem free_throwing (m : String) : Free (throwing m) := fun _ _ => rfl

theorem free_bind {w1 : R Unit} {w2 : Unit → R Unit} (h1 : Free w1) (h2 : ∀ u, Free (w2 u)) : Free (w1 >>= w2) := by
  intro b v
  rw [R.bind_def, R.bind_def, h1]
  cases w1 b with
  | throw m => rfl
  | ub m => rfl
  | ok p => obtain ⟨u, b'⟩ := p; exact h2 u b' v

theorem free_int {w : Nat} (t : BitVec w) : Free (wInt t) := by
  intro b v
  simp only [wInt]
  generalize copyTo _ _ _ = r
  cases r <;> rfl

theorem free_raw (bs : List UInt8) : Free (wRaw bs) := by
  intro b v
  simp only [wRaw]
  generalize copyTo _ _ _ = r
  cases r <;> rfl

theorem free_bytes (bs : List UInt8) : Free (wBytes bs) := by
  unfold wBytes
  split
  · exact free_throwing _
  · exact free_bind (free_int _) fun _ => free_raw _

theorem free_vec {α : Type} {w : α → R Unit} (h : ∀ a, Free (w a)) (l : List α) : Free (wVec w l) := by
  have loop : ∀ l : List α, Free (wLoop w l) := by
    intro l
    induction l with
    | nil => exact free_pure
    | cons a t ih => exact free_bind (h a) fun _ => ih
  unfold wVec
  split
  · exact free_throwing _
  · exact free_bind (free_int _) fun _ => loop _

theorem free_subscriber (m : VAsioMsgSubscriber) : Free (wVAsioMsgSubscriber m) :=
  free_bind (free_int _) fun _ => free_bind (free_bytes _) fun _ => free_bind (free_bytes _) fun _ => free_int _

theorem free_peerInfo (m : VAsioPeerInfo) : Free (wVAsioPeerInfo m) :=
  free_bind (free_bytes _) fun _ => free_bind (free_int _) fun _ => free_bind (free_vec (fun _ => free_bytes _) _) fun _ => free_bytes _

theorem Free.appends {w : R Unit} (h : Free w) {v v' : ProtocolVersion} {bs : List UInt8} (ha : Appends v w bs) : Appends v' w bs := by
  intro b hv hw
  have := h { b with protocolVersion := v } v'
  rw [ha { b with protocolVersion := v } rfl hw] at this
  rw [← hv] at this
  rw [show b = { ({ b with protocolVersion := v } : MessageBuffer) with protocolVersion := b.protocolVersion } from rfl, this]
  rfl

/-! ## Contents of the messages -/

def replyTail (m : ParticipantAnnouncementReply) : R Unit := do
  wInt m.status
  wVec wVAsioMsgSubscriber m.subscribers
  wBytes m.diagnostic

theorem reply_writer {v : ProtocolVersion} (hv : v ≠ ⟨3, 0⟩) (m : ParticipantAnnouncementReply) {bs : List UInt8} :
    Appends v (wParticipantAnnouncementReply m) bs ↔ Appends v (wRegistryMsgHeader m.remoteHeader >>= fun _ => replyTail m) bs := by
  have e : ∀ b : MessageBuffer, b.protocolVersion = v → wParticipantAnnouncementReply m b = (wRegistryMsgHeader m.remoteHeader >>= fun _ => replyTail m) b := by
    intro b hb
    unfold wParticipantAnnouncementReply
    rw [R.bind_def]
    show (if b.protocolVersion = ⟨3, 0⟩ then _ else _ : R Unit) b = _
    rw [if_neg (by rw [hb]; exact hv)]
    rfl
  constructor
  · intro h b hb hw; rw [← e b hb]; exact h b hb hw
  · intro h b hb hw; rw [e b hb]; exact h b hb hw

theorem free_reply (m : ParticipantAnnouncementReply) : Free (wRegistryMsgHeader m.remoteHeader >>= fun _ => replyTail m) :=
  free_bind (free_bind (free_int _) fun _ => free_bind (free_int _) fun _ => free_int _) fun _ =>
    free_bind (free_int _) fun _ => free_bind (free_vec free_subscriber _) fun _ => free_bytes _

/-- Contents of a reply of the current format. -/
theorem reply_contents (m : ParticipantAnnouncementReply) (h : FitsParticipantAnnouncementReply m) :
    ∃ rest, (∀ v, v ≠ ⟨3, 0⟩ → Appends v (wParticipantAnnouncementReply m) (hdrBytes m.remoteHeader ++ rest)) ∧
      ∀ v, v ≠ ⟨3, 0⟩ → Yields v rParticipantAnnouncementReply (hdrBytes m.remoteHeader ++ rest) m := by
  obtain ⟨b1, _, a1, _⟩ := rt_int (ver := ⟨0, 0⟩) m.status (by decide) (by decide)
  obtain ⟨b2, _, a2, _⟩ := rt_vec (ver := ⟨0, 0⟩) _ _ m.subscribers h.1.1 (fun x hx => rt_VAsioMsgSubscriber x (h.1.2 x hx))
  obtain ⟨b3, _, a3, _⟩ := rt_bytes (ver := ⟨0, 0⟩) m.diagnostic h.2
  have ha : Appends ⟨0, 0⟩ (wRegistryMsgHeader m.remoteHeader >>= fun _ => replyTail m) (hdrBytes m.remoteHeader ++ (b1 ++ (b2 ++ b3))) :=
    appends_bind (appends_hdr _) (appends_bind a1 (appends_bind a2 a3))
  refine ⟨b1 ++ (b2 ++ b3), fun v hv => (reply_writer hv m).2 ((free_reply m).appends ha), fun v hv => ?_⟩
  obtain ⟨bs, _, a, y⟩ := rt_Reply31 hv m h
  rw [appends_unique ((reply_writer hv m).2 ((free_reply m).appends ha)) a]
  exact y

theorem known_writer {v : ProtocolVersion} (hv : v ≠ ⟨3, 0⟩) (m : KnownParticipants) {bs : List UInt8} :
    Appends v (wKnownParticipants m) bs ↔ Appends v (wRegistryMsgHeader m.messageHeader >>= fun _ => wVec wVAsioPeerInfo m.peerInfos) bs := by
  have e : ∀ b : MessageBuffer, b.protocolVersion = v → wKnownParticipants m b = (wRegistryMsgHeader m.messageHeader >>= fun _ => wVec wVAsioPeerInfo m.peerInfos) b := by
    intro b hb
    unfold wKnownParticipants
    rw [R.bind_def]
    show (if b.protocolVersion = ⟨3, 0⟩ then _ else _ : R Unit) b = _
    rw [if_neg (by rw [hb]; exact hv)]
  constructor
  · intro h b hb hw; rw [← e b hb]; exact h b hb hw
  · intro h b hb hw; rw [e b hb]; exact h b hb hw

/-- Contents of a list of known participants in the current format. -/
theorem known_contents (m : KnownParticipants) (h : FitsKnownParticipants m) :
    ∃ rest, (∀ v, v ≠ ⟨3, 0⟩ → Appends v (wKnownParticipants m) (hdrBytes m.messageHeader ++ rest)) ∧
      ∀ v, v ≠ ⟨3, 0⟩ → Yields v rKnownParticipants (hdrBytes m.messageHeader ++ rest) m := by
  obtain ⟨b2, _, a2, _⟩ := rt_vec (ver := ⟨0, 0⟩) _ _ m.peerInfos h.1 (fun x hx => rt_VAsioPeerInfo x (h.2 x hx))
  have free : Free (wRegistryMsgHeader m.messageHeader >>= fun _ => wVec wVAsioPeerInfo m.peerInfos) :=
    free_bind (free_bind (free_int _) fun _ => free_bind (free_int _) fun _ => free_int _) fun _ => free_vec free_peerInfo _
  have ha : Appends ⟨0, 0⟩ (wRegistryMsgHeader m.messageHeader >>= fun _ => wVec wVAsioPeerInfo m.peerInfos) (hdrBytes m.messageHeader ++ b2) := appends_bind (appends_hdr _) a2
  refine ⟨b2, fun v hv => (known_writer hv m).2 (free.appends ha), fun v hv => ?_⟩
  obtain ⟨bs, _, a, y⟩ := rt_Known31 hv m h
  rw [appends_unique ((known_writer hv m).2 (free.appends ha)) a]
  exact y

/-- Contents of an announcement of the current format. -/
theorem announcement_contents (m : ParticipantAnnouncement) (h : FitsParticipantAnnouncement m) (hv : versionOf m.messageHeader ≠ ⟨3, 0⟩) (v : ProtocolVersion) :
    ∃ rest, AppendsTo v (versionOf m.messageHeader) (wParticipantAnnouncement m) (hdrBytes m.messageHeader ++ rest) ∧
      Yields (versionOf m.messageHeader) rParticipantAnnouncement (hdrBytes m.messageHeader ++ rest) m := by
  obtain ⟨bs, _, a, y⟩ := rt_Announcement31 m h hv
  obtain ⟨b2, _, a2, _⟩ := rt_VAsioPeerInfo (ver := versionOf m.messageHeader) m.peerInfo h.1
  obtain ⟨b3, _, a3, _⟩ := rt_bytes (ver := versionOf m.messageHeader) m.simulationName h.2
  have ha : Appends (versionOf m.messageHeader) (do wRegistryMsgHeader m.messageHeader; wVAsioPeerInfo m.peerInfo; wBytes m.simulationName)
      (hdrBytes m.messageHeader ++ (b2 ++ b3)) := appends_bind (appends_hdr _) (appends_bind a2 a3)
  have ha' : Appends (versionOf m.messageHeader) (do
      let version ← getProtocolVersion
      if version = ⟨3, 0⟩ then serializeV30Announcement m
      else do wRegistryMsgHeader m.messageHeader; wVAsioPeerInfo m.peerInfo; wBytes m.simulationName) (hdrBytes m.messageHeader ++ (b2 ++ b3)) := by
    intro b hb hw
    rw [R.bind_def]
    show (if b.protocolVersion = ⟨3, 0⟩ then _ else _ : R Unit) b = _
    rw [if_neg (by rw [hb]; exact hv)]
    exact ha b hb hw
  have e := appends_unique a ha'
  refine ⟨b2 ++ b3, fun b _ hw => ?_, e ▸ y⟩
  exact announcement_after_version ha' b hw

theorem appends_hdr30 {ver : ProtocolVersion} : Appends ver (wRegistryMsgHeader30 .default) (hdrBytes (headerOf ⟨3, 0⟩)) := by
  rw [hdrBytes_headerOf, headerBytes, List.append_assoc]
  exact appends_bind (appends_raw [0x56, 0x49, 0x42, 0x2d]) (appends_bind (appends_int (3 : BitVec 16) (by decide)) (appends_int (0 : BitVec 16) (by decide)))

/-- Contents of an announcement of version 3.0. -/
theorem announcement30_contents (m : ParticipantAnnouncement) (h : FitsParticipantAnnouncement m) (hv : versionOf m.messageHeader = ⟨3, 0⟩) (v : ProtocolVersion) :
    ∃ rest, AppendsTo v ⟨3, 0⟩ (wParticipantAnnouncement m) (hdrBytes (headerOf ⟨3, 0⟩) ++ rest) ∧
      Yields ⟨3, 0⟩ rParticipantAnnouncement (hdrBytes (headerOf ⟨3, 0⟩) ++ rest) ⟨⟨registryPreamble, 3, 0⟩, { m.peerInfo with capabilities := [] }, []⟩ := by
  obtain ⟨bs, _, a, y⟩ := rt_Announcement30 m h
  obtain ⟨b2, _, a2, _⟩ := rt_VAsioPeerInfo30 (ver := ⟨3, 0⟩) ⟨[], 0, [], 0⟩ (by simp [Short]) (by simp [Short])
  obtain ⟨b3, _, a3, _⟩ := rt_VAsioPeerUri30 (ver := ⟨3, 0⟩) ⟨m.peerInfo.participantName, m.peerInfo.participantId, m.peerInfo.acceptorUris⟩ h.1.1 h.1.2.1.1 h.1.2.1.2
  have ha : Appends ⟨3, 0⟩ (serializeV30Announcement m) (hdrBytes (headerOf ⟨3, 0⟩) ++ (b2 ++ b3)) := appends_bind appends_hdr30 (appends_bind a2 a3)
  have ha' : Appends ⟨3, 0⟩ (do
      let version ← getProtocolVersion
      if version = ⟨3, 0⟩ then serializeV30Announcement m
      else do wRegistryMsgHeader m.messageHeader; wVAsioPeerInfo m.peerInfo; wBytes m.simulationName) (hdrBytes (headerOf ⟨3, 0⟩) ++ (b2 ++ b3)) := by
    intro b hb hw
    rw [R.bind_def]
    show (if b.protocolVersion = ⟨3, 0⟩ then _ else _ : R Unit) b = _
    rw [if_pos hb]
    exact ha b hb hw
  have e := appends_unique a ha'
  refine ⟨b2 ++ b3, fun b _ hw => ?_, e ▸ y⟩
  show (setProtocolVersion (versionOf m.messageHeader) >>= _) b = _
  rw [hv]
  exact announcement_after_version ha' b hw

/-- Contents of a list of known participants in the format of version 3.0: a list that is always empty comes first. -/
theorem known30_contents (m : KnownParticipants) (h : FitsKnownParticipants m) :
    ∃ rest, Appends ⟨3, 0⟩ (wKnownParticipants m) (hdrBytes (headerOf ⟨3, 0⟩) ++ (leBytes 4 0 ++ rest)) := by
  obtain ⟨b3, _, a3, _⟩ := rt_vec (ver := ⟨3, 0⟩) wVAsioPeerUri30 rVAsioPeerUri30
    (m.peerInfos.map (fun i => ⟨i.participantName, i.participantId, i.acceptorUris⟩)) (by simpa [ShortList] using h.1) (by
      intro x hx
      simp only [List.mem_map] at hx
      obtain ⟨s, hs, rfl⟩ := hx
      have := h.2 s hs
      exact rt_VAsioPeerUri30 _ this.1 this.2.1.1 this.2.1.2)
  have a2 : Appends ⟨3, 0⟩ (wVec wVAsioPeerInfo30 []) (leBytes 4 0) := by
    have := appends_bind (w2 := fun _ => (pure () : R Unit)) (appends_int (ver := ⟨3, 0⟩) (0 : BitVec 32) (by decide)) (b2 := []) (fun b _ _ => by simp [R.pure_def])
    rw [List.append_nil] at this
    exact this
  refine ⟨b3, fun b hb hw => ?_⟩
  unfold wKnownParticipants
  rw [R.bind_def]
  show (if b.protocolVersion = ⟨3, 0⟩ then _ else _ : R Unit) b = _
  rw [if_pos hb]
  exact appends_bind (w2 := fun _ => wVec wVAsioPeerInfo30 [] >>= fun _ => _) appends_hdr30 (appends_bind a2 a3) b hb hw

/-- Contents of a reply of version 3.0 without subscribers. -/
theorem reply30_contents (m : ParticipantAnnouncementReply) (h : m.subscribers = []) : Appends ⟨3, 0⟩ (wParticipantAnnouncementReply m) (leBytes 4 0) := by
  intro b hb hw
  unfold wParticipantAnnouncementReply
  rw [R.bind_def]
  show (if b.protocolVersion = ⟨3, 0⟩ then _ else _ : R Unit) b = _
  rw [if_pos hb, serializeV30Reply, h]
  have := appends_bind (w2 := fun _ => (pure () : R Unit)) (appends_int (ver := ⟨3, 0⟩) (0 : BitVec 32) (by decide)) (b2 := []) (fun b _ _ => by simp [R.pure_def])
  rw [List.append_nil] at this
  exact this b hb hw

/-! ## Messages -/

theorem kind1 : leBytes 1 (1 : BitVec 8).toNat = [1] := by decide +kernel
theorem kind2 : leBytes 1 (2 : BitVec 8).toNat = [2] := by decide +kernel
theorem kind3 : leBytes 1 (3 : BitVec 8).toNat = [3] := by decide +kernel

/-- Headers are found again when a message that starts with one is sent. -/
theorem serializeAt_hdr {v v' : ProtocolVersion} {kind : BitVec 8} {k : UInt8} (hk : leBytes 1 kind.toNat = [k]) {w : R Unit} {h : RegistryMsgHeader} {rest : List UInt8}
    (ha : AppendsTo v v' w (hdrBytes h ++ rest)) (hkind : kind = 1 ∨ kind = 3 ∨ (kind = 2 ∧ v' = ⟨3, 1⟩)) :
    serializeAt v kind w = if (hdrBytes h ++ rest).length + 6 > uint32Max then .throw "SerializedMessage::Serialize: message buffer is too large"
      else .ok (message k (hdrBytes h ++ rest)) := by
  rw [serializeAt_eq hk ha]
  have hpeek : ∀ n, peekRegistryMessageHeader
      ⟨v', leBytes 4 0 ++ (leBytes 1 kindRegistryMessage.toNat ++ (leBytes 1 kind.toNat ++ (hdrBytes h ++ rest))), n, 6⟩ =
      .ok (h, ⟨v', leBytes 4 0 ++ (leBytes 1 kindRegistryMessage.toNat ++ (leBytes 1 kind.toNat ++ (hdrBytes h ++ rest))), n, 6⟩) := fun n =>
    peek_hdr h _ (leBytes 4 0 ++ (leBytes 1 kindRegistryMessage.toNat ++ leBytes 1 kind.toNat)) rest (by simp) (by simp)
  have hr : readRegistryHeader kind ⟨v', leBytes 4 0 ++ (leBytes 1 kindRegistryMessage.toNat ++ (leBytes 1 kind.toNat ++ (hdrBytes h ++ rest))), (hdrBytes h ++ rest).length + 6, 6⟩ =
      .ok (some h, ⟨v', leBytes 4 0 ++ (leBytes 1 kindRegistryMessage.toNat ++ (leBytes 1 kind.toNat ++ (hdrBytes h ++ rest))), (hdrBytes h ++ rest).length + 6, 6⟩) := by
    unfold readRegistryHeader
    rcases hkind with rfl | rfl | ⟨rfl, rfl⟩
    · rw [if_pos (by decide), R.bind_def, hpeek]; rfl
    · rw [if_pos (by decide), R.bind_def, hpeek]; rfl
    · rw [if_neg (by decide), if_pos rfl, R.bind_def]
      show (if (⟨3, 1⟩ : ProtocolVersion) = ⟨3, 1⟩ then _ else _ : R (Option RegistryMsgHeader)) _ = _
      rw [if_pos (show (⟨3, 1⟩ : ProtocolVersion) = ⟨3, 1⟩ from rfl), R.bind_def, hpeek]; rfl
  rw [hr]

theorem sent_ok {c : List UInt8} {k : UInt8} {blob : List UInt8}
    (h : (if c.length + 6 > uint32Max then .throw "SerializedMessage::Serialize: message buffer is too large" else .ok (message k c) : Res (List UInt8)) = .ok blob) :
    blob = message k c ∧ c.length + 6 < 2 ^ 32 := by
  split at h
  · cases h
  · injection h with h
    refine ⟨h.symm, ?_⟩
    rename_i hn
    simp only [uint32Max] at hn
    omega

theorem reply_received {m : ParticipantAnnouncementReply} (hf : FitsParticipantAnnouncementReply m) (hp : m.remoteHeader.preamble = registryPreamble) {blob : List UInt8}
    (hs : serializeAt ⟨3, 1⟩ 2 (wParticipantAnnouncementReply m) = .ok blob) (n : Node) (p : Peer) (hv : p.version ≠ ⟨3, 0⟩) :
    n.receive p blob = if m.status = 0 then (p, [.failed p.isRegistry m.diagnostic])
      else ({ p with version := versionOf m.remoteHeader }, m.subscribers.map .subscriber ++ [.completed p.isRegistry]) := by
  obtain ⟨rest, ha, hy⟩ := reply_contents m hf
  rw [serializeAt_hdr kind2 (AppendsTo.of (ha ⟨3, 1⟩ (by decide))) (.inr (.inr ⟨rfl, rfl⟩))] at hs
  obtain ⟨rfl, hsz⟩ := sent_ok hs
  rw [receive_message n p 2 2 kind2 _ rest hp (.inr (.inl rfl)) hsz]
  dsimp only
  rw [if_neg (by decide), if_pos rfl]
  unfold Peer.receiveReply
  rw [hy p.version hv _ (leBytes 4 ((hdrBytes m.remoteHeader ++ rest).length + 6) ++ [5, 2]) [] rfl (by simp [message]) (by simp)]

theorem known_received {m : KnownParticipants} (hf : FitsKnownParticipants m) (hp : m.messageHeader.preamble = registryPreamble) {blob : List UInt8}
    (hs : serializeAt ⟨3, 1⟩ 3 (wKnownParticipants m) = .ok blob) (n : Node) (p : Peer) (hv : p.version ≠ ⟨3, 0⟩) (hsup : supported m.messageHeader = true) :
    n.receive p blob = ({ p with version := versionOf m.messageHeader }, [.known m.peerInfos]) := by
  obtain ⟨rest, ha, hy⟩ := known_contents m hf
  rw [serializeAt_hdr kind3 (AppendsTo.of (ha ⟨3, 1⟩ (by decide))) (.inr (.inl rfl))] at hs
  obtain ⟨rfl, hsz⟩ := sent_ok hs
  rw [receive_message n p 3 3 kind3 _ rest hp (.inr (.inr rfl)) hsz]
  dsimp only
  rw [if_neg (by decide), if_neg (by decide)]
  unfold Node.receiveKnown
  rw [hy p.version hv _ (leBytes 4 ((hdrBytes m.messageHeader ++ rest).length + 6) ++ [5, 3]) [] rfl (by simp [message]) (by simp)]
  dsimp only
  rw [if_pos hsup]

/-- What a node does with an announcement it has decoded. -/
def Node.answer (n : Node) (p1 : Peer) (a : ParticipantAnnouncement) : Peer × List Out :=
  if n.allowAny = false ∧ a.simulationName ≠ n.simulationName then
    (p1, sendRes (failedReply p1.version p1.version (otherSimulationText a.simulationName n.simulationName)))
  else
    let p2 := { p1 with info := a.peerInfo, simulationName := a.simulationName }
    match n.judge a with
    | some diagnostic => (p2, sendRes (failedReply p2.version p2.version diagnostic))
    | none =>
      (p2, (match n.known with | some k => sendRes (knownMessage p2.version (k a.peerInfo.participantName)) | none => []) ++
        .associated a.simulationName a.peerInfo.participantName :: sendRes (n.reply p2.version))

theorem announcement_received (n m : Node) (p : Peer) (hm : Fits m) (hv : m.version = ⟨3, 1⟩) {blob : List UInt8} (hs : m.announce = .ok blob) :
    n.receive p blob = n.answer { p with version := ⟨3, 1⟩ } m.announcement := by
  have hver : versionOf m.announcement.messageHeader = ⟨3, 1⟩ := hv
  obtain ⟨rest, ha, hy⟩ := announcement_contents m.announcement ⟨hm.1, hm.2.1⟩ (by rw [hver]; decide) currentProtocolVersion
  unfold Node.announce at hs
  rw [serializeAt_hdr kind1 ha (.inl rfl)] at hs
  obtain ⟨rfl, hsz⟩ := sent_ok hs
  rw [receive_message n p 1 1 kind1 _ rest rfl (.inl rfl) hsz]
  dsimp only
  rw [if_pos rfl]
  unfold Node.receiveAnnouncement
  rw [if_pos (by simp [supported, hver])]
  dsimp only
  rw [hy _ (leBytes 4 ((hdrBytes m.announcement.messageHeader ++ rest).length + 6) ++ [5, 1]) [] rfl (by simp [message]) (by simp)]
  rw [hver]
  rfl

theorem announcement30_received (n m : Node) (p : Peer) (hm : Fits m) (hv : m.version = ⟨3, 0⟩) {blob : List UInt8} (hs : m.announce = .ok blob) :
    n.receive p blob = n.answer { p with version := ⟨3, 0⟩ } ⟨⟨registryPreamble, 3, 0⟩, { m.info with capabilities := [] }, []⟩ := by
  have hver : versionOf m.announcement.messageHeader = ⟨3, 0⟩ := hv
  obtain ⟨rest, ha, hy⟩ := announcement30_contents m.announcement ⟨hm.1, hm.2.1⟩ hver currentProtocolVersion
  unfold Node.announce at hs
  rw [serializeAt_hdr kind1 ha (.inl rfl)] at hs
  obtain ⟨rfl, hsz⟩ := sent_ok hs
  rw [receive_message n p 1 1 kind1 _ rest rfl (.inl rfl) hsz]
  dsimp only
  rw [if_pos rfl]
  unfold Node.receiveAnnouncement
  rw [if_pos (by decide)]
  dsimp only
  rw [show versionOf (headerOf ⟨3, 0⟩) = ⟨3, 0⟩ from rfl,
    hy _ (leBytes 4 ((hdrBytes (headerOf ⟨3, 0⟩) ++ rest).length + 6) ++ [5, 1]) [] rfl (by simp [message]) (by simp)]
  rfl

/-- An announcement of a version that is not understood is not decoded. -/
theorem unsupported_received (n : Node) (p : Peer) (v : ProtocolVersion) (hv : v ∉ understood) (rest : List UInt8) (hsz : rest.length + 14 < 2 ^ 32) :
    n.receive p (message 1 (headerBytes v ++ rest)) = (p, sendRes (failedReply p.version n.version (unsupportedText (headerOf v)))) := by
  rw [← hdrBytes_headerOf, receive_message n p 1 1 kind1 _ rest rfl (.inl rfl) (by rw [List.length_append, hdrBytes_length]; omega)]
  dsimp only
  rw [if_pos rfl]
  unfold Node.receiveAnnouncement
  rw [if_neg]
  simp only [understood, List.mem_cons, List.not_mem_nil, or_false, not_or] at hv
  have e : versionOf (headerOf v) = v := rfl
  simp only [supported, e, Bool.or_eq_true, decide_eq_true_eq, not_or]
  exact hv

theorem failed_fits (told : ProtocolVersion) (diagnostic : List UInt8) (h : Short diagnostic) : FitsParticipantAnnouncementReply ⟨headerOf told, 0, [], diagnostic⟩ :=
  ⟨⟨by simp [ShortList], by simp⟩, h⟩

/-- On a connection without a version, no reply can be sent. -/
theorem failed_fresh (told : ProtocolVersion) (diagnostic : List UInt8) (h : Short diagnostic) :
    failedReply ⟨0, 0⟩ told diagnostic = .throw "SerializedMessage: Unsupported protocol version encountered during handshake" := by
  obtain ⟨rest, ha, _⟩ := reply_contents _ (failed_fits told diagnostic h)
  unfold failedReply
  rw [serializeAt_eq kind2 (AppendsTo.of (ha ⟨0, 0⟩ (by decide)))]
  unfold readRegistryHeader
  rw [if_neg (by decide), if_pos rfl, R.bind_def]
  rfl

theorem reply30_sent (m : ParticipantAnnouncementReply) (h : m.subscribers = []) : serializeAt ⟨3, 0⟩ 2 (wParticipantAnnouncementReply m) = .ok (message 2 [0, 0, 0, 0]) := by
  rw [serializeAt_eq kind2 (AppendsTo.of (reply30_contents m h))]
  decide +kernel

/-- The list of known participants in the format of version 3.0, on a connection without a version. -/
theorem known30_received {m : KnownParticipants} (hf : FitsKnownParticipants m) {blob : List UInt8} (hs : serializeAt ⟨3, 0⟩ 3 (wKnownParticipants m) = .ok blob) (n : Node) (p : Peer)
    (hv : p.version ≠ ⟨3, 0⟩) : n.receive p blob = ({ p with version := ⟨3, 0⟩ }, [.known []]) := by
  obtain ⟨rest, ha⟩ := known30_contents m hf
  rw [serializeAt_hdr kind3 (AppendsTo.of ha) (.inr (.inl rfl))] at hs
  obtain ⟨rfl, hsz⟩ := sent_ok hs
  rw [receive_message n p 3 3 kind3 _ _ rfl (.inr (.inr rfl)) hsz]
  dsimp only
  rw [if_neg (by decide), if_neg (by decide)]
  unfold Node.receiveKnown
  have hvec : Yields p.version (rVec rVAsioPeerInfo) (leBytes 4 0) [] := by
    have := rt_vec (ver := p.version) wVAsioPeerInfo rVAsioPeerInfo [] (by simp [ShortList]) (by simp)
    obtain ⟨bs, _, a, y⟩ := this
    have a2 : Appends p.version (wVec wVAsioPeerInfo []) (leBytes 4 0) := by
      have := appends_bind (w2 := fun _ => (pure () : R Unit)) (appends_int (ver := p.version) (0 : BitVec 32) (by decide)) (b2 := []) (fun b _ _ => by simp [R.pure_def])
      rw [List.append_nil] at this
      exact this
    rw [appends_unique a a2] at y
    exact y
  have hk := yields_bind (k := fun h => rVec rVAsioPeerInfo >>= fun l => pure (⟨h, l⟩ : KnownParticipants)) (yields_hdr (ver := p.version) (headerOf ⟨3, 0⟩))
    (yields_bind (k := fun l => pure (⟨headerOf ⟨3, 0⟩, l⟩ : KnownParticipants)) hvec (yields_pure _))
  rw [List.append_nil] at hk
  have hb := hk ⟨p.version, message 3 (hdrBytes (headerOf ⟨3, 0⟩) ++ (leBytes 4 0 ++ rest)), (message 3 (hdrBytes (headerOf ⟨3, 0⟩) ++ (leBytes 4 0 ++ rest))).length, 6⟩
    (leBytes 4 ((hdrBytes (headerOf ⟨3, 0⟩) ++ (leBytes 4 0 ++ rest)).length + 6) ++ [5, 3]) rest rfl (by simp [message]) (by simp)
  unfold rKnownParticipants
  rw [R.bind_def]
  dsimp only [getProtocolVersion]
  rw [if_neg hv, hb]
  dsimp only
  rw [if_pos (by decide)]
  rfl

/-- A failure can be told on a connection with version 3.1. -/
theorem failed_sent (told : ProtocolVersion) (diagnostic : List UInt8) (h : diagnostic.length + 23 < 2 ^ 32) : ∃ blob, failedReply ⟨3, 1⟩ told diagnostic = .ok blob := by
  have hempty : Appends ⟨3, 1⟩ (wVec wVAsioMsgSubscriber []) (leBytes 4 0) := by
    have := appends_bind (w2 := fun _ => (pure () : R Unit)) (appends_int (ver := ⟨3, 1⟩) (0 : BitVec 32) (by decide)) (b2 := []) (fun b _ _ => by simp [R.pure_def])
    rw [List.append_nil] at this
    exact this
  have hs : Short diagnostic := by unfold Short; omega
  have ha := (reply_writer (v := ⟨3, 1⟩) (by decide) ⟨headerOf told, 0, [], diagnostic⟩).2
    (appends_bind (appends_hdr _) (appends_bind (appends_int _ (by decide)) (appends_bind hempty (appends_bytes diagnostic hs))))
  unfold failedReply
  rw [serializeAt_hdr kind2 (AppendsTo.of ha) (.inr (.inr ⟨rfl, rfl⟩)), if_neg]
  · exact ⟨_, rfl⟩
  · simp only [List.length_append, hdrBytes_length, leBytes_length, uint32Max]
    omega

theorem foreign_received (n : Node) (p : Peer) {k : UInt8} (hk : k = 1 ∨ k = 2 ∨ k = 3) (hv : k = 2 → p.version ≠ ⟨3, 0⟩)
    {x : BitVec 32} (hx : x ≠ 0x2d424956) (v : ProtocolVersion) (rest : List UInt8) (hr : rest.length + 14 < 2 ^ 32) :
    n.receive p (message k (leBytes 4 x.toNat ++ leBytes 2 v.major.toNat ++ leBytes 2 v.minor.toNat ++ rest)) = (p, [.ignored]) := by
  have e : leBytes 4 x.toNat ++ leBytes 2 v.major.toNat ++ leBytes 2 v.minor.toNat ++ rest = hdrBytes ⟨x, v.major, v.minor⟩ ++ rest := by simp [hdrBytes]
  have hsz : (hdrBytes ⟨x, v.major, v.minor⟩ ++ rest).length + 6 < 2 ^ 32 := by rw [List.length_append, hdrBytes_length]; omega
  rw [e]
  rcases hk with rfl | rfl | rfl
  · rw [receive_any n p 1 1 kind1 _ rest (.inl rfl) hsz, if_pos ⟨by simp [preambleIsPresent], hx⟩]
  · rw [receive_any n p 2 2 kind2 _ rest (.inr (.inl rfl)) hsz, if_pos ⟨by simpa [preambleIsPresent] using hv rfl, hx⟩]
  · rw [receive_any n p 3 3 kind3 _ rest (.inr (.inr rfl)) hsz, if_pos ⟨by simp [preambleIsPresent], hx⟩]

end SilKit.VersionHandshake
