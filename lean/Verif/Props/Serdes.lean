import Verif.Lemmas.SerializedMessage
/-!
# C06 – wire serialization round-trips, C07 – decoding arbitrary bytes is memory safe
-/
namespace SilKit.Props
open Spec Wire MessageBuffer

/-! ## C06 -/

/-- **C06.** For every message type and every value whose strings and lists have fewer than 2^32 elements: encoding
succeeds, and wherever the produced bytes are embedded in a message, decoding returns the value (see `MsgType.received`
for the two lossy cases: wall clock times and unnamed log topics) and consumes exactly these bytes. -/
theorem C06_wire_roundtrip (ver : ProtocolVersion) (t : MsgType) (m : t.Val) (h : t.Fits m) :
    RoundTrips ver (t.write m) t.read (t.received m) := rt_all t m h

/-- **C06 (unchanged), partial.** Except for participant states and log messages, the decoded value is the value that was
sent. What is missing: wall clock times are cut to microseconds (next theorems), so "unchanged" is false for those two
message types. -/
theorem C06_unchanged_partial (ver : ProtocolVersion) (t : MsgType) (ht : t ≠ .participantStatus ∧ t ≠ .logMsg)
    (m : t.Val) (h : t.Fits m) : RoundTrips ver (t.write m) t.read m := by
  have := rt_all (ver := ver) t m h
  cases t <;> first | exact this | exact absurd rfl ht.1 | exact absurd rfl ht.2

/-- The rounding does nothing to times that are whole microseconds. -/
theorem C06_whole_microseconds_unchanged (t : BitVec 64) (h : 1000 ∣ t.toInt) : truncMicros t = t := by
  unfold truncMicros
  rw [Int.tdiv_mul_cancel h]
  simp

/-- Participant states with whole-microsecond times are received unchanged. -/
theorem C06_participant_status_unchanged (ver : ProtocolVersion) (m : ParticipantStatus) (h : FitsParticipantStatus m)
    (h1 : 1000 ∣ m.enterTime.toInt) (h2 : 1000 ∣ m.refreshTime.toInt) :
    RoundTrips ver (wParticipantStatus m) rParticipantStatus m := by
  have := rt_ParticipantStatus (ver := ver) m h
  rwa [C06_whole_microseconds_unchanged _ h1, C06_whole_microseconds_unchanged _ h2] at this

/-- Log messages with whole-microsecond times and a named topic are received unchanged. -/
theorem C06_log_message_unchanged (ver : ProtocolVersion) (m : LogMsg) (h : FitsLogMsg m)
    (h1 : 1000 ∣ m.time.toInt) (h2 : m.topic.toNat ≤ 22) :
    RoundTrips ver (wLogMsg m) rLogMsg m := by
  have := rt_LogMsg (ver := ver) m h
  rw [C06_whole_microseconds_unchanged _ h1] at this
  unfold knownTopic at this
  rwa [if_pos h2] at this

/-- A time point of 1999 ns arrives as 1000 ns: the full statement "reconstructed unchanged" is false. -/
theorem C06_time_precision_is_lost :
    ¬ ∀ m : ParticipantStatus, FitsParticipantStatus m →
      RoundTrips currentProtocolVersion (wParticipantStatus m) rParticipantStatus m := by
  intro h
  let m : ParticipantStatus := ⟨[65], 10, [], 1999, 1000⟩
  have hm : FitsParticipantStatus m := by
    simp [FitsParticipantStatus, Short, m]
  obtain ⟨b1, _, a1, y1⟩ := h m hm
  obtain ⟨b2, _, a2, y2⟩ := rt_ParticipantStatus (ver := currentProtocolVersion) m hm
  have := appends_unique a1 a2
  subst this
  have e1 := y1 (MessageBuffer.ofBytes b1) [] [] rfl (by simp [MessageBuffer.ofBytes]) rfl
  have e2 := y2 (MessageBuffer.ofBytes b1) [] [] rfl (by simp [MessageBuffer.ofBytes]) rfl
  rw [e1] at e2
  simp only [Res.ok.injEq, Prod.mk.injEq] at e2
  have := congrArg ParticipantStatus.enterTime e2.1
  revert this
  decide

/-- **C06 (framing).** A simulation or middleware message of any type is sent as a frame that starts with its own
length, and the receiver gets back kind, receiver index, sender address and message. -/
theorem C06_framed_message_roundtrip (t : MsgType) (m : t.Val) (h : t.Fits m) (kind : BitVec 8)
    (hk : kind = kindSimMsg ∨ kind = kindMwMsg) (remoteIndex : BitVec 64) (sender : EndpointAddress)
    (bytes : List UInt8) (hs : serialize kind 0 remoteIndex sender (t.write m) = .ok bytes) :
    leVal (bytes.take 4) = bytes.length ∧
    parse t.read bytes =
      .ok (⟨BitVec.ofNat 32 bytes.length, kind, none, none, none, some remoteIndex, some sender⟩, t.received m) :=
  ⟨(serialize_length_prefix hs).2, frame_sim hk remoteIndex sender (rt_all t m h) hs⟩

/-- **C06 (framing).** Subscription messages. -/
theorem C06_framed_subscription_roundtrip (m : VAsioMsgSubscriber) (h : FitsVAsioMsgSubscriber m)
    (a : SubscriptionAcknowledge) (ha : FitsSubscriptionAcknowledge a) (b1 b2 : List UInt8)
    (hs1 : serialize kindSubscriptionAnnouncement 0 0 ⟨0, 0⟩ (wVAsioMsgSubscriber m) = .ok b1)
    (hs2 : serialize kindSubscriptionAcknowledge 0 0 ⟨0, 0⟩ (wSubscriptionAcknowledge a) = .ok b2) :
    (∃ hd, parse rVAsioMsgSubscriber b1 = .ok (hd, m) ∧ hd.messageKind = kindSubscriptionAnnouncement) ∧
    (∃ hd, parse rSubscriptionAcknowledge b2 = .ok (hd, a) ∧ hd.messageKind = kindSubscriptionAcknowledge) :=
  ⟨⟨_, frame_plain (Or.inl rfl) 0 _ (rt_VAsioMsgSubscriber m h) hs1, rfl⟩,
   ⟨_, frame_plain (Or.inr rfl) 0 _ (rt_SubscriptionAcknowledge a ha) hs2, rfl⟩⟩

/-- **C06 (handshake, current protocol).** Announcement, reply, known participants and proxy messages between two
participants of protocol version 3.1 arrive unchanged. -/
theorem C06_handshake_roundtrip (p : ParticipantAnnouncement) (hp : FitsParticipantAnnouncement p)
    (hv : p.messageHeader.versionHigh = 3 ∧ p.messageHeader.versionLow = 1)
    (r : ParticipantAnnouncementReply) (hr : FitsParticipantAnnouncementReply r)
    (k : KnownParticipants) (hk : FitsKnownParticipants k) (x : ProxyMessage) (hx : FitsProxyMessage x) :
    RoundTrips ⟨3, 1⟩ (wParticipantAnnouncement p) rParticipantAnnouncement p ∧
    RoundTrips ⟨3, 1⟩ (wParticipantAnnouncementReply r) rParticipantAnnouncementReply r ∧
    RoundTrips ⟨3, 1⟩ (wKnownParticipants k) rKnownParticipants k ∧
    RoundTrips ⟨3, 1⟩ (wProxyMessage x) rProxyMessage x := by
  refine ⟨?_, rt_Reply31 (by decide) r hr, rt_Known31 (by decide) k hk, rt_ProxyMessage (by decide) x hx⟩
  have h := rt_Announcement31 p hp (by rw [hv.1, hv.2]; decide)
  rw [hv.1, hv.2] at h
  obtain ⟨bs, hne, ha, hy⟩ := h
  refine ⟨bs, hne, ?_, hy⟩
  intro b hb hw
  have := announcement_after_version ha b hw
  unfold wParticipantAnnouncement
  rw [hv.1, hv.2, this]
  rw [← hb]

/-- **C06 (handshake with a 3.0 peer).** Everything but the fields that did not exist in protocol 3.0 survives:
capabilities, simulation name, data versions of subscriptions and diagnostic texts are dropped. -/
theorem C06_legacy_handshake (p : ParticipantAnnouncement) (hp : FitsParticipantAnnouncement p)
    (hv : p.messageHeader.versionHigh = 3 ∧ p.messageHeader.versionLow = 0)
    (r : ParticipantAnnouncementReply) (hr : FitsParticipantAnnouncementReply r)
    (k : KnownParticipants) (hk : FitsKnownParticipants k) :
    RoundTrips ⟨3, 0⟩ (wParticipantAnnouncement p) rParticipantAnnouncement
      ⟨⟨registryPreamble, 3, 0⟩, { p.peerInfo with capabilities := [] }, []⟩ ∧
    RoundTrips ⟨3, 0⟩ (wParticipantAnnouncementReply r) rParticipantAnnouncementReply
      ⟨⟨registryPreamble, 3, 0⟩, 1, r.subscribers.map (fun s => { s with version := 0 }), []⟩ ∧
    RoundTrips ⟨3, 0⟩ (wKnownParticipants k) rKnownParticipants
      ⟨⟨registryPreamble, 3, 0⟩, k.peerInfos.map (fun i => { i with capabilities := [] })⟩ := by
  refine ⟨?_, rt_Reply30 r hr, rt_Known30 k hk⟩
  obtain ⟨bs, hne, ha, hy⟩ := rt_Announcement30 p hp
  refine ⟨bs, hne, ?_, hy⟩
  intro b hb hw
  have := announcement_after_version ha b hw
  unfold wParticipantAnnouncement
  rw [hv.1, hv.2, this]
  rw [← hb]

/-- **C06 (older sender).** A log message from a sender that does not know the trailing members (key/values and topic)
is read with their default values. -/
theorem C06_old_log_message (m : LogMsg) (h : FitsLogMsg m) :
    ∃ bytes, Appends currentProtocolVersion
        (do wBytes m.loggerName; wInt m.level; wTimePoint m.time; wSourceLoc m.source; wBytes m.payload) bytes ∧
      ∃ b', rLogMsg (MessageBuffer.ofBytes bytes) =
        .ok ({ m with time := truncMicros m.time, keyValues := [], topic := 0 }, b') := by
  obtain ⟨h0, h1, h2, h3⟩ := h
  let k : List UInt8 → BitVec 32 → BitVec 64 → SourceLoc → List UInt8 → R LogMsg := fun loggerName level time source payload =>
    remainingBytesLeft >>= fun left => if left > 0 then do
      let keyValues ← rVec (rPair rBytes rBytes)
      rLogMsgTopic ⟨loggerName, level, time, source, payload, keyValues, 0⟩
    else rLogMsgTopic ⟨loggerName, level, time, source, payload, [], 0⟩
  have h : RoundTrips currentProtocolVersion
      (do wBytes m.loggerName; wInt m.level; wTimePoint m.time; wSourceLoc m.source; wBytes m.payload)
      (rBytes >>= fun a => rInt 32 >>= fun b => rTimePoint >>= fun c => rSourceLoc >>= fun d => rBytes >>= fun e =>
        pure (k a b c d e)) (k m.loggerName m.level (truncMicros m.time) m.source m.payload) := by
    refine rt_bind (rt_bytes m.loggerName h0) ?_
    refine rt_bind (rt_int m.level (by decide) (by decide)) ?_
    refine rt_bind (rt_timePoint m.time) ?_
    refine rt_bind (rt_SourceLoc m.source h1) ?_
    exact rt_last (rt_bytes m.payload h2) rfl
  obtain ⟨bs, hne, ha, hy⟩ := h
  refine ⟨bs, ha, ?_⟩
  have e := hy (MessageBuffer.ofBytes bs) [] [] rfl (by simp [MessageBuffer.ofBytes]) rfl
  have hr : rLogMsg = ((rBytes >>= fun a => rInt 32 >>= fun b => rTimePoint >>= fun c => rSourceLoc >>= fun d =>
      rBytes >>= fun e => pure (k a b c d e)) >>= id) := by
    simp only [R_assoc, R_pure_bind]
    rfl
  rw [hr, R.bind_def, e]
  simp only [id, k]
  refine ⟨{ (MessageBuffer.ofBytes bs) with rPos := bs.length }, ?_⟩
  have hz : remainingBytesLeft { (MessageBuffer.ofBytes bs) with rPos := (MessageBuffer.ofBytes bs).rPos + bs.length } =
      .ok (0, { (MessageBuffer.ofBytes bs) with rPos := bs.length }) := by
    simp [remainingBytesLeft, MessageBuffer.ofBytes]
  rw [R.bind_def, hz]
  simp only [gt_iff_lt, Nat.lt_irrefl, ↓reduceIte, rLogMsgTopic]
  have hz' : remainingBytesLeft { (MessageBuffer.ofBytes bs) with rPos := bs.length } =
      .ok (0, { (MessageBuffer.ofBytes bs) with rPos := bs.length }) := by
    simp [remainingBytesLeft, MessageBuffer.ofBytes]
  rw [R.bind_def, hz']
  rfl

/-- Non-vacuity of C06: a CAN frame event with payload, framed, sent and parsed. -/
example : (do
    let bytes ← serialize kindSimMsg 0 7 ⟨11, 22⟩ (wWireCanFrameEvent ⟨5, 0x123, 0, 8, 0, 0, 0, [1, 2, 3], 1, 0⟩)
    parse rWireCanFrameEvent bytes) =
    .ok (⟨69, 4, none, none, none, some 7, some ⟨11, 22⟩⟩, ⟨5, 0x123, 0, 8, 0, 0, 0, [1, 2, 3], 1, 0⟩) := by
  decide +kernel

/-- Non-vacuity of C06: a value with nested lists and maps satisfies the size condition. -/
example : FitsServiceDescriptor ⟨[80], 1, [81], 2, [82], 3, [([97], [98]), ([97, 0], [])], 4⟩ := by
  simp [FitsServiceDescriptor, Short, ShortList, MapEntries, bytesLt]

/-! ## C07 -/

/-- **C07.** Whatever bytes arrive, decoding a message of any type either raises an exception or yields a value; it never
reads outside of the message, never sizes a container by more elements than the message has bytes, and leaves the read
position inside the message. (The only other outcome is signed overflow in the conversion of a hostile time stamp.) -/
theorem C07_decoding_is_memory_safe (t : MsgType) : MemorySafeDecoder t.read := msafe_all t

/-- **C07.** For all message types without a wall clock time there is no undefined behaviour at all. -/
theorem C07_decoding_has_no_undefined_behaviour (t : MsgType) (ht : t ≠ .participantStatus ∧ t ≠ .logMsg) :
    SafeDecoder t.read := safe_all t ht.1 ht.2

/-- **C07 (handshake).** The same for the messages of the connection handshake, in every protocol version. -/
theorem C07_handshake_decoding_is_safe :
    SafeDecoder rParticipantAnnouncement ∧ SafeDecoder rParticipantAnnouncementReply ∧
    SafeDecoder rKnownParticipants ∧ SafeDecoder rProxyMessage ∧ SafeDecoder rRemoteParticipantConnectRequest :=
  ⟨safe_ParticipantAnnouncement, safe_ParticipantAnnouncementReply, safe_KnownParticipants, safe_ProxyMessage,
   safe_RemoteParticipantConnectRequest⟩

/-- A hostile time stamp does overflow: the restriction in `C07_decoding_is_memory_safe` is needed. -/
theorem C07_hostile_timestamp_overflows :
    rTimePoint (MessageBuffer.ofBytes [255, 255, 255, 255, 255, 255, 255, 127]) = .ub signedOverflow := by decide +kernel

/-- **C07 fails for the frame headers.** A registry message of six bytes (size, kind, registry kind) makes the receiver
copy eight bytes from behind the end of the message. The full statement would be `SafeDecoder readNetworkHeaders`. -/
theorem C07_short_registry_message_reads_out_of_bounds :
    ¬ SafeDecoder readNetworkHeaders ∧ readNetworkHeaders (MessageBuffer.ofBytes [6, 0, 0, 0, 5, 1]) = .ub outOfBounds := by
  have h : readNetworkHeaders (MessageBuffer.ofBytes [6, 0, 0, 0, 5, 1]) = .ub outOfBounds := by decide +kernel
  refine ⟨fun hs => ?_, h⟩
  have := hs (MessageBuffer.ofBytes [6, 0, 0, 0, 5, 1]) (by decide)
  rw [h] at this
  exact this

/-- Running the header decoder on a complete message. -/
def HeadersReadSafely (bytes : List UInt8) : Prop :=
  GoodOutcome (MessageBuffer.ofBytes bytes) (readNetworkHeaders (MessageBuffer.ofBytes bytes))

/-- **C07 (frame headers), partial.** Reading the headers of a received message is safe if it is not a registry message
or has at least 14 bytes. What is missing: shorter registry messages (see the witness above). -/
theorem C07_frame_headers_safe_partial (bytes : List UInt8)
    (h : bytes[4]? = some 5 → 14 ≤ bytes.length) : HeadersReadSafely bytes := by
  unfold HeadersReadSafely
  rw [readNetworkHeaders_eq]
  match bytes, h with
  | [], _ => trivial
  | [_], _ => trivial
  | [_, _], _ => trivial
  | [_, _, _], _ => trivial
  | [_, _, _, _], _ => trivial
  | a :: b :: c :: d :: k :: rest, h =>
    let b0 := MessageBuffer.ofBytes (a :: b :: c :: d :: k :: rest)
    have h1 : rInt 32 b0 = .ok (BitVec.ofNat 32 (leVal [a, b, c, d]), { b0 with rPos := 4 }) := by
      unfold rInt
      rw [R.bind_def, guardRead_ok (by simp [b0, MessageBuffer.ofBytes])]
      simp only [R.bind_def, takeRead, copyFrom]
      rw [if_pos (by simp [b0, MessageBuffer.ofBytes])]
      simp [R.pure_def, b0, MessageBuffer.ofBytes]
    have h2 : rInt 8 { b0 with rPos := 4 } = .ok (BitVec.ofNat 8 (leVal [k]), { b0 with rPos := 5 }) := by
      unfold rInt
      rw [R.bind_def, guardRead_ok (by simp [b0, MessageBuffer.ofBytes])]
      simp only [R.bind_def, takeRead, copyFrom]
      rw [if_pos (by simp [b0, MessageBuffer.ofBytes])]
      simp [R.pure_def, b0, MessageBuffer.ofBytes]
    rw [R.bind_def, h1]
    simp only [R.bind_def, h2]
    have h3 := headers_after_kind { b0 with rPos := 5 } (by simp [b0, MessageBuffer.ofBytes])
      (BitVec.ofNat 32 (leVal [a, b, c, d])) (BitVec.ofNat 8 (leVal [k])) (by
        intro hk
        have : k = 5 := by
          have := congrArg BitVec.toNat hk
          simp [leVal, kindRegistryMessage] at this
          exact UInt8.toNat_inj.mp (by simpa using this)
        subst this
        have := h rfl
        simpa [b0, MessageBuffer.ofBytes] using this)
    revert h3
    cases headersTail _ _ { b0 with rPos := 5 } with
    | throw m => intro _; trivial
    | ub m => intro h; exact h
    | ok p => intro h; exact ⟨h.1, h.2.1, Nat.zero_le _, h.2.2.2⟩

/-- Non-vacuity of C07: a hostile length prefix is answered by an exception, and the hypothesis of the partial theorem is
met by a real registry message. -/
example : rWireDataMessageEvent (MessageBuffer.ofBytes [255, 255, 255, 255, 1, 2, 3, 4, 5, 6, 7, 8]) =
    .throw endOfBuffer := by decide +kernel

example : ([14, 0, 0, 0, 5, 1, 83, 75, 82, 71, 3, 0, 1, 0] : List UInt8)[4]? = some 5 ∧
    14 ≤ ([14, 0, 0, 0, 5, 1, 83, 75, 82, 71, 3, 0, 1, 0] : List UInt8).length := by decide

end SilKit.Props
