import Verif.Lemmas.VersionHandshake
/-!
# The handshake between versions (C79)

`n.receive p blob` is what the node `n` (a participant or a registry) does when the message `blob` arrives on the connection `p`: the connection afterwards, and
what it sends and reports. `n.announce` is the message with which `n` announces itself. `p` and `n` are arbitrary, so that the theorems hold after every history
of the node and of the connection.
-/
namespace SilKit.Props
open SilKit.VersionHandshake SilKit.VersionHandshake.Spec SilKit.Wire SilKit.Spec MessageBuffer

section
variable {n m : Node} {p : Peer} {blob : List UInt8}

/-- Messages of the handshake that do not start with the four bytes all of them start with - somebody else's protocol - are ignored, on every connection; the only exception
are replies on connections of version 3.0, which do not have them. -/
theorem C79_foreign_messages_are_ignored (n : Node) (p : Peer) {k : UInt8} (hk : k = 1 ∨ k = 2 ∨ k = 3) (hv : k = 2 → p.version ≠ ⟨3, 0⟩)
    {x : BitVec 32} (hx : x ≠ 0x2d424956) (v : ProtocolVersion) (rest : List UInt8) (hr : rest.length + 14 < 2 ^ 32) :
    n.receive p (message k (leBytes 4 x.toNat ++ leBytes 2 v.major.toNat ++ leBytes 2 v.minor.toNat ++ rest)) = (p, [.ignored]) :=
  foreign_received n p hk hv hx v rest hr

/-- An announcement with a version that is not understood is not decoded: whatever follows the header, nothing is learned from it, and the effect is the same. -/
theorem C79_unsupported_version_is_never_decoded (n : Node) (p : Peer) {v : ProtocolVersion} (hv : v ∉ understood) (rest rest' : List UInt8)
    (hr : rest.length + 14 < 2 ^ 32) (hr' : rest'.length + 14 < 2 ^ 32) :
    n.receive p (message 1 (headerBytes v ++ rest)) = n.receive p (message 1 (headerBytes v ++ rest')) ∧
    (n.receive p (message 1 (headerBytes v ++ rest))).1 = p ∧
    ∀ o ∈ (n.receive p (message 1 (headerBytes v ++ rest))).2, (∀ s x, o ≠ .associated s x) ∧ (∀ s, o ≠ .subscriber s) ∧ (∀ l, o ≠ .known l) ∧ ∀ r, o ≠ .completed r := by
  rw [unsupported_received n p v hv rest hr, unsupported_received n p v hv rest' hr']
  refine ⟨rfl, rfl, fun o ho => ?_⟩
  dsimp only at ho
  revert ho
  cases failedReply p.version n.version (unsupportedText (headerOf v)) <;> intro ho <;>
    simp only [sendRes, List.mem_singleton] at ho <;> subst ho <;> simp

/-- … On a connection on which version 3.1 has been agreed, the reply says that the version is not supported, and names it; every receiver learns this text.

Missing: a connection on which nothing has been agreed yet, which is what all announcements arrive on: `C79_counterexample_unsupported_version_gets_no_answer`. -/
theorem C79_unsupported_version_is_told_partial (hp : p.version = ⟨3, 1⟩) {v : ProtocolVersion} (hv : v ∉ understood) (rest : List UInt8) (hr : rest.length + 14 < 2 ^ 32) :
    ∃ reply, n.receive p (message 1 (headerBytes v ++ rest)) = (p, [.send reply]) ∧
      ∀ (n' : Node) (p' : Peer), p'.version ≠ ⟨3, 0⟩ → n'.receive p' reply =
        (p', [.failed (decide (p'.info.participantId = 0)) (text "protocol version " ++ decimal v.major ++ text "." ++ decimal v.minor ++ text " is not supported")]) := by
  have hl := unsupportedText_length (headerOf v)
  have hshort : Short (unsupportedText (headerOf v)) := by unfold Short; omega
  obtain ⟨reply, h⟩ := failed_sent n.version (unsupportedText (headerOf v)) (by omega)
  rw [unsupported_received n p v hv rest hr, hp, h]
  refine ⟨reply, rfl, fun n' p' hv' => ?_⟩
  rw [reply_received (failed_fits n.version _ hshort) rfl h n' p' hv']
  rfl

/-- … On a connection on which nothing has been agreed yet, the announcement is answered by an exception: no reply is sent, for every version that is not understood. -/
theorem C79_counterexample_unsupported_version_gets_no_answer (n : Node) (hp : Fresh p) {v : ProtocolVersion} (hv : v ∉ understood) (rest : List UInt8) (hr : rest.length + 14 < 2 ^ 32) :
    n.receive p (message 1 (headerBytes v ++ rest)) = (p, [.throw "SerializedMessage: Unsupported protocol version encountered during handshake"]) := by
  have hl := unsupportedText_length (headerOf v)
  rw [unsupported_received n p v hv rest hr, hp, failed_fresh _ _ (by unfold Short; omega)]
  rfl

/-- Somebody of version 3.1 with another simulation name announces themselves to a participant: the reply says so, with both names. -/
theorem C79_other_simulation_is_told (hm : Fits m) (hv : m.version = ⟨3, 1⟩) (hs : m.announce = .ok blob) (ha : n.allowAny = false) (hn : m.simulationName ≠ n.simulationName)
    (hl : m.simulationName.length + n.simulationName.length + 200 < 2 ^ 32) :
    ∃ reply, n.receive p blob = ({ p with version := ⟨3, 1⟩ }, [.send reply]) ∧
      ∀ (n' : Node) (p' : Peer), p'.version ≠ ⟨3, 0⟩ → n'.receive p' reply = (p', [.failed (decide (p'.info.participantId = 0))
        (text "Announced simulation name '" ++ m.simulationName ++ text "' does not match this participants simulation name '" ++ n.simulationName ++ text "'")]) := by
  have hlen : (otherSimulationText m.simulationName n.simulationName).length + 23 < 2 ^ 32 := by
    have h1 : (text "Announced simulation name '").length = 27 := by decide +kernel
    have h2 : (text "' does not match this participants simulation name '").length = 52 := by decide +kernel
    have h3 : (text "'").length = 1 := by decide +kernel
    simp only [otherSimulationText, List.length_append, h1, h2, h3]
    omega
  obtain ⟨reply, h⟩ := failed_sent ⟨3, 1⟩ _ hlen
  have e : n.receive p blob = ({ p with version := ⟨3, 1⟩ }, sendRes (failedReply ⟨3, 1⟩ ⟨3, 1⟩ (otherSimulationText m.simulationName n.simulationName))) := by
    rw [announcement_received n m p hm hv hs]
    exact if_pos ⟨ha, hn⟩
  rw [e, h]
  refine ⟨reply, rfl, fun n' p' hv' => ?_⟩
  rw [reply_received (failed_fits ⟨3, 1⟩ _ (by unfold Short; omega)) rfl h n' p' hv']
  exact if_pos rfl

/-- Somebody of version 3.1 announces themselves and is rejected, for instance because the name is taken: every receiver of the reply learns the reason. -/
theorem C79_rejection_is_told (hm : Fits m) (hv : m.version = ⟨3, 1⟩) (hs : m.announce = .ok blob) (ha : n.allowAny = true ∨ m.simulationName = n.simulationName)
    {reason : List UInt8} (hj : n.judge ⟨⟨registryPreamble, 3, 1⟩, m.info, m.simulationName⟩ = some reason) (hl : reason.length + 23 < 2 ^ 32) :
    ∃ reply, n.receive p blob = (⟨⟨3, 1⟩, m.info, m.simulationName⟩, [.send reply]) ∧
      ∀ (n' : Node) (p' : Peer), p'.version ≠ ⟨3, 0⟩ → n'.receive p' reply = (p', [.failed (decide (p'.info.participantId = 0)) reason]) := by
  obtain ⟨reply, h⟩ := failed_sent ⟨3, 1⟩ _ hl
  have e : m.announcement = ⟨⟨registryPreamble, 3, 1⟩, m.info, m.simulationName⟩ := by unfold Node.announcement; rw [hv]; rfl
  rw [announcement_received n m p hm hv hs, e]
  unfold Node.answer
  rw [if_neg (by rintro ⟨h1, h2⟩; rcases ha with ha | ha; exact absurd h1 (by simp [ha]); exact h2 ha)]
  dsimp only
  rw [hj]
  dsimp only
  rw [h]
  refine ⟨reply, rfl, fun n' p' hv' => ?_⟩
  rw [reply_received (failed_fits ⟨3, 1⟩ _ (by unfold Short; omega)) rfl h n' p' hv']
  rfl

/-- Somebody of version 3.1 announces themselves and is accepted. The node learns version, name, addresses and simulation exactly, and answers with the known participants,
if it is a registry, and with its reply; whoever receives them learns exactly the known participants, exactly the subscriptions, and that the handshake is complete, and
that the version is 3.1.

`kb` and `rb` are the bytes of the two answers: that they exist is that they are not larger than 4 GiB. -/
theorem C79_acceptance (hm : Fits m) (hv : m.version = ⟨3, 1⟩) (hs : m.announce = .ok blob) (ha : n.allowAny = true ∨ m.simulationName = n.simulationName)
    (hj : n.judge ⟨⟨registryPreamble, 3, 1⟩, m.info, m.simulationName⟩ = none) (hn : Fits n) {rb : List UInt8} (hr : n.reply ⟨3, 1⟩ = .ok rb) :
    (∀ {k : List UInt8 → List VAsioPeerInfo} {kb : List UInt8}, n.known = some k → knownMessage ⟨3, 1⟩ (k m.info.participantName) = .ok kb →
      ShortList (k m.info.participantName) → (∀ i ∈ k m.info.participantName, FitsVAsioPeerInfo i) →
      n.receive p blob = (⟨⟨3, 1⟩, m.info, m.simulationName⟩, [.send kb, .associated m.simulationName m.info.participantName, .send rb]) ∧
      ∀ (n' : Node) (p' : Peer), p'.version ≠ ⟨3, 0⟩ → n'.receive p' kb = ({ p' with version := ⟨3, 1⟩ }, [.known (k m.info.participantName)])) ∧
    (n.known = none → n.receive p blob = (⟨⟨3, 1⟩, m.info, m.simulationName⟩, [.associated m.simulationName m.info.participantName, .send rb])) ∧
    ∀ (n' : Node) (p' : Peer), p'.version ≠ ⟨3, 0⟩ →
      n'.receive p' rb = ({ p' with version := ⟨3, 1⟩ }, n.subscribers.map .subscriber ++ [.completed (decide (p'.info.participantId = 0))]) := by
  have e : m.announcement = ⟨⟨registryPreamble, 3, 1⟩, m.info, m.simulationName⟩ := by unfold Node.announcement; rw [hv]; rfl
  have hrec : n.receive p blob = (⟨⟨3, 1⟩, m.info, m.simulationName⟩, (match n.known with | some k => sendRes (knownMessage ⟨3, 1⟩ (k m.info.participantName)) | none => []) ++
        .associated m.simulationName m.info.participantName :: [.send rb]) := by
    rw [announcement_received n m p hm hv hs, e]
    unfold Node.answer
    rw [if_neg (by rintro ⟨h1, h2⟩; rcases ha with ha | ha; exact absurd h1 (by simp [ha]); exact h2 ha)]
    dsimp only
    rw [hj, hr]
    rfl
  refine ⟨fun {k kb} hk hkb hl hf => ⟨?_, fun n' p' hv' => ?_⟩, fun hk => ?_, fun n' p' hv' => ?_⟩
  · rw [hrec, hk]
    dsimp only
    rw [hkb]
    rfl
  · rw [known_received ⟨hl, hf⟩ rfl hkb n' p' hv' rfl]
    rfl
  · rw [hrec, hk]
    rfl
  · rw [reply_received (m := ⟨headerOf ⟨3, 1⟩, 1, n.subscribers, []⟩) ⟨⟨hn.2.2.1, hn.2.2.2⟩, by simp [Short]⟩ rfl hr n' p' hv', if_neg (show ¬ (1 : BitVec 8) = 0 by decide)]
    rfl

/-- Somebody of version 3.0 announces themselves: their names and addresses are understood, and 3.0 is what the connection speaks from then on.

Missing: the simulation they belong to, see `C79_counterexample_30_participants_lose_their_simulation`, and the answers. -/
theorem C79_30_announcement_is_understood_partial (hm : Fits m) (hv : m.version = ⟨3, 0⟩) (hs : m.announce = .ok blob) (ha : n.allowAny = true)
    (hj : ∀ a, n.judge a = none) :
    (n.receive p blob).1 = ⟨⟨3, 0⟩, { m.info with capabilities := [] }, []⟩ ∧ .associated [] m.info.participantName ∈ (n.receive p blob).2 := by
  rw [announcement30_received n m p hm hv hs]
  unfold Node.answer
  rw [if_neg (by rintro ⟨h1, _⟩; exact absurd h1 (by simp [ha]))]
  dsimp only
  rw [hj]
  exact ⟨rfl, by simp⟩

/-! ## Counterexamples: what the code does instead -/

/-- Whatever simulation somebody of version 3.0 says they belong to, registries put them into the one without a name, and participants that have a simulation name reject them. -/
theorem C79_counterexample_30_participants_lose_their_simulation (hm : Fits m) (hv : m.version = ⟨3, 0⟩) (hs : m.announce = .ok blob) :
    (n.allowAny = true → (∀ a, n.judge a = none) → ∀ s x, .associated s x ∈ (n.receive p blob).2 → s = []) ∧
    (n.allowAny = false → n.simulationName ≠ [] → (n.receive p blob).2 = [.send (message 2 [0, 0, 0, 0])]) := by
  rw [announcement30_received n m p hm hv hs]
  unfold Node.answer
  constructor
  · intro ha hj s x h
    rw [if_neg (by rintro ⟨h1, _⟩; exact absurd h1 (by simp [ha]))] at h
    dsimp only at h
    rw [hj] at h
    dsimp only at h
    have hno : ∀ r, Out.associated s x ∉ sendRes r := by intro r; cases r <;> simp [sendRes]
    rcases List.mem_append.1 h with h | h
    · split at h
      · exact absurd h (hno _)
      · cases h
    · rcases List.mem_cons.1 h with h | h
      · injection h
      · exact absurd h (hno _)
  · intro ha hn
    rw [if_pos ⟨ha, fun h => hn h.symm⟩]
    dsimp only
    unfold failedReply
    rw [reply30_sent _ rfl]
    rfl

/-- To somebody of version 3.0, a rejection is the same message as an acceptance by a node without subscriptions, whatever the reason. -/
theorem C79_counterexample_rejection_of_30_is_acceptance (told : ProtocolVersion) (reason : List UInt8) (hn : n.subscribers = []) :
    failedReply ⟨3, 0⟩ told reason = n.reply ⟨3, 0⟩ ∧ n.reply ⟨3, 0⟩ = .ok (message 2 [0, 0, 0, 0]) := by
  unfold failedReply Node.reply
  rw [reply30_sent _ rfl, reply30_sent _ hn]
  exact ⟨rfl, rfl⟩

/-- When that message arrives at a node of this code, on any connection, bytes behind its end are read. -/
theorem C79_counterexample_30_reply_is_read_out_of_bounds (n : Node) (p : Peer) : ∃ what, n.receive p (message 2 [0, 0, 0, 0]) = (p, [.undefined what]) := by
  obtain ⟨w, hw⟩ : ∃ w, readNetworkHeaders (MessageBuffer.ofBytes (message 2 [0, 0, 0, 0])) = .ub w := ⟨_, rfl⟩
  refine ⟨w, ?_⟩
  unfold Node.receive
  rw [hw]

/-- The known participants in the format of version 3.0 are lost on a connection on which nothing has been agreed yet: however many there are, the list that arrives is empty. -/
theorem C79_counterexample_30_known_participants_are_lost {infos : List VAsioPeerInfo} (hl : ShortList infos) (hf : ∀ i ∈ infos, FitsVAsioPeerInfo i) {kb : List UInt8}
    (hk : knownMessage ⟨3, 0⟩ infos = .ok kb) (n : Node) (hp : Fresh p) : n.receive p kb = ({ p with version := ⟨3, 0⟩ }, [.known []]) :=
  known30_received (m := ⟨headerOf ⟨3, 0⟩, infos⟩) ⟨hl, hf⟩ hk n p (by rw [hp]; decide)

/-! ## Examples -/

/-- Versions of the past and of the future that are not understood. -/
example : (⟨4, 0⟩ : ProtocolVersion) ∉ understood ∧ (⟨3, 2⟩ : ProtocolVersion) ∉ understood ∧ (⟨2, 1⟩ : ProtocolVersion) ∉ understood := by decide

private def hsInfo (name : String) (id : BitVec 64) : VAsioPeerInfo := ⟨text name, id, [text "tcp://localhost:1234"], text "caps"⟩
private def hsNode (v : ProtocolVersion) (name : String) (id : BitVec 64) : Node := ⟨v, hsInfo name id, text "sim", false, [], none, fun _ => none⟩
private def hsRegistry : Node :=
  { hsNode ⟨3, 1⟩ "registry" 0 with allowAny := true, known := some fun _ => [hsInfo "A" 7], judge := fun a => if a.peerInfo.participantName = text "A" then some (text "taken") else none }
private def hsPeer : Peer := { info := hsInfo "" 1 }

private def sendable (r : Res (List UInt8)) : Bool := match r with | .ok _ => true | _ => false

private theorem hsFits (v : ProtocolVersion) (id : BitVec 64) : Fits (hsNode v "B" id) := by
  have h1 : (text "B").length < 2 ^ 32 ∧ (text "caps").length < 2 ^ 32 ∧ (text "tcp://localhost:1234").length < 2 ^ 32 ∧ (text "sim").length < 2 ^ 32 := by decide +kernel
  refine ⟨⟨h1.1, ⟨by simp [hsNode, hsInfo, ShortList], ?_⟩, h1.2.1⟩, h1.2.2.2, by simp [hsNode, ShortList], by intro s h; cases h⟩
  intro s hs
  rw [List.mem_singleton.1 hs]
  exact h1.2.2.1

/-- The hypotheses of `C79_other_simulation_is_told`, `C79_rejection_is_told`, `C79_acceptance` and those about version 3.0: nodes that fit and can announce themselves,
and a registry that rejects one name, accepts another, and can send its answers. -/
example : Fits (hsNode ⟨3, 1⟩ "B" 2) ∧ Fits (hsNode ⟨3, 0⟩ "B" 2) ∧ sendable (hsNode ⟨3, 1⟩ "B" 2).announce = true ∧ sendable (hsNode ⟨3, 0⟩ "B" 2).announce = true ∧
    sendable (hsRegistry.reply ⟨3, 1⟩) = true ∧ sendable (knownMessage ⟨3, 1⟩ [hsInfo "A" 7]) = true ∧ sendable (knownMessage ⟨3, 0⟩ [hsInfo "A" 7]) = true ∧
    hsRegistry.judge ⟨⟨registryPreamble, 3, 1⟩, hsInfo "A" 7, text "sim"⟩ = some (text "taken") ∧
    hsRegistry.judge ⟨⟨registryPreamble, 3, 1⟩, hsInfo "B" 2, text "sim"⟩ = none ∧ Fresh hsPeer := by
  refine ⟨hsFits _ _, hsFits _ _, ?_⟩
  unfold Fresh
  decide +kernel

/-- The texts, and the bytes of an announcement. -/
example : text "a.b" ++ decimal 65535 ++ decimal 10 = [97, 46, 98, 54, 53, 53, 51, 53, 49, 48] ∧
    message 1 (headerBytes ⟨3, 1⟩ ++ [9]) = [15, 0, 0, 0, 5, 1, 0x56, 0x49, 0x42, 0x2d, 3, 0, 1, 0, 9] := by decide +kernel

end
end SilKit.Props
