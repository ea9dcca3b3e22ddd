import Verif.Model.Serdes
/-!
# The handshake of a connection: announcement, known participants, reply, and the versions of the protocol

One end of one connection, down to the bytes of the messages. All paths are relative to `SilKit/source/core/vasio`.
Not modelled: `RemoteParticipantConnectRequest` (see C68), proxies (C49), log output.
-/
namespace SilKit.VersionHandshake
open SilKit.Wire MessageBuffer

/-- `ExtractProtocolVersion`, VAsioProtocolVersion.hpp:29-32. -/
def versionOf (h : RegistryMsgHeader) : ProtocolVersion := ⟨h.versionHigh, h.versionLow⟩

/-- `MakeRegistryMsgHeader`, VAsioProtocolVersion.hpp:34-40. -/
def headerOf (v : ProtocolVersion) : RegistryMsgHeader := ⟨registryPreamble, v.major, v.minor⟩

/-- `ProtocolVersionSupported`, VAsioProtocolVersion.hpp:71-87. -/
def supported (h : RegistryMsgHeader) : Bool := versionOf h = ⟨3, 0⟩ || versionOf h = ⟨3, 1⟩

/-- What `fmt` prints for a `uint16_t`: its decimal digits. -/
def decimal (n : BitVec 16) : List UInt8 :=
  let x := n.toNat
  ([x / 10000, x / 1000 % 10, x / 100 % 10, x / 10 % 10].dropWhile (· = 0) ++ [x % 10]).map fun d => UInt8.ofNat (48 + d)

/-- The bytes of a text literal. -/
def text (s : String) : List UInt8 := s.toList.map fun c => UInt8.ofNat c.toNat

/-- `fmt::format("protocol version {}.{} is not supported", …)`, VAsioConnection.cpp:714. -/
def unsupportedText (h : RegistryMsgHeader) : List UInt8 :=
  text "protocol version " ++ decimal h.versionHigh ++ text "." ++ decimal h.versionLow ++ text " is not supported"

/-- `fmt::format("Announced simulation name '{}' does not match …", …)`, VAsioConnection.cpp:736-737. -/
def otherSimulationText (announced own : List UInt8) : List UInt8 :=
  text "Announced simulation name '" ++ announced ++ text "' does not match this participants simulation name '" ++ own ++ text "'"

/-- One participant or registry: the members of `VAsioConnection` that matter for a handshake, VAsioConnection.hpp:571 and others. -/
structure Node where
  /-- `_version`. -/
  version : ProtocolVersion
  /-- `MakePeerInfo()`. -/
  info : VAsioPeerInfo
  /-- `_simulationName`. -/
  simulationName : List UInt8
  /-- `_allowAnySimulationName`: true for registries. -/
  allowAny : Bool
  /-- The descriptors of `_vasioReceivers`. -/
  subscribers : List VAsioMsgSubscriber
  /-- For registries: the participants that are told to the one with this name (VAsioRegistry.cpp:268-283); `none` for participants. -/
  known : Option (List UInt8 → List VAsioPeerInfo)
  /-- Whether a receiver of announcements throws a `SilKitError`, and its text. For registries: VAsioRegistry.cpp:214-236 (see C24). -/
  judge : ParticipantAnnouncement → Option (List UInt8)

/-- A connection as one end sees it: members of `VAsioPeer`, VAsioPeer.hpp:95-110. -/
structure Peer where
  /-- `_protocolVersion{}`: 0.0 for a new connection. -/
  version : ProtocolVersion := ⟨0, 0⟩
  info : VAsioPeerInfo
  simulationName : List UInt8 := []

/-- Effects. -/
inductive Out where
  /-- `SendSilKitMsg`: the bytes of the message. -/
  | send (blob : List UInt8)
  /-- `AssociateParticipantNameAndPeer`. -/
  | associated (simulationName participantName : List UInt8)
  /-- `TryAddRemoteSubscriber`. -/
  | subscriber (s : VAsioMsgSubscriber)
  /-- `_registryHandshakeComplete.set_value()` (registry) or `PARTICIPANT_ANNOUNCEMENT_REPLY` (another participant). -/
  | completed (registry : Bool)
  /-- `_registryHandshakeComplete.set_exception` (registry), or a warning (another participant), with the diagnostic message. -/
  | failed (registry : Bool) (diagnostic : List UInt8)
  /-- `SetKnownParticipants`. -/
  | known (infos : List VAsioPeerInfo)
  /-- The message is ignored. -/
  | ignored
  /-- An exception on the I/O thread: it is logged, and no further read is started on this connection (VAsioConnection.cpp:1216-1230, VAsioPeer.cpp:283-293). -/
  | throw (message : String)
  /-- Undefined behaviour. -/
  | undefined (what : String)
deriving DecidableEq

/-- `SerializedMessage(ProtocolVersion, message)` followed by `ReleaseStorage`, SerializedMessage.hpp:134-148: the headers are read again at the end
of the constructor. -/
def serializeAt (v : ProtocolVersion) (registryKind : BitVec 8) (payload : R Unit) : Res (List UInt8) :=
  match (do writeNetworkHeaders kindRegistryMessage registryKind 0 ⟨0, 0⟩; payload : R Unit) { MessageBuffer.empty with protocolVersion := v } with
  | .ok (_, b) =>
    match readNetworkHeaders b with
    | .ok _ => releaseStorage b
    | .throw m => .throw m
    | .ub m => .ub m
  | .throw m => .throw m
  | .ub m => .ub m

/-- Sending what has been serialized. -/
def sendRes : Res (List UInt8) → List Out
  | .ok blob => [.send blob]
  | .throw m => [.throw m]
  | .ub m => [.undefined m]

/-- `SendParticipantAnnouncement`, VAsioConnection.cpp:658-691, for a participant with acceptors. -/
def Node.announcement (n : Node) : ParticipantAnnouncement := ⟨headerOf n.version, n.info, n.simulationName⟩

/-- The message of `SendParticipantAnnouncement`, VAsioConnection.cpp:690. -/
def Node.announce (n : Node) : Res (List UInt8) := serializeAt currentProtocolVersion 1 (wParticipantAnnouncement n.announcement)

/-- The message of `SendParticipantAnnouncementReply`, VAsioConnection.cpp:774-793. -/
def Node.reply (n : Node) (v : ProtocolVersion) : Res (List UInt8) :=
  serializeAt v 2 (wParticipantAnnouncementReply ⟨headerOf v, 1, n.subscribers, []⟩)

/-- The message of `SendFailedParticipantAnnouncementReply`, VAsioConnection.cpp:804-821: `v` is the version of the connection, `told` the one in the message. -/
def failedReply (v told : ProtocolVersion) (diagnostic : List UInt8) : Res (List UInt8) :=
  serializeAt v 2 (wParticipantAnnouncementReply ⟨headerOf told, 0, [], diagnostic⟩)

/-- The message of `SendKnownParticipants`, VAsioRegistry.cpp:257-286. -/
def knownMessage (v : ProtocolVersion) (infos : List VAsioPeerInfo) : Res (List UInt8) :=
  serializeAt v 3 (wKnownParticipants ⟨headerOf v, infos⟩)

/-- `ReceiveParticipantAnnouncement`, VAsioConnection.cpp:693-772; `b` is the buffer behind the headers. The registry sends the known participants in its
receiver of announcements. -/
def Node.receiveAnnouncement (n : Node) (p : Peer) (header : RegistryMsgHeader) (b : MessageBuffer) : Peer × List Out :=
  if supported header then
    let p1 := { p with version := versionOf header }
    match rParticipantAnnouncement { b with protocolVersion := p1.version } with
    | .throw m => (p1, [.throw m])
    | .ub m => (p1, [.undefined m])
    | .ok (a, _) =>
      if n.allowAny = false ∧ a.simulationName ≠ n.simulationName then
        (p1, sendRes (failedReply p1.version p1.version (otherSimulationText a.simulationName n.simulationName)))
      else
        let p2 := { p1 with info := a.peerInfo, simulationName := a.simulationName }
        match n.judge a with
        | some diagnostic => (p2, sendRes (failedReply p2.version p2.version diagnostic))
        | none =>
          (p2, (match n.known with | some k => sendRes (knownMessage p2.version (k a.peerInfo.participantName)) | none => []) ++
            .associated a.simulationName a.peerInfo.participantName :: sendRes (n.reply p2.version))
  else (p, sendRes (failedReply p.version n.version (unsupportedText header)))

/-- `REGISTRY_PARTICIPANT_ID`, VAsioConstants.hpp:11. -/
def Peer.isRegistry (p : Peer) : Bool := p.info.participantId = 0

/-- `ReceiveParticipantAnnouncementReply`, VAsioConnection.cpp:823-891. -/
def Peer.receiveReply (p : Peer) (b : MessageBuffer) : Peer × List Out :=
  match rParticipantAnnouncementReply b with
  | .throw m => (p, [.throw m])
  | .ub m => (p, [.undefined m])
  | .ok (r, _) =>
    if r.status = 0 then (p, [.failed p.isRegistry r.diagnostic])
    else ({ p with version := versionOf r.remoteHeader }, r.subscribers.map .subscriber ++ [.completed p.isRegistry])

/-- `ReceiveKnownParticpants`, VAsioConnection.cpp:893-922. -/
def Node.receiveKnown (n : Node) (p : Peer) (b : MessageBuffer) : Peer × List Out :=
  match rKnownParticipants b with
  | .throw m => (p, [.throw m])
  | .ub m => (p, [.undefined m])
  | .ok (k, _) =>
    if supported k.messageHeader then ({ p with version := versionOf k.messageHeader }, [.known k.peerInfos])
    else (p, sendRes (failedReply p.version n.version []))

/-- `PreambleIsPresent`, VAsioConnection.cpp:1803-1823. -/
def preambleIsPresent (v : ProtocolVersion) (kind : BitVec 8) : Bool := ¬ ((v = ⟨3, 0⟩ ∧ kind = 2) ∨ (v = ⟨3, 1⟩ ∧ kind = 4))

/-- A message arrives: constructor of `SerializedMessage` and `SetProtocolVersion` (VAsioPeer.cpp:284-285), `ReceiveRegistryMessage`
(VAsioConnection.cpp:1799-1855). Other messages than those of the handshake are left out (`ignored`). -/
def Node.receive (n : Node) (p : Peer) (blob : List UInt8) : Peer × List Out :=
  match readNetworkHeaders (MessageBuffer.ofBytes blob) with
  | .throw m => (p, [.throw m])
  | .ub m => (p, [.undefined m])
  | .ok (hd, b) =>
    match hd.registryKind, hd.registryMessageHeader with
    | some kind, some header =>
      let b := { b with protocolVersion := p.version }
      if preambleIsPresent p.version kind ∧ header.preamble ≠ registryPreamble then (p, [.ignored])
      else if kind = 1 then n.receiveAnnouncement p header b
      else if kind = 2 then p.receiveReply b
      else if kind = 3 then n.receiveKnown p b
      else (p, [.ignored])
    | _, _ => (p, [.ignored])

end SilKit.VersionHandshake
