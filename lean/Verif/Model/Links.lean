import Verif.Model.Basic
/-!
# Model of message links between participants

A message type and a network name make up a *link*. Every participant has its own link object, with the local services that receive on it and
the remote participants that have subscribed to it. Source: `SilKit/source/core/vasio/{VAsioConnection,SilKitLink,VAsioTransmitter,
VAsioReceiver}.hpp`, `VAsioConnection.cpp`, `core/internal/traits/*.hpp`.

Not modelled: messages to one target (`SendMessageToTarget`), tracing, time stamps, acknowledges of subscriptions (see `Model/Registration.lean`),
the byte encoding (see `Model/Serdes.lean`) and the byte stream (see `Model/PeerSend.lean`, `Model/PeerReceive.lean`): a connection is a
first-in first-out channel of messages. Exceptions of receivers are caught for each receiver separately (SilKitLink.hpp:194-213) and have
no effect on others. A participant is one incarnation: whoever connects again after a disconnect is another participant.
-/
namespace SilKit.Links

/-- `SilKitMessageTypes`, VAsioConnection.hpp:230-247 (without the types used by the unit tests). -/
inductive MsgType
  | logMsg | nextSimTask | systemCommand | participantStatus | workflowConfiguration | dataMessage | functionCall | functionCallResponse
  | canFrame | canFrameTransmit | canControllerStatus | canConfigureBaudrate | canSetControllerMode
  | ethFrame | ethFrameTransmit | ethStatus | ethSetMode
  | linSendFrameRequest | linSendFrameHeaderRequest | linTransmission | linWakeupPulse | linControllerConfig | linControllerStatusUpdate
  | linFrameResponseUpdate
  | frFrame | frFrameTransmit | frSymbol | frSymbolTransmit | frCycleStart | frHostCommand | frControllerConfig | frTxBufferConfigUpdate
  | frTxBufferUpdate | frPocStatus
  | participantDiscovery | serviceDiscovery | requestReplyCall | requestReplyCallReturn | metricsUpdate
deriving Repr, DecidableEq

/-- In the order of the tuple. -/
def allTypes : List MsgType :=
  [.logMsg, .nextSimTask, .systemCommand, .participantStatus, .workflowConfiguration, .dataMessage, .functionCall, .functionCallResponse,
   .canFrame, .canFrameTransmit, .canControllerStatus, .canConfigureBaudrate, .canSetControllerMode,
   .ethFrame, .ethFrameTransmit, .ethStatus, .ethSetMode,
   .linSendFrameRequest, .linSendFrameHeaderRequest, .linTransmission, .linWakeupPulse, .linControllerConfig, .linControllerStatusUpdate,
   .linFrameResponseUpdate,
   .frFrame, .frFrameTransmit, .frSymbol, .frSymbolTransmit, .frCycleStart, .frHostCommand, .frControllerConfig, .frTxBufferConfigUpdate,
   .frTxBufferUpdate, .frPocStatus,
   .participantDiscovery, .serviceDiscovery, .requestReplyCall, .requestReplyCallReturn, .metricsUpdate]

/-- `SerdesName`, SilKitMsgSerdesName.hpp:31-69. -/
def serdesName : MsgType → String
  | .logMsg => "LOGMSG"
  | .metricsUpdate => "METRICSUPDATE"
  | .systemCommand => "SYSTEMCOMMAND"
  | .participantStatus => "PARTICIPANTSTATUS"
  | .workflowConfiguration => "WORKFLOWCONFIGURATION"
  | .nextSimTask => "NEXTSIMTASK"
  | .dataMessage => "DATAMESSAGEEVENT"
  | .functionCall => "FUNCTIONCALL"
  | .functionCallResponse => "FUNCTIONCALLRESPONSE"
  | .canFrame => "CANFRAMEEVENT"
  | .canFrameTransmit => "CANFRAMETRANSMITEVENT"
  | .canControllerStatus => "CANCONTROLLERSTATUS"
  | .canConfigureBaudrate => "CANCONFIGUREBAUDRATE"
  | .canSetControllerMode => "CANSETCONTROLLERMODE"
  | .ethFrame => "ETHERNETFRAMEEVENT"
  | .ethFrameTransmit => "ETHERNETFRAMETRANSMITEVENT"
  | .ethStatus => "ETHERNETSTATUS"
  | .ethSetMode => "ETHERNETSETMODE"
  | .linSendFrameRequest => "SENDFRAMEREQUEST"
  | .linSendFrameHeaderRequest => "SENDFRAMEHEADERREQUEST"
  | .linTransmission => "TRANSMISSION"
  | .linWakeupPulse => "WAKEUPPULSE"
  | .linControllerConfig => "CONTROLLERCONFIG"
  | .linControllerStatusUpdate => "CONTROLLERSTATUSUPDATE"
  | .linFrameResponseUpdate => "FRAMERESPONSEUPDATE"
  | .frFrame => "FRMESSAGE"
  | .frFrameTransmit => "FRMESSAGEACK"
  | .frSymbol => "FRSYMBOL"
  | .frSymbolTransmit => "FRSYMBOLACK"
  | .frCycleStart => "CYCLESTART"
  | .frHostCommand => "HOSTCOMMAND"
  | .frControllerConfig => "CONTROLLERCONFIG"
  | .frTxBufferConfigUpdate => "TXBUFFERCONFIGUPDATE"
  | .frTxBufferUpdate => "TXBUFFERUPDATE"
  | .frPocStatus => "POCSTATUS"
  | .participantDiscovery => "SERVICEANNOUNCEMENT"
  | .serviceDiscovery => "SERVICEDISCOVERYEVENT"
  | .requestReplyCall => "REQUESTREPLYCALL"
  | .requestReplyCallReturn => "REQUESTREPLYCALLRETURN"

/-- `HistSize`, SilKitMsgTraits.hpp:153-157; it is 0 or 1. -/
def hasHistorySlot : MsgType → Bool
  | .participantStatus | .participantDiscovery | .dataMessage | .workflowConfiguration | .linControllerConfig => true
  | _ => false

/-- `IsSelfDeliveryEnforced`, SilKitMsgTraits.hpp:160-161. -/
def selfDeliveryEnforced : MsgType → Bool
  | .participantStatus | .linSendFrameHeaderRequest => true
  | _ => false

/-- `IsSelfDeliveryForbidden`, SilKitMsgTraits.hpp:164. -/
def selfDeliveryForbidden : MsgType → Bool
  | .systemCommand => true
  | _ => false

/-- `SilKitLink`, SilKitLink.hpp:75-76, with its `VAsioTransmitter`, VAsioTransmitter.hpp:65-68, 188. A local receiver is known by the
number of its service; a remote one by its participant and the index of its receiver there. Values are of any type `V`. -/
structure Link (V : Type) where
  locals : List Nat := []
  remotes : List (Nat × Nat) := []
  hasHistory : Bool := true
  last : Option V := none
deriving Repr, DecidableEq

variable {V : Type}

/-- `MessageHistory::Save`, VAsioTransmitter.hpp:33, 45-53. -/
def Link.save (ty : MsgType) (l : Link V) (v : V) : Link V :=
  if hasHistorySlot ty && l.hasHistory then { l with last := some v } else l

/-- `MessageHistory::NotifyPeer`, VAsioTransmitter.hpp:34, 54-62: what is replayed to a new receiver. -/
def Link.replay (ty : MsgType) (l : Link V) : List V :=
  if hasHistorySlot ty && l.hasHistory then l.last.toList else []

/-- `AddRemoteReceiver`, VAsioTransmitter.hpp:96-109, without the replay. -/
def Link.addRemote (l : Link V) (r : Nat × Nat) : Link V :=
  if l.remotes.contains r then l else { l with remotes := l.remotes ++ [r] }

/-- `RemoveRemoteReceiver`, VAsioTransmitter.hpp:111-122: the first receiver of that participant. Participants are compared by an identifier
that is a hash of the name; the model uses the participant itself. -/
def Link.removeRemote (l : Link V) (peer : Nat) : Link V := { l with remotes := l.remotes.eraseP (·.1 == peer) }

/-- `AddLocalReceiver`, SilKitLink.hpp:94-99. -/
def Link.addLocal (l : Link V) (svc : Nat) : Link V := if l.locals.contains svc then l else { l with locals := l.locals ++ [svc] }

/-- `DistributeToSelf`, SilKitLink.hpp:169-191: the local receivers of a message sent by the service `svc`. -/
def Link.selfReceivers (ty : MsgType) (l : Link V) (svc : Nat) : List Nat :=
  if selfDeliveryForbidden ty then []
  else if selfDeliveryEnforced ty then l.locals
  else l.locals.filter (· != svc)

/-- A message on a connection: a subscription, `VAsioMsgSubscriber`, or data for the receiver with the given index. Its bytes are those of the
type that was sent. -/
inductive Wire (V : Type)
  | subscribe (idx : Nat) (net : String) (serdes : String)
  | data (idx : Nat) (ty : MsgType) (v : V)
deriving Repr, DecidableEq

/-- The connection of a participant to another one: not there yet, in use, or ended. -/
inductive Status
  | never | isOpen | closed
deriving Repr, DecidableEq

structure State (V : Type) where
  link : Nat → MsgType → String → Link V
  /-- `_vasioUniqueReceiverIds`, network and name of the type. The code concatenates them with a slash; as no name of a type contains a
  slash, different pairs yield different strings. -/
  ids : Nat → List (String × String) := fun _ => []
  /-- `_vasioReceivers`. -/
  receivers : Nat → List (MsgType × String) := fun _ => []
  status : Nat → Nat → Status := fun _ _ => .never
  chan : Nat → Nat → List (Wire V) := fun _ _ => []
  /-- `_peers`, in the order of connecting. -/
  peers : Nat → List Nat := fun _ => []

inductive Out (V : Type)
  /-- The service `svc` of participant `p` receives on the link from now on. -/
  | registered (p : Nat) (ty : MsgType) (net : String) (svc : Nat)
  /-- The service `svc` of participant `p` has sent `v`. -/
  | published (p : Nat) (svc : Nat) (ty : MsgType) (net : String) (v : V)
  /-- Participant `p` sends to participant `q` from now on. -/
  | accepted (p q : Nat) (ty : MsgType) (net : String)
  /-- A message from participant `p` has come to the link of participant `q`. -/
  | arrived (q p : Nat) (ty : MsgType) (net : String) (v : V)
  /-- The receiving method of service `svc` of participant `q` is called with a message from participant `p`. -/
  | received (q : Nat) (svc : Nat) (ty : MsgType) (net : String) (p : Nat) (v : V)
  /-- Participant `q` has decoded bytes of type `ty'` as a message of type `ty`. -/
  | garbled (q p : Nat) (ty ty' : MsgType) (net : String)
  | closed (p q : Nat)
deriving Repr, DecidableEq

inductive Event (V : Type)
  /-- `RegisterSilKitMsgReceiver`, on the user's or the I/O thread. -/
  | register (p : Nat) (ty : MsgType) (net : String) (svc : Nat)
  | connect (p q : Nat)
  /-- Participant `p` sends its list of subscribers to `q`, as part of the handshake. -/
  | announce (p q : Nat)
  | send (p : Nat) (svc : Nat) (ty : MsgType) (net : String) (v : V)
  /-- Participant `q` handles the next message from `p`. -/
  | deliver (p q : Nat)
  /-- Participant `p` notices that the connection to `q` has ended. -/
  | close (p q : Nat)
deriving Repr, DecidableEq

def State.setLink (s : State V) (p : Nat) (ty : MsgType) (net : String) (l : Link V) : State V :=
  { s with link := fun p' ty' net' => if p' = p ∧ ty' = ty ∧ net' = net then l else s.link p' ty' net' }

def State.push (s : State V) (p q : Nat) (ws : List (Wire V)) : State V :=
  { s with chan := fun p' q' => if p' = p ∧ q' = q then s.chan p' q' ++ ws else s.chan p' q' }

def pushStep (p : Nat) (w : Wire V) (s : State V) (q : Nat) : State V := s.push p q [w]

/-- `RegisterSilKitMsgReceiver`, VAsioConnection.hpp:310-361. -/
def register (s : State V) (p : Nat) (ty : MsgType) (net : String) (svc : Nat) : State V :=
  let s1 := s.setLink p ty net ((s.link p ty net).addLocal svc)
  if (s.ids p).contains (net, serdesName ty) then s1
  else
    let s2 : State V := { s1 with
      ids := fun x => if x = p then s.ids x ++ [(net, serdesName ty)] else s.ids x
      receivers := fun x => if x = p then s.receivers x ++ [(ty, net)] else s.receivers x }
    (s.peers p).foldl (pushStep p (.subscribe (s.receivers p).length net (serdesName ty))) s2

/-- The subscribers a participant announces, `SendParticipantAnnouncementReply`, VAsioConnection.cpp:790-817. -/
def subscriptions (s : State V) (p : Nat) : List (Wire V) :=
  (s.receivers p).mapIdx (fun i r => .subscribe i r.2 (serdesName r.1))

def sendStep (p : Nat) (ty : MsgType) (v : V) (s : State V) (r : Nat × Nat) : State V := s.push p r.1 [.data r.2 ty v]

/-- `DistributeLocalSilKitMessage`, SilKitLink.hpp:159-166, and `VAsioTransmitter::ReceiveMsg`, VAsioTransmitter.hpp:165-173. -/
def send (s : State V) (p : Nat) (svc : Nat) (ty : MsgType) (net : String) (v : V) : State V × List (Out V) :=
  let l := s.link p ty net
  (l.remotes.foldl (sendStep p ty v) (s.setLink p ty net (l.save ty v)),
   .published p svc ty net v :: (l.selfReceivers ty svc).map (fun r => .received p r ty net p v))

/-- `TryAddRemoteSubscriber`, VAsioConnection.cpp:1728-1752, for one type of messages: participant `q` adds the receiver `idx` of `p`. -/
def subscribeStep (q p idx : Nat) (net serdes : String) (r : State V × List (Out V)) (ty : MsgType) : State V × List (Out V) :=
  if serdesName ty = serdes then
    let l := r.1.link q ty net
    if l.remotes.contains (p, idx) then r
    else ((r.1.setLink q ty net (l.addRemote (p, idx))).push q p ((l.replay ty).map (.data idx ty)), r.2 ++ [.accepted q p ty net])
  else r

/-- Participant `q` handles a message from `p`: `TryAddRemoteSubscriber`, `ReceiveRawSilKitMessage`, VAsioConnection.cpp:1773-1791, and
`DistributeRemoteSilKitMessage`, SilKitLink.hpp:144-155. -/
def handle (s : State V) (q p : Nat) : Wire V → State V × List (Out V)
  | .subscribe idx net serdes => allTypes.foldl (subscribeStep q p idx net serdes) (s, [])
  | .data idx ty v =>
      match (s.receivers q)[idx]? with
      | none => (s, [])
      | some (ty', net) =>
          if ty' = ty then
            (s, .arrived q p ty net v :: (s.link q ty net).locals.map (fun svc => .received q svc ty net p v))
          else (s, [.garbled q p ty' ty net])

def deliver (s : State V) (p q : Nat) : State V × List (Out V) :=
  match s.chan p q with
  | [] => (s, [])
  | w :: ws =>
      if s.status q p = .isOpen then
        handle { s with chan := fun p' q' => if p' = p ∧ q' = q then ws else s.chan p' q' } q p w
      else (s, [])

def connect (s : State V) (p q : Nat) : State V :=
  if p ≠ q ∧ s.status p q = .never ∧ s.status q p = .never then
    { s with
      status := fun x y => if (x = p ∧ y = q) ∨ (x = q ∧ y = p) then .isOpen else s.status x y
      peers := fun x => if x = p then s.peers x ++ [q] else if x = q then s.peers x ++ [p] else s.peers x }
  else s

/-- `RemovePeerFromLinks`, VAsioConnection.cpp:1425-1437. -/
def close (s : State V) (p q : Nat) : State V × List (Out V) :=
  if s.status p q = .isOpen then
    ({ s with
      status := fun x y => if x = p ∧ y = q then .closed else s.status x y
      peers := fun x => if x = p then (s.peers x).filter (· != q) else s.peers x
      link := fun x ty net => if x = p then (s.link x ty net).removeRemote q else s.link x ty net }, [.closed p q])
  else (s, [])

def on (s : State V) : Event V → State V × List (Out V)
  | .register p ty net svc => (register s p ty net svc, [.registered p ty net svc])
  | .connect p q => (connect s p q, [])
  | .announce p q => (if s.status p q = .isOpen then s.push p q (subscriptions s p) else s, [])
  | .send p svc ty net v => send s p svc ty net v
  | .deliver p q => deliver s p q
  | .close p q => close s p q

/-- `off p ty net`: the history of this link was switched off when its publisher was created, Participant_impl.hpp:531. -/
def init (off : Nat → MsgType → String → Bool) : State V := { link := fun p ty net => { hasHistory := !off p ty net } }

end SilKit.Links
