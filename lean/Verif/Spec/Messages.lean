import Verif.Model.Serdes
import Verif.Spec.Serdes
/-!
# The catalogue of wire messages and the sizes they may have
-/
namespace SilKit.Spec
open Wire MessageBuffer

/-- The strings and lists of a `WireCanFrameEvent` have sizes the wire format can carry. -/
def FitsWireCanFrameEvent (m : WireCanFrameEvent) : Prop :=
  Short m.dataField

/-- The strings and lists of a `WireEthernetFrame` have sizes the wire format can carry. -/
def FitsWireEthernetFrame (m : WireEthernetFrame) : Prop :=
  Short m.raw

/-- The strings and lists of a `WireEthernetFrameEvent` have sizes the wire format can carry. -/
def FitsWireEthernetFrameEvent (m : WireEthernetFrameEvent) : Prop :=
  FitsWireEthernetFrame m.frame

/-- The strings and lists of a `WireLinControllerConfig` have sizes the wire format can carry. -/
def FitsWireLinControllerConfig (m : WireLinControllerConfig) : Prop :=
  ShortList m.frameResponses

/-- The strings and lists of a `LinFrameResponseUpdate` have sizes the wire format can carry. -/
def FitsLinFrameResponseUpdate (m : LinFrameResponseUpdate) : Prop :=
  ShortList m.frameResponses

/-- The strings and lists of a `WireFlexrayFrame` have sizes the wire format can carry. -/
def FitsWireFlexrayFrame (m : WireFlexrayFrame) : Prop :=
  Short m.payload

/-- The strings and lists of a `WireFlexrayFrameEvent` have sizes the wire format can carry. -/
def FitsWireFlexrayFrameEvent (m : WireFlexrayFrameEvent) : Prop :=
  FitsWireFlexrayFrame m.frame

/-- The strings and lists of a `WireFlexrayFrameTransmitEvent` have sizes the wire format can carry. -/
def FitsWireFlexrayFrameTransmitEvent (m : WireFlexrayFrameTransmitEvent) : Prop :=
  FitsWireFlexrayFrame m.frame

/-- The strings and lists of a `FlexrayControllerConfig` have sizes the wire format can carry. -/
def FitsFlexrayControllerConfig (m : FlexrayControllerConfig) : Prop :=
  ShortList m.bufferConfigs

/-- The strings and lists of a `WireFlexrayTxBufferUpdate` have sizes the wire format can carry. -/
def FitsWireFlexrayTxBufferUpdate (m : WireFlexrayTxBufferUpdate) : Prop :=
  Short m.payload

/-- The strings and lists of a `ParticipantStatus` have sizes the wire format can carry. -/
def FitsParticipantStatus (m : ParticipantStatus) : Prop :=
  Short m.participantName ∧
  Short m.enterReason

/-- The strings and lists of a `WorkflowConfiguration` have sizes the wire format can carry. -/
def FitsWorkflowConfiguration (m : WorkflowConfiguration) : Prop :=
  (ShortList m.requiredParticipantNames ∧ (∀ s ∈ m.requiredParticipantNames, Short s))

/-- The strings and lists of a `WireDataMessageEvent` have sizes the wire format can carry. -/
def FitsWireDataMessageEvent (m : WireDataMessageEvent) : Prop :=
  Short m.data

/-- The strings and lists of a `FunctionCall` have sizes the wire format can carry. -/
def FitsFunctionCall (m : FunctionCall) : Prop :=
  Short m.data

/-- The strings and lists of a `FunctionCallResponse` have sizes the wire format can carry. -/
def FitsFunctionCallResponse (m : FunctionCallResponse) : Prop :=
  Short m.data

/-- The strings and lists of a `RequestReplyCall` have sizes the wire format can carry. -/
def FitsRequestReplyCall (m : RequestReplyCall) : Prop :=
  Short m.callData

/-- The strings and lists of a `RequestReplyCallReturn` have sizes the wire format can carry. -/
def FitsRequestReplyCallReturn (m : RequestReplyCallReturn) : Prop :=
  Short m.callReturnData

/-- The strings and lists of a `ServiceDescriptor` have sizes the wire format can carry. -/
def FitsServiceDescriptor (m : ServiceDescriptor) : Prop :=
  Short m.participantName ∧
  Short m.networkName ∧
  Short m.serviceName ∧
  (MapEntries m.supplementalData ∧ ShortList m.supplementalData ∧ (∀ e ∈ m.supplementalData, Short e.1 ∧ Short e.2))

/-- The strings and lists of a `ParticipantDiscoveryEvent` have sizes the wire format can carry. -/
def FitsParticipantDiscoveryEvent (m : ParticipantDiscoveryEvent) : Prop :=
  Short m.participantName ∧
  (ShortList m.services ∧ (∀ x ∈ m.services, FitsServiceDescriptor x))

/-- The strings and lists of a `ServiceDiscoveryEvent` have sizes the wire format can carry. -/
def FitsServiceDiscoveryEvent (m : ServiceDiscoveryEvent) : Prop :=
  FitsServiceDescriptor m.serviceDescriptor

/-- The strings and lists of a `MetricData` have sizes the wire format can carry. -/
def FitsMetricData (m : MetricData) : Prop :=
  Short m.name ∧
  Short m.value

/-- The strings and lists of a `MetricsUpdate` have sizes the wire format can carry. -/
def FitsMetricsUpdate (m : MetricsUpdate) : Prop :=
  (ShortList m.metrics ∧ (∀ x ∈ m.metrics, FitsMetricData x))

/-- The strings and lists of a `SourceLoc` have sizes the wire format can carry. -/
def FitsSourceLoc (m : SourceLoc) : Prop :=
  Short m.filename ∧
  Short m.funcname

/-- The strings and lists of a `VAsioPeerInfo` have sizes the wire format can carry. -/
def FitsVAsioPeerInfo (m : VAsioPeerInfo) : Prop :=
  Short m.participantName ∧
  (ShortList m.acceptorUris ∧ (∀ s ∈ m.acceptorUris, Short s)) ∧
  Short m.capabilities

/-- The strings and lists of a `VAsioMsgSubscriber` have sizes the wire format can carry. -/
def FitsVAsioMsgSubscriber (m : VAsioMsgSubscriber) : Prop :=
  Short m.networkName ∧
  Short m.msgTypeName

/-- The strings and lists of a `SubscriptionAcknowledge` have sizes the wire format can carry. -/
def FitsSubscriptionAcknowledge (m : SubscriptionAcknowledge) : Prop :=
  FitsVAsioMsgSubscriber m.subscriber

/-- The strings and lists of a `RemoteParticipantConnectRequest` have sizes the wire format can carry. -/
def FitsRemoteParticipantConnectRequest (m : RemoteParticipantConnectRequest) : Prop :=
  FitsVAsioPeerInfo m.requestOrigin ∧
  FitsVAsioPeerInfo m.requestTarget

/-- The strings and lists of a `LogMsg` have sizes the wire format can carry. -/
def FitsLogMsg (m : LogMsg) : Prop :=
  Short m.loggerName ∧ FitsSourceLoc m.source ∧ Short m.payload ∧
  (ShortList m.keyValues ∧ (∀ e ∈ m.keyValues, Short e.1 ∧ Short e.2))

/-- The strings and lists of a `ParticipantAnnouncement` have sizes the wire format can carry. -/
def FitsParticipantAnnouncement (m : ParticipantAnnouncement) : Prop :=
  FitsVAsioPeerInfo m.peerInfo ∧ Short m.simulationName

/-- The strings and lists of a `ParticipantAnnouncementReply` have sizes the wire format can carry. -/
def FitsParticipantAnnouncementReply (m : ParticipantAnnouncementReply) : Prop :=
  (ShortList m.subscribers ∧ (∀ x ∈ m.subscribers, FitsVAsioMsgSubscriber x)) ∧ Short m.diagnostic

/-- The strings and lists of a `KnownParticipants` have sizes the wire format can carry. -/
def FitsKnownParticipants (m : KnownParticipants) : Prop :=
  ShortList m.peerInfos ∧ (∀ x ∈ m.peerInfos, FitsVAsioPeerInfo x)

/-- The strings of a `ProxyMessage` have sizes the wire format can carry. -/
def FitsProxyMessage (m : ProxyMessage) : Prop :=
  Short m.source ∧ Short m.destination ∧ Short m.payload

/-- A time point after rounding towards zero to microseconds (values are nanoseconds, signed). -/
def truncMicros (t : BitVec 64) : BitVec 64 := BitVec.ofInt 64 (t.toInt.tdiv 1000 * 1000)

/-- The log topics 0 … 22 have names; every other number is reported as `Topic::Invalid`. -/
def knownTopic (t : BitVec 32) : BitVec 32 := if t.toNat ≤ 22 then t else 0xffffffff

/-- All message types that participants exchange (and the types nested in them). -/
inductive MsgType where
  | endpointAddress
  | wireCanFrameEvent
  | canFrameTransmitEvent
  | canControllerStatus
  | canConfigureBaudrate
  | canSetControllerMode
  | wireEthernetFrame
  | wireEthernetFrameEvent
  | ethernetFrameTransmitEvent
  | ethernetStatus
  | ethernetSetMode
  | linFrame
  | linSendFrameRequest
  | linSendFrameHeaderRequest
  | linTransmission
  | linWakeupPulse
  | linFrameResponse
  | wireLinControllerConfig
  | linControllerStatusUpdate
  | linFrameResponseUpdate
  | flexrayHeader
  | wireFlexrayFrame
  | wireFlexrayFrameEvent
  | wireFlexrayFrameTransmitEvent
  | flexraySymbolEvent
  | flexrayCycleStartEvent
  | flexrayHostCommand
  | flexrayClusterParameters
  | flexrayNodeParameters
  | flexrayTxBufferConfig
  | flexrayControllerConfig
  | flexrayTxBufferConfigUpdate
  | wireFlexrayTxBufferUpdate
  | flexrayPocStatusEvent
  | nextSimTask
  | systemCommand
  | participantStatus
  | workflowConfiguration
  | wireDataMessageEvent
  | functionCall
  | functionCallResponse
  | requestReplyCall
  | requestReplyCallReturn
  | serviceDescriptor
  | participantDiscoveryEvent
  | serviceDiscoveryEvent
  | metricData
  | metricsUpdate
  | sourceLoc
  | registryMsgHeader
  | vasioPeerInfo
  | vasioMsgSubscriber
  | subscriptionAcknowledge
  | remoteParticipantConnectRequest
  | logMsg
deriving Repr, DecidableEq

/-- The values of a message type. -/
def MsgType.Val : MsgType → Type
  | .endpointAddress => EndpointAddress
  | .wireCanFrameEvent => WireCanFrameEvent
  | .canFrameTransmitEvent => CanFrameTransmitEvent
  | .canControllerStatus => CanControllerStatus
  | .canConfigureBaudrate => CanConfigureBaudrate
  | .canSetControllerMode => CanSetControllerMode
  | .wireEthernetFrame => WireEthernetFrame
  | .wireEthernetFrameEvent => WireEthernetFrameEvent
  | .ethernetFrameTransmitEvent => EthernetFrameTransmitEvent
  | .ethernetStatus => EthernetStatus
  | .ethernetSetMode => EthernetSetMode
  | .linFrame => LinFrame
  | .linSendFrameRequest => LinSendFrameRequest
  | .linSendFrameHeaderRequest => LinSendFrameHeaderRequest
  | .linTransmission => LinTransmission
  | .linWakeupPulse => LinWakeupPulse
  | .linFrameResponse => LinFrameResponse
  | .wireLinControllerConfig => WireLinControllerConfig
  | .linControllerStatusUpdate => LinControllerStatusUpdate
  | .linFrameResponseUpdate => LinFrameResponseUpdate
  | .flexrayHeader => FlexrayHeader
  | .wireFlexrayFrame => WireFlexrayFrame
  | .wireFlexrayFrameEvent => WireFlexrayFrameEvent
  | .wireFlexrayFrameTransmitEvent => WireFlexrayFrameTransmitEvent
  | .flexraySymbolEvent => FlexraySymbolEvent
  | .flexrayCycleStartEvent => FlexrayCycleStartEvent
  | .flexrayHostCommand => FlexrayHostCommand
  | .flexrayClusterParameters => FlexrayClusterParameters
  | .flexrayNodeParameters => FlexrayNodeParameters
  | .flexrayTxBufferConfig => FlexrayTxBufferConfig
  | .flexrayControllerConfig => FlexrayControllerConfig
  | .flexrayTxBufferConfigUpdate => FlexrayTxBufferConfigUpdate
  | .wireFlexrayTxBufferUpdate => WireFlexrayTxBufferUpdate
  | .flexrayPocStatusEvent => FlexrayPocStatusEvent
  | .nextSimTask => NextSimTask
  | .systemCommand => SystemCommand
  | .participantStatus => ParticipantStatus
  | .workflowConfiguration => WorkflowConfiguration
  | .wireDataMessageEvent => WireDataMessageEvent
  | .functionCall => FunctionCall
  | .functionCallResponse => FunctionCallResponse
  | .requestReplyCall => RequestReplyCall
  | .requestReplyCallReturn => RequestReplyCallReturn
  | .serviceDescriptor => ServiceDescriptor
  | .participantDiscoveryEvent => ParticipantDiscoveryEvent
  | .serviceDiscoveryEvent => ServiceDiscoveryEvent
  | .metricData => MetricData
  | .metricsUpdate => MetricsUpdate
  | .sourceLoc => SourceLoc
  | .registryMsgHeader => RegistryMsgHeader
  | .vasioPeerInfo => VAsioPeerInfo
  | .vasioMsgSubscriber => VAsioMsgSubscriber
  | .subscriptionAcknowledge => SubscriptionAcknowledge
  | .remoteParticipantConnectRequest => RemoteParticipantConnectRequest
  | .logMsg => LogMsg

/-- The encoder of a message type (`Serialize`). -/
def MsgType.write : (t : MsgType) → t.Val → R Unit
  | .endpointAddress => wEndpointAddress
  | .wireCanFrameEvent => wWireCanFrameEvent
  | .canFrameTransmitEvent => wCanFrameTransmitEvent
  | .canControllerStatus => wCanControllerStatus
  | .canConfigureBaudrate => wCanConfigureBaudrate
  | .canSetControllerMode => wCanSetControllerMode
  | .wireEthernetFrame => wWireEthernetFrame
  | .wireEthernetFrameEvent => wWireEthernetFrameEvent
  | .ethernetFrameTransmitEvent => wEthernetFrameTransmitEvent
  | .ethernetStatus => wEthernetStatus
  | .ethernetSetMode => wEthernetSetMode
  | .linFrame => wLinFrame
  | .linSendFrameRequest => wLinSendFrameRequest
  | .linSendFrameHeaderRequest => wLinSendFrameHeaderRequest
  | .linTransmission => wLinTransmission
  | .linWakeupPulse => wLinWakeupPulse
  | .linFrameResponse => wLinFrameResponse
  | .wireLinControllerConfig => wWireLinControllerConfig
  | .linControllerStatusUpdate => wLinControllerStatusUpdate
  | .linFrameResponseUpdate => wLinFrameResponseUpdate
  | .flexrayHeader => wFlexrayHeader
  | .wireFlexrayFrame => wWireFlexrayFrame
  | .wireFlexrayFrameEvent => wWireFlexrayFrameEvent
  | .wireFlexrayFrameTransmitEvent => wWireFlexrayFrameTransmitEvent
  | .flexraySymbolEvent => wFlexraySymbolEvent
  | .flexrayCycleStartEvent => wFlexrayCycleStartEvent
  | .flexrayHostCommand => wFlexrayHostCommand
  | .flexrayClusterParameters => wFlexrayClusterParameters
  | .flexrayNodeParameters => wFlexrayNodeParameters
  | .flexrayTxBufferConfig => wFlexrayTxBufferConfig
  | .flexrayControllerConfig => wFlexrayControllerConfig
  | .flexrayTxBufferConfigUpdate => wFlexrayTxBufferConfigUpdate
  | .wireFlexrayTxBufferUpdate => wWireFlexrayTxBufferUpdate
  | .flexrayPocStatusEvent => wFlexrayPocStatusEvent
  | .nextSimTask => wNextSimTask
  | .systemCommand => wSystemCommand
  | .participantStatus => wParticipantStatus
  | .workflowConfiguration => wWorkflowConfiguration
  | .wireDataMessageEvent => wWireDataMessageEvent
  | .functionCall => wFunctionCall
  | .functionCallResponse => wFunctionCallResponse
  | .requestReplyCall => wRequestReplyCall
  | .requestReplyCallReturn => wRequestReplyCallReturn
  | .serviceDescriptor => wServiceDescriptor
  | .participantDiscoveryEvent => wParticipantDiscoveryEvent
  | .serviceDiscoveryEvent => wServiceDiscoveryEvent
  | .metricData => wMetricData
  | .metricsUpdate => wMetricsUpdate
  | .sourceLoc => wSourceLoc
  | .registryMsgHeader => wRegistryMsgHeader
  | .vasioPeerInfo => wVAsioPeerInfo
  | .vasioMsgSubscriber => wVAsioMsgSubscriber
  | .subscriptionAcknowledge => wSubscriptionAcknowledge
  | .remoteParticipantConnectRequest => wRemoteParticipantConnectRequest
  | .logMsg => wLogMsg

/-- The decoder of a message type (`Deserialize`). -/
def MsgType.read : (t : MsgType) → R t.Val
  | .endpointAddress => rEndpointAddress
  | .wireCanFrameEvent => rWireCanFrameEvent
  | .canFrameTransmitEvent => rCanFrameTransmitEvent
  | .canControllerStatus => rCanControllerStatus
  | .canConfigureBaudrate => rCanConfigureBaudrate
  | .canSetControllerMode => rCanSetControllerMode
  | .wireEthernetFrame => rWireEthernetFrame
  | .wireEthernetFrameEvent => rWireEthernetFrameEvent
  | .ethernetFrameTransmitEvent => rEthernetFrameTransmitEvent
  | .ethernetStatus => rEthernetStatus
  | .ethernetSetMode => rEthernetSetMode
  | .linFrame => rLinFrame
  | .linSendFrameRequest => rLinSendFrameRequest
  | .linSendFrameHeaderRequest => rLinSendFrameHeaderRequest
  | .linTransmission => rLinTransmission
  | .linWakeupPulse => rLinWakeupPulse
  | .linFrameResponse => rLinFrameResponse
  | .wireLinControllerConfig => rWireLinControllerConfig
  | .linControllerStatusUpdate => rLinControllerStatusUpdate
  | .linFrameResponseUpdate => rLinFrameResponseUpdate
  | .flexrayHeader => rFlexrayHeader
  | .wireFlexrayFrame => rWireFlexrayFrame
  | .wireFlexrayFrameEvent => rWireFlexrayFrameEvent
  | .wireFlexrayFrameTransmitEvent => rWireFlexrayFrameTransmitEvent
  | .flexraySymbolEvent => rFlexraySymbolEvent
  | .flexrayCycleStartEvent => rFlexrayCycleStartEvent
  | .flexrayHostCommand => rFlexrayHostCommand
  | .flexrayClusterParameters => rFlexrayClusterParameters
  | .flexrayNodeParameters => rFlexrayNodeParameters
  | .flexrayTxBufferConfig => rFlexrayTxBufferConfig
  | .flexrayControllerConfig => rFlexrayControllerConfig
  | .flexrayTxBufferConfigUpdate => rFlexrayTxBufferConfigUpdate
  | .wireFlexrayTxBufferUpdate => rWireFlexrayTxBufferUpdate
  | .flexrayPocStatusEvent => rFlexrayPocStatusEvent
  | .nextSimTask => rNextSimTask
  | .systemCommand => rSystemCommand
  | .participantStatus => rParticipantStatus
  | .workflowConfiguration => rWorkflowConfiguration
  | .wireDataMessageEvent => rWireDataMessageEvent
  | .functionCall => rFunctionCall
  | .functionCallResponse => rFunctionCallResponse
  | .requestReplyCall => rRequestReplyCall
  | .requestReplyCallReturn => rRequestReplyCallReturn
  | .serviceDescriptor => rServiceDescriptor
  | .participantDiscoveryEvent => rParticipantDiscoveryEvent
  | .serviceDiscoveryEvent => rServiceDiscoveryEvent
  | .metricData => rMetricData
  | .metricsUpdate => rMetricsUpdate
  | .sourceLoc => rSourceLoc
  | .registryMsgHeader => rRegistryMsgHeader
  | .vasioPeerInfo => rVAsioPeerInfo
  | .vasioMsgSubscriber => rVAsioMsgSubscriber
  | .subscriptionAcknowledge => rSubscriptionAcknowledge
  | .remoteParticipantConnectRequest => rRemoteParticipantConnectRequest
  | .logMsg => rLogMsg

/-- Sizes that the wire format can carry. -/
def MsgType.Fits : (t : MsgType) → t.Val → Prop
  | .endpointAddress => fun _ => True
  | .wireCanFrameEvent => FitsWireCanFrameEvent
  | .canFrameTransmitEvent => fun _ => True
  | .canControllerStatus => fun _ => True
  | .canConfigureBaudrate => fun _ => True
  | .canSetControllerMode => fun _ => True
  | .wireEthernetFrame => FitsWireEthernetFrame
  | .wireEthernetFrameEvent => FitsWireEthernetFrameEvent
  | .ethernetFrameTransmitEvent => fun _ => True
  | .ethernetStatus => fun _ => True
  | .ethernetSetMode => fun _ => True
  | .linFrame => fun _ => True
  | .linSendFrameRequest => fun _ => True
  | .linSendFrameHeaderRequest => fun _ => True
  | .linTransmission => fun _ => True
  | .linWakeupPulse => fun _ => True
  | .linFrameResponse => fun _ => True
  | .wireLinControllerConfig => FitsWireLinControllerConfig
  | .linControllerStatusUpdate => fun _ => True
  | .linFrameResponseUpdate => FitsLinFrameResponseUpdate
  | .flexrayHeader => fun _ => True
  | .wireFlexrayFrame => FitsWireFlexrayFrame
  | .wireFlexrayFrameEvent => FitsWireFlexrayFrameEvent
  | .wireFlexrayFrameTransmitEvent => FitsWireFlexrayFrameTransmitEvent
  | .flexraySymbolEvent => fun _ => True
  | .flexrayCycleStartEvent => fun _ => True
  | .flexrayHostCommand => fun _ => True
  | .flexrayClusterParameters => fun _ => True
  | .flexrayNodeParameters => fun _ => True
  | .flexrayTxBufferConfig => fun _ => True
  | .flexrayControllerConfig => FitsFlexrayControllerConfig
  | .flexrayTxBufferConfigUpdate => fun _ => True
  | .wireFlexrayTxBufferUpdate => FitsWireFlexrayTxBufferUpdate
  | .flexrayPocStatusEvent => fun _ => True
  | .nextSimTask => fun _ => True
  | .systemCommand => fun _ => True
  | .participantStatus => FitsParticipantStatus
  | .workflowConfiguration => FitsWorkflowConfiguration
  | .wireDataMessageEvent => FitsWireDataMessageEvent
  | .functionCall => FitsFunctionCall
  | .functionCallResponse => FitsFunctionCallResponse
  | .requestReplyCall => FitsRequestReplyCall
  | .requestReplyCallReturn => FitsRequestReplyCallReturn
  | .serviceDescriptor => FitsServiceDescriptor
  | .participantDiscoveryEvent => FitsParticipantDiscoveryEvent
  | .serviceDiscoveryEvent => FitsServiceDiscoveryEvent
  | .metricData => FitsMetricData
  | .metricsUpdate => FitsMetricsUpdate
  | .sourceLoc => FitsSourceLoc
  | .registryMsgHeader => fun _ => True
  | .vasioPeerInfo => FitsVAsioPeerInfo
  | .vasioMsgSubscriber => FitsVAsioMsgSubscriber
  | .subscriptionAcknowledge => FitsSubscriptionAcknowledge
  | .remoteParticipantConnectRequest => FitsRemoteParticipantConnectRequest
  | .logMsg => FitsLogMsg

/-- The value expected on the receiving side: the value sent, with wall clock times rounded towards zero to
microseconds and log topics that have no name replaced by `Topic::Invalid`. -/
def MsgType.received : (t : MsgType) → t.Val → t.Val
  | .participantStatus => fun (m : ParticipantStatus) =>
    { m with enterTime := truncMicros m.enterTime, refreshTime := truncMicros m.refreshTime }
  | .logMsg => fun (m : LogMsg) => { m with time := truncMicros m.time, topic := knownTopic m.topic }
  | .endpointAddress => id
  | .wireCanFrameEvent => id
  | .canFrameTransmitEvent => id
  | .canControllerStatus => id
  | .canConfigureBaudrate => id
  | .canSetControllerMode => id
  | .wireEthernetFrame => id
  | .wireEthernetFrameEvent => id
  | .ethernetFrameTransmitEvent => id
  | .ethernetStatus => id
  | .ethernetSetMode => id
  | .linFrame => id
  | .linSendFrameRequest => id
  | .linSendFrameHeaderRequest => id
  | .linTransmission => id
  | .linWakeupPulse => id
  | .linFrameResponse => id
  | .wireLinControllerConfig => id
  | .linControllerStatusUpdate => id
  | .linFrameResponseUpdate => id
  | .flexrayHeader => id
  | .wireFlexrayFrame => id
  | .wireFlexrayFrameEvent => id
  | .wireFlexrayFrameTransmitEvent => id
  | .flexraySymbolEvent => id
  | .flexrayCycleStartEvent => id
  | .flexrayHostCommand => id
  | .flexrayClusterParameters => id
  | .flexrayNodeParameters => id
  | .flexrayTxBufferConfig => id
  | .flexrayControllerConfig => id
  | .flexrayTxBufferConfigUpdate => id
  | .wireFlexrayTxBufferUpdate => id
  | .flexrayPocStatusEvent => id
  | .nextSimTask => id
  | .systemCommand => id
  | .workflowConfiguration => id
  | .wireDataMessageEvent => id
  | .functionCall => id
  | .functionCallResponse => id
  | .requestReplyCall => id
  | .requestReplyCallReturn => id
  | .serviceDescriptor => id
  | .participantDiscoveryEvent => id
  | .serviceDiscoveryEvent => id
  | .metricData => id
  | .metricsUpdate => id
  | .sourceLoc => id
  | .registryMsgHeader => id
  | .vasioPeerInfo => id
  | .vasioMsgSubscriber => id
  | .subscriptionAcknowledge => id
  | .remoteParticipantConnectRequest => id

end SilKit.Spec
