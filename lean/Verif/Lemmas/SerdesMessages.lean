import Verif.Lemmas.Serdes
/-!
# Round trip and safety of every message type
-/
namespace SilKit.Wire
open Spec MessageBuffer

theorem rt_EndpointAddress {ver : ProtocolVersion} (m : EndpointAddress) :
    RoundTrips ver (wEndpointAddress m) rEndpointAddress m := by
  refine rt_bind (rt_int m.participant (by decide) (by decide)) ?_
  exact rt_last (rt_int m.endpoint (by decide) (by decide)) rfl

theorem safe_EndpointAddress : SafeDecoder rEndpointAddress := by
  refine safe_bind (safe_int 64) (fun _ => ?_)
  refine safe_bind (safe_int 64) (fun _ => ?_)
  exact safe_pure _

theorem rt_WireCanFrameEvent {ver : ProtocolVersion} (m : WireCanFrameEvent) (h : FitsWireCanFrameEvent m) :
    RoundTrips ver (wWireCanFrameEvent m) rWireCanFrameEvent m := by
  refine rt_bind (rt_duration m.timestamp) ?_
  refine rt_bind (rt_int m.canId (by decide) (by decide)) ?_
  refine rt_bind (rt_int m.flags (by decide) (by decide)) ?_
  refine rt_bind (rt_int m.dlc (by decide) (by decide)) ?_
  refine rt_bind (rt_int m.sdt (by decide) (by decide)) ?_
  refine rt_bind (rt_int m.vcid (by decide) (by decide)) ?_
  refine rt_bind (rt_int m.af (by decide) (by decide)) ?_
  refine rt_bind (rt_bytes m.dataField h) ?_
  refine rt_bind (rt_int m.direction (by decide) (by decide)) ?_
  exact rt_last (rt_ptr m.userContext) rfl

theorem safe_WireCanFrameEvent : SafeDecoder rWireCanFrameEvent := by
  refine safe_bind safe_duration (fun _ => ?_)
  refine safe_bind (safe_int 32) (fun _ => ?_)
  refine safe_bind (safe_int 32) (fun _ => ?_)
  refine safe_bind (safe_int 16) (fun _ => ?_)
  refine safe_bind (safe_int 8) (fun _ => ?_)
  refine safe_bind (safe_int 8) (fun _ => ?_)
  refine safe_bind (safe_int 32) (fun _ => ?_)
  refine safe_bind safe_bytes (fun _ => ?_)
  refine safe_bind (safe_int 8) (fun _ => ?_)
  refine safe_bind safe_ptr (fun _ => ?_)
  exact safe_pure _

theorem rt_CanFrameTransmitEvent {ver : ProtocolVersion} (m : CanFrameTransmitEvent) :
    RoundTrips ver (wCanFrameTransmitEvent m) rCanFrameTransmitEvent m := by
  refine rt_bind (rt_int m.canId (by decide) (by decide)) ?_
  refine rt_bind (rt_duration m.timestamp) ?_
  refine rt_bind (rt_int m.status (by decide) (by decide)) ?_
  exact rt_last (rt_ptr m.userContext) rfl

theorem safe_CanFrameTransmitEvent : SafeDecoder rCanFrameTransmitEvent := by
  refine safe_bind (safe_int 32) (fun _ => ?_)
  refine safe_bind safe_duration (fun _ => ?_)
  refine safe_bind (safe_int 32) (fun _ => ?_)
  refine safe_bind safe_ptr (fun _ => ?_)
  exact safe_pure _

theorem rt_CanControllerStatus {ver : ProtocolVersion} (m : CanControllerStatus) :
    RoundTrips ver (wCanControllerStatus m) rCanControllerStatus m := by
  refine rt_bind (rt_duration m.timestamp) ?_
  refine rt_bind (rt_int m.controllerState (by decide) (by decide)) ?_
  exact rt_last (rt_int m.errorState (by decide) (by decide)) rfl

theorem safe_CanControllerStatus : SafeDecoder rCanControllerStatus := by
  refine safe_bind safe_duration (fun _ => ?_)
  refine safe_bind (safe_int 32) (fun _ => ?_)
  refine safe_bind (safe_int 32) (fun _ => ?_)
  exact safe_pure _

theorem rt_CanConfigureBaudrate {ver : ProtocolVersion} (m : CanConfigureBaudrate) :
    RoundTrips ver (wCanConfigureBaudrate m) rCanConfigureBaudrate m := by
  refine rt_bind (rt_int m.baudRate (by decide) (by decide)) ?_
  refine rt_bind (rt_int m.fdBaudRate (by decide) (by decide)) ?_
  exact rt_last (rt_int m.xlBaudRate (by decide) (by decide)) rfl

theorem safe_CanConfigureBaudrate : SafeDecoder rCanConfigureBaudrate := by
  refine safe_bind (safe_int 32) (fun _ => ?_)
  refine safe_bind (safe_int 32) (fun _ => ?_)
  refine safe_bind (safe_int 32) (fun _ => ?_)
  exact safe_pure _

theorem rt_CanSetControllerMode {ver : ProtocolVersion} (m : CanSetControllerMode) :
    RoundTrips ver (wCanSetControllerMode m) rCanSetControllerMode m := by
  refine rt_bind (rt_int m.flags (by decide) (by decide)) ?_
  exact rt_last (rt_int m.mode (by decide) (by decide)) rfl

theorem safe_CanSetControllerMode : SafeDecoder rCanSetControllerMode := by
  refine safe_bind (safe_int 8) (fun _ => ?_)
  refine safe_bind (safe_int 32) (fun _ => ?_)
  exact safe_pure _

theorem rt_WireEthernetFrame {ver : ProtocolVersion} (m : WireEthernetFrame) (h : FitsWireEthernetFrame m) :
    RoundTrips ver (wWireEthernetFrame m) rWireEthernetFrame m := by
  exact rt_last (rt_bytes m.raw h) rfl

theorem safe_WireEthernetFrame : SafeDecoder rWireEthernetFrame := by
  refine safe_bind safe_bytes (fun _ => ?_)
  exact safe_pure _

theorem rt_WireEthernetFrameEvent {ver : ProtocolVersion} (m : WireEthernetFrameEvent) (h : FitsWireEthernetFrameEvent m) :
    RoundTrips ver (wWireEthernetFrameEvent m) rWireEthernetFrameEvent m := by
  refine rt_bind (rt_duration m.timestamp) ?_
  refine rt_bind (rt_WireEthernetFrame m.frame h) ?_
  refine rt_bind (rt_int m.direction (by decide) (by decide)) ?_
  exact rt_last (rt_ptr m.userContext) rfl

theorem safe_WireEthernetFrameEvent : SafeDecoder rWireEthernetFrameEvent := by
  refine safe_bind safe_duration (fun _ => ?_)
  refine safe_bind safe_WireEthernetFrame (fun _ => ?_)
  refine safe_bind (safe_int 8) (fun _ => ?_)
  refine safe_bind safe_ptr (fun _ => ?_)
  exact safe_pure _

theorem rt_EthernetFrameTransmitEvent {ver : ProtocolVersion} (m : EthernetFrameTransmitEvent) :
    RoundTrips ver (wEthernetFrameTransmitEvent m) rEthernetFrameTransmitEvent m := by
  refine rt_bind (rt_duration m.timestamp) ?_
  refine rt_bind (rt_int m.status (by decide) (by decide)) ?_
  exact rt_last (rt_ptr m.userContext) rfl

theorem safe_EthernetFrameTransmitEvent : SafeDecoder rEthernetFrameTransmitEvent := by
  refine safe_bind safe_duration (fun _ => ?_)
  refine safe_bind (safe_int 32) (fun _ => ?_)
  refine safe_bind safe_ptr (fun _ => ?_)
  exact safe_pure _

theorem rt_EthernetStatus {ver : ProtocolVersion} (m : EthernetStatus) :
    RoundTrips ver (wEthernetStatus m) rEthernetStatus m := by
  refine rt_bind (rt_duration m.timestamp) ?_
  refine rt_bind (rt_int m.state (by decide) (by decide)) ?_
  exact rt_last (rt_int m.bitrate (by decide) (by decide)) rfl

theorem safe_EthernetStatus : SafeDecoder rEthernetStatus := by
  refine safe_bind safe_duration (fun _ => ?_)
  refine safe_bind (safe_int 32) (fun _ => ?_)
  refine safe_bind (safe_int 32) (fun _ => ?_)
  exact safe_pure _

theorem rt_EthernetSetMode {ver : ProtocolVersion} (m : EthernetSetMode) :
    RoundTrips ver (wEthernetSetMode m) rEthernetSetMode m := by
  exact rt_last (rt_int m.mode (by decide) (by decide)) rfl

theorem safe_EthernetSetMode : SafeDecoder rEthernetSetMode := by
  refine safe_bind (safe_int 8) (fun _ => ?_)
  exact safe_pure _

theorem rt_LinFrame {ver : ProtocolVersion} (m : LinFrame) :
    RoundTrips ver (wLinFrame m) rLinFrame m := by
  refine rt_bind (rt_int m.id (by decide) (by decide)) ?_
  refine rt_bind (rt_int m.checksumModel (by decide) (by decide)) ?_
  refine rt_bind (rt_int m.dataLength (by decide) (by decide)) ?_
  exact rt_last (rt_array m.data (by decide)) rfl

theorem safe_LinFrame : SafeDecoder rLinFrame := by
  refine safe_bind (safe_int 8) (fun _ => ?_)
  refine safe_bind (safe_int 8) (fun _ => ?_)
  refine safe_bind (safe_int 8) (fun _ => ?_)
  refine safe_bind (safe_array 8) (fun _ => ?_)
  exact safe_pure _

theorem rt_LinSendFrameRequest {ver : ProtocolVersion} (m : LinSendFrameRequest) :
    RoundTrips ver (wLinSendFrameRequest m) rLinSendFrameRequest m := by
  refine rt_bind (rt_LinFrame m.frame) ?_
  exact rt_last (rt_int m.responseType (by decide) (by decide)) rfl

theorem safe_LinSendFrameRequest : SafeDecoder rLinSendFrameRequest := by
  refine safe_bind safe_LinFrame (fun _ => ?_)
  refine safe_bind (safe_int 8) (fun _ => ?_)
  exact safe_pure _

theorem rt_LinSendFrameHeaderRequest {ver : ProtocolVersion} (m : LinSendFrameHeaderRequest) :
    RoundTrips ver (wLinSendFrameHeaderRequest m) rLinSendFrameHeaderRequest m := by
  refine rt_bind (rt_duration m.timestamp) ?_
  exact rt_last (rt_int m.id (by decide) (by decide)) rfl

theorem safe_LinSendFrameHeaderRequest : SafeDecoder rLinSendFrameHeaderRequest := by
  refine safe_bind safe_duration (fun _ => ?_)
  refine safe_bind (safe_int 8) (fun _ => ?_)
  exact safe_pure _

theorem rt_LinTransmission {ver : ProtocolVersion} (m : LinTransmission) :
    RoundTrips ver (wLinTransmission m) rLinTransmission m := by
  refine rt_bind (rt_duration m.timestamp) ?_
  refine rt_bind (rt_LinFrame m.frame) ?_
  exact rt_last (rt_int m.status (by decide) (by decide)) rfl

theorem safe_LinTransmission : SafeDecoder rLinTransmission := by
  refine safe_bind safe_duration (fun _ => ?_)
  refine safe_bind safe_LinFrame (fun _ => ?_)
  refine safe_bind (safe_int 8) (fun _ => ?_)
  exact safe_pure _

theorem rt_LinWakeupPulse {ver : ProtocolVersion} (m : LinWakeupPulse) :
    RoundTrips ver (wLinWakeupPulse m) rLinWakeupPulse m := by
  refine rt_bind (rt_duration m.timestamp) ?_
  exact rt_last (rt_int m.direction (by decide) (by decide)) rfl

theorem safe_LinWakeupPulse : SafeDecoder rLinWakeupPulse := by
  refine safe_bind safe_duration (fun _ => ?_)
  refine safe_bind (safe_int 8) (fun _ => ?_)
  exact safe_pure _

theorem rt_LinFrameResponse {ver : ProtocolVersion} (m : LinFrameResponse) :
    RoundTrips ver (wLinFrameResponse m) rLinFrameResponse m := by
  refine rt_bind (rt_LinFrame m.frame) ?_
  exact rt_last (rt_int m.responseMode (by decide) (by decide)) rfl

theorem safe_LinFrameResponse : SafeDecoder rLinFrameResponse := by
  refine safe_bind safe_LinFrame (fun _ => ?_)
  refine safe_bind (safe_int 8) (fun _ => ?_)
  exact safe_pure _

theorem rt_WireLinControllerConfig {ver : ProtocolVersion} (m : WireLinControllerConfig) (h : FitsWireLinControllerConfig m) :
    RoundTrips ver (wWireLinControllerConfig m) rWireLinControllerConfig m := by
  refine rt_bind (rt_int m.controllerMode (by decide) (by decide)) ?_
  refine rt_bind (rt_int m.baudRate (by decide) (by decide)) ?_
  refine rt_bind (rt_vec _ _ m.frameResponses h (fun x _ => rt_LinFrameResponse x)) ?_
  refine rt_remaining (fun n hn => ?_)
  simp only [ge_iff_le, gt_iff_lt, Nat.succ_le_of_lt hn, hn, ↓reduceIte]
  exact rt_last (rt_int m.simulationMode (by decide) (by decide)) rfl

theorem safe_WireLinControllerConfig : SafeDecoder rWireLinControllerConfig := by
  refine safe_bind (safe_int 8) (fun _ => ?_)
  refine safe_bind (safe_int 32) (fun _ => ?_)
  refine safe_bind (safe_vec safe_LinFrameResponse) (fun _ => ?_)
  refine safe_bind safe_remaining (fun _ => safe_ite ?_ (safe_pure _))
  refine safe_bind (safe_int 8) (fun _ => ?_)
  exact safe_pure _

theorem rt_LinControllerStatusUpdate {ver : ProtocolVersion} (m : LinControllerStatusUpdate) :
    RoundTrips ver (wLinControllerStatusUpdate m) rLinControllerStatusUpdate m := by
  refine rt_bind (rt_duration m.timestamp) ?_
  exact rt_last (rt_int m.status (by decide) (by decide)) rfl

theorem safe_LinControllerStatusUpdate : SafeDecoder rLinControllerStatusUpdate := by
  refine safe_bind safe_duration (fun _ => ?_)
  refine safe_bind (safe_int 32) (fun _ => ?_)
  exact safe_pure _

theorem rt_LinFrameResponseUpdate {ver : ProtocolVersion} (m : LinFrameResponseUpdate) (h : FitsLinFrameResponseUpdate m) :
    RoundTrips ver (wLinFrameResponseUpdate m) rLinFrameResponseUpdate m := by
  exact rt_last (rt_vec _ _ m.frameResponses h (fun x _ => rt_LinFrameResponse x)) rfl

theorem safe_LinFrameResponseUpdate : SafeDecoder rLinFrameResponseUpdate := by
  refine safe_bind (safe_vec safe_LinFrameResponse) (fun _ => ?_)
  exact safe_pure _

theorem rt_FlexrayHeader {ver : ProtocolVersion} (m : FlexrayHeader) :
    RoundTrips ver (wFlexrayHeader m) rFlexrayHeader m := by
  refine rt_bind (rt_int m.flags (by decide) (by decide)) ?_
  refine rt_bind (rt_int m.frameId (by decide) (by decide)) ?_
  refine rt_bind (rt_int m.payloadLength (by decide) (by decide)) ?_
  refine rt_bind (rt_int m.headerCrc (by decide) (by decide)) ?_
  exact rt_last (rt_int m.cycleCount (by decide) (by decide)) rfl

theorem safe_FlexrayHeader : SafeDecoder rFlexrayHeader := by
  refine safe_bind (safe_int 8) (fun _ => ?_)
  refine safe_bind (safe_int 16) (fun _ => ?_)
  refine safe_bind (safe_int 8) (fun _ => ?_)
  refine safe_bind (safe_int 16) (fun _ => ?_)
  refine safe_bind (safe_int 8) (fun _ => ?_)
  exact safe_pure _

theorem rt_WireFlexrayFrame {ver : ProtocolVersion} (m : WireFlexrayFrame) (h : FitsWireFlexrayFrame m) :
    RoundTrips ver (wWireFlexrayFrame m) rWireFlexrayFrame m := by
  refine rt_bind (rt_FlexrayHeader m.header) ?_
  exact rt_last (rt_bytes m.payload h) rfl

theorem safe_WireFlexrayFrame : SafeDecoder rWireFlexrayFrame := by
  refine safe_bind safe_FlexrayHeader (fun _ => ?_)
  refine safe_bind safe_bytes (fun _ => ?_)
  exact safe_pure _

theorem rt_WireFlexrayFrameEvent {ver : ProtocolVersion} (m : WireFlexrayFrameEvent) (h : FitsWireFlexrayFrameEvent m) :
    RoundTrips ver (wWireFlexrayFrameEvent m) rWireFlexrayFrameEvent m := by
  refine rt_bind (rt_duration m.timestamp) ?_
  refine rt_bind (rt_int m.channel (by decide) (by decide)) ?_
  exact rt_last (rt_WireFlexrayFrame m.frame h) rfl

theorem safe_WireFlexrayFrameEvent : SafeDecoder rWireFlexrayFrameEvent := by
  refine safe_bind safe_duration (fun _ => ?_)
  refine safe_bind (safe_int 32) (fun _ => ?_)
  refine safe_bind safe_WireFlexrayFrame (fun _ => ?_)
  exact safe_pure _

theorem rt_WireFlexrayFrameTransmitEvent {ver : ProtocolVersion} (m : WireFlexrayFrameTransmitEvent) (h : FitsWireFlexrayFrameTransmitEvent m) :
    RoundTrips ver (wWireFlexrayFrameTransmitEvent m) rWireFlexrayFrameTransmitEvent m := by
  refine rt_bind (rt_duration m.timestamp) ?_
  refine rt_bind (rt_int m.txBufferIndex (by decide) (by decide)) ?_
  refine rt_bind (rt_int m.channel (by decide) (by decide)) ?_
  exact rt_last (rt_WireFlexrayFrame m.frame h) rfl

theorem safe_WireFlexrayFrameTransmitEvent : SafeDecoder rWireFlexrayFrameTransmitEvent := by
  refine safe_bind safe_duration (fun _ => ?_)
  refine safe_bind (safe_int 16) (fun _ => ?_)
  refine safe_bind (safe_int 32) (fun _ => ?_)
  refine safe_bind safe_WireFlexrayFrame (fun _ => ?_)
  exact safe_pure _

theorem rt_FlexraySymbolEvent {ver : ProtocolVersion} (m : FlexraySymbolEvent) :
    RoundTrips ver (wFlexraySymbolEvent m) rFlexraySymbolEvent m := by
  refine rt_bind (rt_duration m.timestamp) ?_
  refine rt_bind (rt_int m.channel (by decide) (by decide)) ?_
  exact rt_last (rt_int m.pattern (by decide) (by decide)) rfl

theorem safe_FlexraySymbolEvent : SafeDecoder rFlexraySymbolEvent := by
  refine safe_bind safe_duration (fun _ => ?_)
  refine safe_bind (safe_int 32) (fun _ => ?_)
  refine safe_bind (safe_int 8) (fun _ => ?_)
  exact safe_pure _

theorem rt_FlexrayCycleStartEvent {ver : ProtocolVersion} (m : FlexrayCycleStartEvent) :
    RoundTrips ver (wFlexrayCycleStartEvent m) rFlexrayCycleStartEvent m := by
  refine rt_bind (rt_duration m.timestamp) ?_
  exact rt_last (rt_int m.cycleCounter (by decide) (by decide)) rfl

theorem safe_FlexrayCycleStartEvent : SafeDecoder rFlexrayCycleStartEvent := by
  refine safe_bind safe_duration (fun _ => ?_)
  refine safe_bind (safe_int 8) (fun _ => ?_)
  exact safe_pure _

theorem rt_FlexrayHostCommand {ver : ProtocolVersion} (m : FlexrayHostCommand) :
    RoundTrips ver (wFlexrayHostCommand m) rFlexrayHostCommand m := by
  exact rt_last (rt_int m.command (by decide) (by decide)) rfl

theorem safe_FlexrayHostCommand : SafeDecoder rFlexrayHostCommand := by
  refine safe_bind (safe_int 8) (fun _ => ?_)
  exact safe_pure _

theorem rt_FlexrayClusterParameters {ver : ProtocolVersion} (m : FlexrayClusterParameters) :
    RoundTrips ver (wFlexrayClusterParameters m) rFlexrayClusterParameters m := by
  refine rt_bind (rt_int m.gColdstartAttempts (by decide) (by decide)) ?_
  refine rt_bind (rt_int m.gCycleCountMax (by decide) (by decide)) ?_
  refine rt_bind (rt_int m.gdActionPointOffset (by decide) (by decide)) ?_
  refine rt_bind (rt_int m.gdDynamicSlotIdlePhase (by decide) (by decide)) ?_
  refine rt_bind (rt_int m.gdMiniSlot (by decide) (by decide)) ?_
  refine rt_bind (rt_int m.gdMiniSlotActionPointOffset (by decide) (by decide)) ?_
  refine rt_bind (rt_int m.gdStaticSlot (by decide) (by decide)) ?_
  refine rt_bind (rt_int m.gdSymbolWindow (by decide) (by decide)) ?_
  refine rt_bind (rt_int m.gdSymbolWindowActionPointOffset (by decide) (by decide)) ?_
  refine rt_bind (rt_int m.gdTSSTransmitter (by decide) (by decide)) ?_
  refine rt_bind (rt_int m.gdWakeupTxActive (by decide) (by decide)) ?_
  refine rt_bind (rt_int m.gdWakeupTxIdle (by decide) (by decide)) ?_
  refine rt_bind (rt_int m.gListenNoise (by decide) (by decide)) ?_
  refine rt_bind (rt_int m.gMacroPerCycle (by decide) (by decide)) ?_
  refine rt_bind (rt_int m.gMaxWithoutClockCorrectionFatal (by decide) (by decide)) ?_
  refine rt_bind (rt_int m.gMaxWithoutClockCorrectionPassive (by decide) (by decide)) ?_
  refine rt_bind (rt_int m.gNumberOfMiniSlots (by decide) (by decide)) ?_
  refine rt_bind (rt_int m.gNumberOfStaticSlots (by decide) (by decide)) ?_
  refine rt_bind (rt_int m.gPayloadLengthStatic (by decide) (by decide)) ?_
  exact rt_last (rt_int m.gSyncFrameIDCountMax (by decide) (by decide)) rfl

theorem safe_FlexrayClusterParameters : SafeDecoder rFlexrayClusterParameters := by
  refine safe_bind (safe_int 8) (fun _ => ?_)
  refine safe_bind (safe_int 8) (fun _ => ?_)
  refine safe_bind (safe_int 16) (fun _ => ?_)
  refine safe_bind (safe_int 16) (fun _ => ?_)
  refine safe_bind (safe_int 16) (fun _ => ?_)
  refine safe_bind (safe_int 16) (fun _ => ?_)
  refine safe_bind (safe_int 16) (fun _ => ?_)
  refine safe_bind (safe_int 16) (fun _ => ?_)
  refine safe_bind (safe_int 16) (fun _ => ?_)
  refine safe_bind (safe_int 16) (fun _ => ?_)
  refine safe_bind (safe_int 16) (fun _ => ?_)
  refine safe_bind (safe_int 16) (fun _ => ?_)
  refine safe_bind (safe_int 8) (fun _ => ?_)
  refine safe_bind (safe_int 16) (fun _ => ?_)
  refine safe_bind (safe_int 8) (fun _ => ?_)
  refine safe_bind (safe_int 8) (fun _ => ?_)
  refine safe_bind (safe_int 16) (fun _ => ?_)
  refine safe_bind (safe_int 16) (fun _ => ?_)
  refine safe_bind (safe_int 16) (fun _ => ?_)
  refine safe_bind (safe_int 8) (fun _ => ?_)
  exact safe_pure _

theorem rt_FlexrayNodeParameters {ver : ProtocolVersion} (m : FlexrayNodeParameters) :
    RoundTrips ver (wFlexrayNodeParameters m) rFlexrayNodeParameters m := by
  refine rt_bind (rt_int m.pAllowHaltDueToClock (by decide) (by decide)) ?_
  refine rt_bind (rt_int m.pAllowPassiveToActive (by decide) (by decide)) ?_
  refine rt_bind (rt_int m.pChannels (by decide) (by decide)) ?_
  refine rt_bind (rt_int m.pClusterDriftDamping (by decide) (by decide)) ?_
  refine rt_bind (rt_int m.pdAcceptedStartupRange (by decide) (by decide)) ?_
  refine rt_bind (rt_int m.pdListenTimeout (by decide) (by decide)) ?_
  refine rt_bind (rt_int m.pKeySlotId (by decide) (by decide)) ?_
  refine rt_bind (rt_int m.pKeySlotOnlyEnabled (by decide) (by decide)) ?_
  refine rt_bind (rt_int m.pKeySlotUsedForStartup (by decide) (by decide)) ?_
  refine rt_bind (rt_int m.pKeySlotUsedForSync (by decide) (by decide)) ?_
  refine rt_bind (rt_int m.pLatestTx (by decide) (by decide)) ?_
  refine rt_bind (rt_int m.pMacroInitialOffsetA (by decide) (by decide)) ?_
  refine rt_bind (rt_int m.pMacroInitialOffsetB (by decide) (by decide)) ?_
  refine rt_bind (rt_int m.pMicroInitialOffsetA (by decide) (by decide)) ?_
  refine rt_bind (rt_int m.pMicroInitialOffsetB (by decide) (by decide)) ?_
  refine rt_bind (rt_int m.pMicroPerCycle (by decide) (by decide)) ?_
  refine rt_bind (rt_int m.pOffsetCorrectionOut (by decide) (by decide)) ?_
  refine rt_bind (rt_int m.pOffsetCorrectionStart (by decide) (by decide)) ?_
  refine rt_bind (rt_int m.pRateCorrectionOut (by decide) (by decide)) ?_
  refine rt_bind (rt_int m.pWakeupChannel (by decide) (by decide)) ?_
  refine rt_bind (rt_int m.pWakeupPattern (by decide) (by decide)) ?_
  refine rt_bind (rt_int m.pdMicrotick (by decide) (by decide)) ?_
  exact rt_last (rt_int m.pSamplesPerMicrotick (by decide) (by decide)) rfl

theorem safe_FlexrayNodeParameters : SafeDecoder rFlexrayNodeParameters := by
  refine safe_bind (safe_int 8) (fun _ => ?_)
  refine safe_bind (safe_int 8) (fun _ => ?_)
  refine safe_bind (safe_int 32) (fun _ => ?_)
  refine safe_bind (safe_int 8) (fun _ => ?_)
  refine safe_bind (safe_int 32) (fun _ => ?_)
  refine safe_bind (safe_int 32) (fun _ => ?_)
  refine safe_bind (safe_int 16) (fun _ => ?_)
  refine safe_bind (safe_int 8) (fun _ => ?_)
  refine safe_bind (safe_int 8) (fun _ => ?_)
  refine safe_bind (safe_int 8) (fun _ => ?_)
  refine safe_bind (safe_int 16) (fun _ => ?_)
  refine safe_bind (safe_int 8) (fun _ => ?_)
  refine safe_bind (safe_int 8) (fun _ => ?_)
  refine safe_bind (safe_int 32) (fun _ => ?_)
  refine safe_bind (safe_int 32) (fun _ => ?_)
  refine safe_bind (safe_int 32) (fun _ => ?_)
  refine safe_bind (safe_int 32) (fun _ => ?_)
  refine safe_bind (safe_int 16) (fun _ => ?_)
  refine safe_bind (safe_int 32) (fun _ => ?_)
  refine safe_bind (safe_int 32) (fun _ => ?_)
  refine safe_bind (safe_int 8) (fun _ => ?_)
  refine safe_bind (safe_int 32) (fun _ => ?_)
  refine safe_bind (safe_int 8) (fun _ => ?_)
  exact safe_pure _

theorem rt_FlexrayTxBufferConfig {ver : ProtocolVersion} (m : FlexrayTxBufferConfig) :
    RoundTrips ver (wFlexrayTxBufferConfig m) rFlexrayTxBufferConfig m := by
  refine rt_bind (rt_int m.channels (by decide) (by decide)) ?_
  refine rt_bind (rt_int m.slotId (by decide) (by decide)) ?_
  refine rt_bind (rt_int m.offset (by decide) (by decide)) ?_
  refine rt_bind (rt_int m.repetition (by decide) (by decide)) ?_
  refine rt_bind (rt_int m.hasPayloadPreambleIndicator (by decide) (by decide)) ?_
  refine rt_bind (rt_int m.headerCrc (by decide) (by decide)) ?_
  exact rt_last (rt_int m.transmissionMode (by decide) (by decide)) rfl

theorem safe_FlexrayTxBufferConfig : SafeDecoder rFlexrayTxBufferConfig := by
  refine safe_bind (safe_int 32) (fun _ => ?_)
  refine safe_bind (safe_int 16) (fun _ => ?_)
  refine safe_bind (safe_int 8) (fun _ => ?_)
  refine safe_bind (safe_int 8) (fun _ => ?_)
  refine safe_bind (safe_int 8) (fun _ => ?_)
  refine safe_bind (safe_int 16) (fun _ => ?_)
  refine safe_bind (safe_int 8) (fun _ => ?_)
  exact safe_pure _

theorem rt_FlexrayControllerConfig {ver : ProtocolVersion} (m : FlexrayControllerConfig) (h : FitsFlexrayControllerConfig m) :
    RoundTrips ver (wFlexrayControllerConfig m) rFlexrayControllerConfig m := by
  refine rt_bind (rt_FlexrayClusterParameters m.clusterParams) ?_
  refine rt_bind (rt_FlexrayNodeParameters m.nodeParams) ?_
  refine rt_bind (rt_vec _ _ m.bufferConfigs h (fun x _ => rt_FlexrayTxBufferConfig x)) ?_
  refine rt_remaining (fun n hn => ?_)
  simp only [ge_iff_le, gt_iff_lt, Nat.succ_le_of_lt hn, hn, ↓reduceIte]
  refine rt_bind (rt_int m.pSecondKeySlotId (by decide) (by decide)) ?_
  exact rt_last (rt_int m.pTwoKeySlotMode (by decide) (by decide)) rfl

theorem safe_FlexrayControllerConfig : SafeDecoder rFlexrayControllerConfig := by
  refine safe_bind safe_FlexrayClusterParameters (fun _ => ?_)
  refine safe_bind safe_FlexrayNodeParameters (fun _ => ?_)
  refine safe_bind (safe_vec safe_FlexrayTxBufferConfig) (fun _ => ?_)
  refine safe_bind safe_remaining (fun _ => safe_ite ?_ (safe_pure _))
  refine safe_bind (safe_int 16) (fun _ => ?_)
  refine safe_bind (safe_int 8) (fun _ => ?_)
  exact safe_pure _

theorem rt_FlexrayTxBufferConfigUpdate {ver : ProtocolVersion} (m : FlexrayTxBufferConfigUpdate) :
    RoundTrips ver (wFlexrayTxBufferConfigUpdate m) rFlexrayTxBufferConfigUpdate m := by
  refine rt_bind (rt_int m.txBufferIndex (by decide) (by decide)) ?_
  exact rt_last (rt_FlexrayTxBufferConfig m.txBufferConfig) rfl

theorem safe_FlexrayTxBufferConfigUpdate : SafeDecoder rFlexrayTxBufferConfigUpdate := by
  refine safe_bind (safe_int 16) (fun _ => ?_)
  refine safe_bind safe_FlexrayTxBufferConfig (fun _ => ?_)
  exact safe_pure _

theorem rt_WireFlexrayTxBufferUpdate {ver : ProtocolVersion} (m : WireFlexrayTxBufferUpdate) (h : FitsWireFlexrayTxBufferUpdate m) :
    RoundTrips ver (wWireFlexrayTxBufferUpdate m) rWireFlexrayTxBufferUpdate m := by
  refine rt_bind (rt_int m.txBufferIndex (by decide) (by decide)) ?_
  refine rt_bind (rt_int m.payloadDataValid (by decide) (by decide)) ?_
  exact rt_last (rt_bytes m.payload h) rfl

theorem safe_WireFlexrayTxBufferUpdate : SafeDecoder rWireFlexrayTxBufferUpdate := by
  refine safe_bind (safe_int 16) (fun _ => ?_)
  refine safe_bind (safe_int 8) (fun _ => ?_)
  refine safe_bind safe_bytes (fun _ => ?_)
  exact safe_pure _

theorem rt_FlexrayPocStatusEvent {ver : ProtocolVersion} (m : FlexrayPocStatusEvent) :
    RoundTrips ver (wFlexrayPocStatusEvent m) rFlexrayPocStatusEvent m := by
  refine rt_bind (rt_duration m.timestamp) ?_
  refine rt_bind (rt_int m.chiHaltRequest (by decide) (by decide)) ?_
  refine rt_bind (rt_int m.coldstartNoise (by decide) (by decide)) ?_
  refine rt_bind (rt_int m.errorMode (by decide) (by decide)) ?_
  refine rt_bind (rt_int m.freeze (by decide) (by decide)) ?_
  refine rt_bind (rt_int m.slotMode (by decide) (by decide)) ?_
  refine rt_bind (rt_int m.startupState (by decide) (by decide)) ?_
  refine rt_bind (rt_int m.state (by decide) (by decide)) ?_
  refine rt_bind (rt_int m.wakeupStatus (by decide) (by decide)) ?_
  exact rt_last (rt_int m.chiReadyRequest (by decide) (by decide)) rfl

theorem safe_FlexrayPocStatusEvent : SafeDecoder rFlexrayPocStatusEvent := by
  refine safe_bind safe_duration (fun _ => ?_)
  refine safe_bind (safe_int 8) (fun _ => ?_)
  refine safe_bind (safe_int 8) (fun _ => ?_)
  refine safe_bind (safe_int 8) (fun _ => ?_)
  refine safe_bind (safe_int 8) (fun _ => ?_)
  refine safe_bind (safe_int 8) (fun _ => ?_)
  refine safe_bind (safe_int 8) (fun _ => ?_)
  refine safe_bind (safe_int 8) (fun _ => ?_)
  refine safe_bind (safe_int 8) (fun _ => ?_)
  refine safe_bind (safe_int 8) (fun _ => ?_)
  exact safe_pure _

theorem rt_NextSimTask {ver : ProtocolVersion} (m : NextSimTask) :
    RoundTrips ver (wNextSimTask m) rNextSimTask m := by
  refine rt_bind (rt_duration m.timePoint) ?_
  exact rt_last (rt_duration m.duration) rfl

theorem safe_NextSimTask : SafeDecoder rNextSimTask := by
  refine safe_bind safe_duration (fun _ => ?_)
  refine safe_bind safe_duration (fun _ => ?_)
  exact safe_pure _

theorem rt_SystemCommand {ver : ProtocolVersion} (m : SystemCommand) :
    RoundTrips ver (wSystemCommand m) rSystemCommand m := by
  exact rt_last (rt_int m.kind (by decide) (by decide)) rfl

theorem safe_SystemCommand : SafeDecoder rSystemCommand := by
  refine safe_bind (safe_int 8) (fun _ => ?_)
  exact safe_pure _

theorem rt_ParticipantStatus {ver : ProtocolVersion} (m : ParticipantStatus) (h : FitsParticipantStatus m) :
    RoundTrips ver (wParticipantStatus m) rParticipantStatus { m with enterTime := truncMicros m.enterTime, refreshTime := truncMicros m.refreshTime } := by
  obtain ⟨h0, h1⟩ := h
  refine rt_bind (rt_bytes m.participantName h0) ?_
  refine rt_bind (rt_int m.state (by decide) (by decide)) ?_
  refine rt_bind (rt_bytes m.enterReason h1) ?_
  refine rt_bind (rt_timePoint m.enterTime) ?_
  exact rt_last (rt_timePoint m.refreshTime) rfl

theorem msafe_ParticipantStatus : MemorySafeDecoder rParticipantStatus := by
  refine msafe_bind (msafe_of_safe safe_bytes) (fun _ => ?_)
  refine msafe_bind (msafe_of_safe (safe_int 16)) (fun _ => ?_)
  refine msafe_bind (msafe_of_safe safe_bytes) (fun _ => ?_)
  refine msafe_bind msafe_timePoint (fun _ => ?_)
  refine msafe_bind msafe_timePoint (fun _ => ?_)
  exact msafe_of_safe (safe_pure _)

theorem rt_WorkflowConfiguration {ver : ProtocolVersion} (m : WorkflowConfiguration) (h : FitsWorkflowConfiguration m) :
    RoundTrips ver (wWorkflowConfiguration m) rWorkflowConfiguration m := by
  exact rt_last (rt_vec _ _ m.requiredParticipantNames h.1 (fun s hs => rt_bytes s (h.2 s hs))) rfl

theorem safe_WorkflowConfiguration : SafeDecoder rWorkflowConfiguration := by
  refine safe_bind (safe_vec safe_bytes) (fun _ => ?_)
  exact safe_pure _

theorem rt_WireDataMessageEvent {ver : ProtocolVersion} (m : WireDataMessageEvent) (h : FitsWireDataMessageEvent m) :
    RoundTrips ver (wWireDataMessageEvent m) rWireDataMessageEvent m := by
  refine rt_bind (rt_bytes m.data h) ?_
  exact rt_last (rt_duration m.timestamp) rfl

theorem safe_WireDataMessageEvent : SafeDecoder rWireDataMessageEvent := by
  refine safe_bind safe_bytes (fun _ => ?_)
  refine safe_bind safe_duration (fun _ => ?_)
  exact safe_pure _

theorem rt_FunctionCall {ver : ProtocolVersion} (m : FunctionCall) (h : FitsFunctionCall m) :
    RoundTrips ver (wFunctionCall m) rFunctionCall m := by
  refine rt_bind (rt_duration m.timestamp) ?_
  refine rt_bind (rt_uuid m.callUuid) ?_
  exact rt_last (rt_bytes m.data h) rfl

theorem safe_FunctionCall : SafeDecoder rFunctionCall := by
  refine safe_bind safe_duration (fun _ => ?_)
  refine safe_bind safe_uuid (fun _ => ?_)
  refine safe_bind safe_bytes (fun _ => ?_)
  exact safe_pure _

theorem rt_FunctionCallResponse {ver : ProtocolVersion} (m : FunctionCallResponse) (h : FitsFunctionCallResponse m) :
    RoundTrips ver (wFunctionCallResponse m) rFunctionCallResponse m := by
  refine rt_bind (rt_duration m.timestamp) ?_
  refine rt_bind (rt_uuid m.callUuid) ?_
  refine rt_bind (rt_bytes m.data h) ?_
  exact rt_last (rt_int m.status (by decide) (by decide)) rfl

theorem safe_FunctionCallResponse : SafeDecoder rFunctionCallResponse := by
  refine safe_bind safe_duration (fun _ => ?_)
  refine safe_bind safe_uuid (fun _ => ?_)
  refine safe_bind safe_bytes (fun _ => ?_)
  refine safe_bind (safe_int 32) (fun _ => ?_)
  exact safe_pure _

theorem rt_RequestReplyCall {ver : ProtocolVersion} (m : RequestReplyCall) (h : FitsRequestReplyCall m) :
    RoundTrips ver (wRequestReplyCall m) rRequestReplyCall m := by
  refine rt_bind (rt_uuid m.callUuid) ?_
  refine rt_bind (rt_int m.functionType (by decide) (by decide)) ?_
  exact rt_last (rt_bytes m.callData h) rfl

theorem safe_RequestReplyCall : SafeDecoder rRequestReplyCall := by
  refine safe_bind safe_uuid (fun _ => ?_)
  refine safe_bind (safe_int 16) (fun _ => ?_)
  refine safe_bind safe_bytes (fun _ => ?_)
  exact safe_pure _

theorem rt_RequestReplyCallReturn {ver : ProtocolVersion} (m : RequestReplyCallReturn) (h : FitsRequestReplyCallReturn m) :
    RoundTrips ver (wRequestReplyCallReturn m) rRequestReplyCallReturn m := by
  refine rt_bind (rt_uuid m.callUuid) ?_
  refine rt_bind (rt_int m.functionType (by decide) (by decide)) ?_
  refine rt_bind (rt_bytes m.callReturnData h) ?_
  exact rt_last (rt_int m.callReturnStatus (by decide) (by decide)) rfl

theorem safe_RequestReplyCallReturn : SafeDecoder rRequestReplyCallReturn := by
  refine safe_bind safe_uuid (fun _ => ?_)
  refine safe_bind (safe_int 16) (fun _ => ?_)
  refine safe_bind safe_bytes (fun _ => ?_)
  refine safe_bind (safe_int 16) (fun _ => ?_)
  exact safe_pure _

theorem rt_ServiceDescriptor {ver : ProtocolVersion} (m : ServiceDescriptor) (h : FitsServiceDescriptor m) :
    RoundTrips ver (wServiceDescriptor m) rServiceDescriptor m := by
  obtain ⟨h0, h1, h2, h3⟩ := h
  refine rt_bind (rt_bytes m.participantName h0) ?_
  refine rt_bind (rt_int m.serviceType (by decide) (by decide)) ?_
  refine rt_bind (rt_bytes m.networkName h1) ?_
  refine rt_bind (rt_int m.networkType (by decide) (by decide)) ?_
  refine rt_bind (rt_bytes m.serviceName h2) ?_
  refine rt_bind (rt_int m.serviceId (by decide) (by decide)) ?_
  refine rt_bind (rt_map m.supplementalData h3.1 h3.2.1 h3.2.2) ?_
  exact rt_last (rt_int m.participantId (by decide) (by decide)) rfl

theorem safe_ServiceDescriptor : SafeDecoder rServiceDescriptor := by
  refine safe_bind safe_bytes (fun _ => ?_)
  refine safe_bind (safe_int 8) (fun _ => ?_)
  refine safe_bind safe_bytes (fun _ => ?_)
  refine safe_bind (safe_int 32) (fun _ => ?_)
  refine safe_bind safe_bytes (fun _ => ?_)
  refine safe_bind (safe_int 64) (fun _ => ?_)
  refine safe_bind safe_map (fun _ => ?_)
  refine safe_bind (safe_int 64) (fun _ => ?_)
  exact safe_pure _

theorem rt_ParticipantDiscoveryEvent {ver : ProtocolVersion} (m : ParticipantDiscoveryEvent) (h : FitsParticipantDiscoveryEvent m) :
    RoundTrips ver (wParticipantDiscoveryEvent m) rParticipantDiscoveryEvent m := by
  obtain ⟨h0, h1⟩ := h
  refine rt_bind (rt_bytes m.participantName h0) ?_
  refine rt_bind (rt_int m.version (by decide) (by decide)) ?_
  exact rt_last (rt_vec _ _ m.services h1.1 (fun x hx => rt_ServiceDescriptor x (h1.2 x hx))) rfl

theorem safe_ParticipantDiscoveryEvent : SafeDecoder rParticipantDiscoveryEvent := by
  refine safe_bind safe_bytes (fun _ => ?_)
  refine safe_bind (safe_int 64) (fun _ => ?_)
  refine safe_bind (safe_vec safe_ServiceDescriptor) (fun _ => ?_)
  exact safe_pure _

theorem rt_ServiceDiscoveryEvent {ver : ProtocolVersion} (m : ServiceDiscoveryEvent) (h : FitsServiceDiscoveryEvent m) :
    RoundTrips ver (wServiceDiscoveryEvent m) rServiceDiscoveryEvent m := by
  refine rt_bind (rt_int m.type (by decide) (by decide)) ?_
  exact rt_last (rt_ServiceDescriptor m.serviceDescriptor h) rfl

theorem safe_ServiceDiscoveryEvent : SafeDecoder rServiceDiscoveryEvent := by
  refine safe_bind (safe_int 32) (fun _ => ?_)
  refine safe_bind safe_ServiceDescriptor (fun _ => ?_)
  exact safe_pure _

theorem rt_MetricData {ver : ProtocolVersion} (m : MetricData) (h : FitsMetricData m) :
    RoundTrips ver (wMetricData m) rMetricData m := by
  obtain ⟨h0, h1⟩ := h
  refine rt_bind (rt_int m.timestamp (by decide) (by decide)) ?_
  refine rt_bind (rt_bytes m.name h0) ?_
  refine rt_bind (rt_int m.kind (by decide) (by decide)) ?_
  exact rt_last (rt_bytes m.value h1) rfl

theorem safe_MetricData : SafeDecoder rMetricData := by
  refine safe_bind (safe_int 64) (fun _ => ?_)
  refine safe_bind safe_bytes (fun _ => ?_)
  refine safe_bind (safe_int 32) (fun _ => ?_)
  refine safe_bind safe_bytes (fun _ => ?_)
  exact safe_pure _

theorem rt_MetricsUpdate {ver : ProtocolVersion} (m : MetricsUpdate) (h : FitsMetricsUpdate m) :
    RoundTrips ver (wMetricsUpdate m) rMetricsUpdate m := by
  exact rt_last (rt_vec _ _ m.metrics h.1 (fun x hx => rt_MetricData x (h.2 x hx))) rfl

theorem safe_MetricsUpdate : SafeDecoder rMetricsUpdate := by
  refine safe_bind (safe_vec safe_MetricData) (fun _ => ?_)
  exact safe_pure _

theorem rt_SourceLoc {ver : ProtocolVersion} (m : SourceLoc) (h : FitsSourceLoc m) :
    RoundTrips ver (wSourceLoc m) rSourceLoc m := by
  obtain ⟨h0, h1⟩ := h
  refine rt_bind (rt_bytes m.filename h0) ?_
  refine rt_bind (rt_int m.line (by decide) (by decide)) ?_
  exact rt_last (rt_bytes m.funcname h1) rfl

theorem safe_SourceLoc : SafeDecoder rSourceLoc := by
  refine safe_bind safe_bytes (fun _ => ?_)
  refine safe_bind (safe_int 32) (fun _ => ?_)
  refine safe_bind safe_bytes (fun _ => ?_)
  exact safe_pure _

theorem rt_RegistryMsgHeader {ver : ProtocolVersion} (m : RegistryMsgHeader) :
    RoundTrips ver (wRegistryMsgHeader m) rRegistryMsgHeader m := by
  refine rt_bind (rt_int m.preamble (by decide) (by decide)) ?_
  refine rt_bind (rt_int m.versionHigh (by decide) (by decide)) ?_
  exact rt_last (rt_int m.versionLow (by decide) (by decide)) rfl

theorem safe_RegistryMsgHeader : SafeDecoder rRegistryMsgHeader := by
  refine safe_bind (safe_int 32) (fun _ => ?_)
  refine safe_bind (safe_int 16) (fun _ => ?_)
  refine safe_bind (safe_int 16) (fun _ => ?_)
  exact safe_pure _

theorem rt_VAsioPeerInfo {ver : ProtocolVersion} (m : VAsioPeerInfo) (h : FitsVAsioPeerInfo m) :
    RoundTrips ver (wVAsioPeerInfo m) rVAsioPeerInfo m := by
  obtain ⟨h0, h1, h2⟩ := h
  refine rt_bind (rt_bytes m.participantName h0) ?_
  refine rt_bind (rt_int m.participantId (by decide) (by decide)) ?_
  refine rt_bind (rt_vec _ _ m.acceptorUris h1.1 (fun s hs => rt_bytes s (h1.2 s hs))) ?_
  exact rt_last (rt_bytes m.capabilities h2) rfl

theorem safe_VAsioPeerInfo : SafeDecoder rVAsioPeerInfo := by
  refine safe_bind safe_bytes (fun _ => ?_)
  refine safe_bind (safe_int 64) (fun _ => ?_)
  refine safe_bind (safe_vec safe_bytes) (fun _ => ?_)
  refine safe_bind safe_bytes (fun _ => ?_)
  exact safe_pure _

theorem rt_VAsioMsgSubscriber {ver : ProtocolVersion} (m : VAsioMsgSubscriber) (h : FitsVAsioMsgSubscriber m) :
    RoundTrips ver (wVAsioMsgSubscriber m) rVAsioMsgSubscriber m := by
  obtain ⟨h0, h1⟩ := h
  refine rt_bind (rt_int m.receiverIdx (by decide) (by decide)) ?_
  refine rt_bind (rt_bytes m.networkName h0) ?_
  refine rt_bind (rt_bytes m.msgTypeName h1) ?_
  exact rt_last (rt_int m.version (by decide) (by decide)) rfl

theorem safe_VAsioMsgSubscriber : SafeDecoder rVAsioMsgSubscriber := by
  refine safe_bind (safe_int 64) (fun _ => ?_)
  refine safe_bind safe_bytes (fun _ => ?_)
  refine safe_bind safe_bytes (fun _ => ?_)
  refine safe_bind (safe_int 32) (fun _ => ?_)
  exact safe_pure _

theorem rt_SubscriptionAcknowledge {ver : ProtocolVersion} (m : SubscriptionAcknowledge) (h : FitsSubscriptionAcknowledge m) :
    RoundTrips ver (wSubscriptionAcknowledge m) rSubscriptionAcknowledge m := by
  refine rt_bind (rt_int m.status (by decide) (by decide)) ?_
  exact rt_last (rt_VAsioMsgSubscriber m.subscriber h) rfl

theorem safe_SubscriptionAcknowledge : SafeDecoder rSubscriptionAcknowledge := by
  refine safe_bind (safe_int 8) (fun _ => ?_)
  refine safe_bind safe_VAsioMsgSubscriber (fun _ => ?_)
  exact safe_pure _

theorem rt_RemoteParticipantConnectRequest {ver : ProtocolVersion} (m : RemoteParticipantConnectRequest) (h : FitsRemoteParticipantConnectRequest m) :
    RoundTrips ver (wRemoteParticipantConnectRequest m) rRemoteParticipantConnectRequest m := by
  obtain ⟨h0, h1⟩ := h
  refine rt_bind (rt_RegistryMsgHeader m.messageHeader) ?_
  refine rt_bind (rt_VAsioPeerInfo m.requestOrigin h0) ?_
  refine rt_bind (rt_VAsioPeerInfo m.requestTarget h1) ?_
  exact rt_last (rt_int m.status (by decide) (by decide)) rfl

theorem safe_RemoteParticipantConnectRequest : SafeDecoder rRemoteParticipantConnectRequest := by
  refine safe_bind safe_RegistryMsgHeader (fun _ => ?_)
  refine safe_bind safe_VAsioPeerInfo (fun _ => ?_)
  refine safe_bind safe_VAsioPeerInfo (fun _ => ?_)
  refine safe_bind (safe_int 8) (fun _ => ?_)
  exact safe_pure _

/-! ## log messages -/

theorem topic_known (n : Fin 23) : fromTopicString (topicToString (BitVec.ofNat 32 n.val)) = BitVec.ofNat 32 n.val := by
  revert n; decide

theorem topicToString_unknown {t : BitVec 32} (h : ¬ t.toNat ≤ 22) :
    topicToString t = ascii ['I', 'n', 'v', 'a', 'l', 'i', 'd'] := by
  unfold topicToString
  have : topicNames.find? (fun e => e.1 == t.toNat) = none := by
    rw [List.find?_eq_none]
    intro e he
    have : e.1 ≤ 22 := by
      revert e; decide
    simp; omega
  rw [this]

theorem topic_roundtrip (t : BitVec 32) : fromTopicString (topicToString t) = knownTopic t := by
  unfold knownTopic
  by_cases h : t.toNat ≤ 22
  · rw [if_pos h]
    have := topic_known ⟨t.toNat, by omega⟩
    simpa using this
  · rw [if_neg h, topicToString_unknown h]
    decide

theorem short_topic (t : BitVec 32) : Short (topicToString t) := by
  unfold topicToString
  split
  · rename_i e he
    have hm := List.mem_of_find?_eq_some he
    have key : ∀ e ∈ topicNames, e.2.length ≤ 22 := by decide
    have := key e hm
    simp [Short, ascii]; omega
  · simp [Short, ascii]

theorem rt_LogMsg {ver : ProtocolVersion} (m : LogMsg) (h : FitsLogMsg m) :
    RoundTrips ver (wLogMsg m) rLogMsg { m with time := truncMicros m.time, topic := knownTopic m.topic } := by
  obtain ⟨h0, h1, h2, h3⟩ := h
  refine rt_bind (rt_bytes m.loggerName h0) ?_
  refine rt_bind (rt_int m.level (by decide) (by decide)) ?_
  refine rt_bind (rt_timePoint m.time) ?_
  refine rt_bind (rt_SourceLoc m.source h1) ?_
  refine rt_bind (rt_bytes m.payload h2) ?_
  refine rt_remaining (fun n hn => ?_)
  simp only [gt_iff_lt, hn, ↓reduceIte]
  refine rt_bind (rt_vec _ _ m.keyValues h3.1 (fun e he => rt_pair e (rt_bytes _ (h3.2 e he).1) (rt_bytes _ (h3.2 e he).2))) ?_
  refine rt_remaining (fun n hn => ?_)
  simp only [gt_iff_lt, hn, ↓reduceIte]
  refine rt_last (rt_bytes _ (short_topic _)) ?_
  rw [topic_roundtrip]

theorem safe_LogMsgTopic (m : LogMsg) : SafeDecoder (rLogMsgTopic m) := by
  refine safe_bind safe_remaining (fun _ => safe_ite ?_ (safe_pure _))
  exact safe_bind safe_bytes (fun _ => safe_pure _)

theorem msafe_LogMsg : MemorySafeDecoder rLogMsg := by
  refine msafe_bind (msafe_of_safe safe_bytes) (fun _ => ?_)
  refine msafe_bind (msafe_of_safe (safe_int 32)) (fun _ => ?_)
  refine msafe_bind msafe_timePoint (fun _ => ?_)
  refine msafe_of_safe ?_
  refine safe_bind safe_SourceLoc (fun _ => ?_)
  refine safe_bind safe_bytes (fun _ => ?_)
  refine safe_bind safe_remaining (fun _ => safe_ite ?_ (safe_LogMsgTopic _))
  exact safe_bind (safe_vec (safe_pair safe_bytes safe_bytes)) (fun _ => safe_LogMsgTopic _)

theorem rt_all {ver : ProtocolVersion} (t : MsgType) (m : t.Val) (h : t.Fits m) :
    RoundTrips ver (t.write m) t.read (t.received m) := by
  cases t with
  | endpointAddress => exact rt_EndpointAddress m
  | wireCanFrameEvent => exact rt_WireCanFrameEvent m h
  | canFrameTransmitEvent => exact rt_CanFrameTransmitEvent m
  | canControllerStatus => exact rt_CanControllerStatus m
  | canConfigureBaudrate => exact rt_CanConfigureBaudrate m
  | canSetControllerMode => exact rt_CanSetControllerMode m
  | wireEthernetFrame => exact rt_WireEthernetFrame m h
  | wireEthernetFrameEvent => exact rt_WireEthernetFrameEvent m h
  | ethernetFrameTransmitEvent => exact rt_EthernetFrameTransmitEvent m
  | ethernetStatus => exact rt_EthernetStatus m
  | ethernetSetMode => exact rt_EthernetSetMode m
  | linFrame => exact rt_LinFrame m
  | linSendFrameRequest => exact rt_LinSendFrameRequest m
  | linSendFrameHeaderRequest => exact rt_LinSendFrameHeaderRequest m
  | linTransmission => exact rt_LinTransmission m
  | linWakeupPulse => exact rt_LinWakeupPulse m
  | linFrameResponse => exact rt_LinFrameResponse m
  | wireLinControllerConfig => exact rt_WireLinControllerConfig m h
  | linControllerStatusUpdate => exact rt_LinControllerStatusUpdate m
  | linFrameResponseUpdate => exact rt_LinFrameResponseUpdate m h
  | flexrayHeader => exact rt_FlexrayHeader m
  | wireFlexrayFrame => exact rt_WireFlexrayFrame m h
  | wireFlexrayFrameEvent => exact rt_WireFlexrayFrameEvent m h
  | wireFlexrayFrameTransmitEvent => exact rt_WireFlexrayFrameTransmitEvent m h
  | flexraySymbolEvent => exact rt_FlexraySymbolEvent m
  | flexrayCycleStartEvent => exact rt_FlexrayCycleStartEvent m
  | flexrayHostCommand => exact rt_FlexrayHostCommand m
  | flexrayClusterParameters => exact rt_FlexrayClusterParameters m
  | flexrayNodeParameters => exact rt_FlexrayNodeParameters m
  | flexrayTxBufferConfig => exact rt_FlexrayTxBufferConfig m
  | flexrayControllerConfig => exact rt_FlexrayControllerConfig m h
  | flexrayTxBufferConfigUpdate => exact rt_FlexrayTxBufferConfigUpdate m
  | wireFlexrayTxBufferUpdate => exact rt_WireFlexrayTxBufferUpdate m h
  | flexrayPocStatusEvent => exact rt_FlexrayPocStatusEvent m
  | nextSimTask => exact rt_NextSimTask m
  | systemCommand => exact rt_SystemCommand m
  | participantStatus => exact rt_ParticipantStatus m h
  | workflowConfiguration => exact rt_WorkflowConfiguration m h
  | wireDataMessageEvent => exact rt_WireDataMessageEvent m h
  | functionCall => exact rt_FunctionCall m h
  | functionCallResponse => exact rt_FunctionCallResponse m h
  | requestReplyCall => exact rt_RequestReplyCall m h
  | requestReplyCallReturn => exact rt_RequestReplyCallReturn m h
  | serviceDescriptor => exact rt_ServiceDescriptor m h
  | participantDiscoveryEvent => exact rt_ParticipantDiscoveryEvent m h
  | serviceDiscoveryEvent => exact rt_ServiceDiscoveryEvent m h
  | metricData => exact rt_MetricData m h
  | metricsUpdate => exact rt_MetricsUpdate m h
  | sourceLoc => exact rt_SourceLoc m h
  | registryMsgHeader => exact rt_RegistryMsgHeader m
  | vasioPeerInfo => exact rt_VAsioPeerInfo m h
  | vasioMsgSubscriber => exact rt_VAsioMsgSubscriber m h
  | subscriptionAcknowledge => exact rt_SubscriptionAcknowledge m h
  | remoteParticipantConnectRequest => exact rt_RemoteParticipantConnectRequest m h
  | logMsg => exact rt_LogMsg m h

theorem msafe_all (t : MsgType) : MemorySafeDecoder t.read := by
  cases t with
  | endpointAddress => exact msafe_of_safe safe_EndpointAddress
  | wireCanFrameEvent => exact msafe_of_safe safe_WireCanFrameEvent
  | canFrameTransmitEvent => exact msafe_of_safe safe_CanFrameTransmitEvent
  | canControllerStatus => exact msafe_of_safe safe_CanControllerStatus
  | canConfigureBaudrate => exact msafe_of_safe safe_CanConfigureBaudrate
  | canSetControllerMode => exact msafe_of_safe safe_CanSetControllerMode
  | wireEthernetFrame => exact msafe_of_safe safe_WireEthernetFrame
  | wireEthernetFrameEvent => exact msafe_of_safe safe_WireEthernetFrameEvent
  | ethernetFrameTransmitEvent => exact msafe_of_safe safe_EthernetFrameTransmitEvent
  | ethernetStatus => exact msafe_of_safe safe_EthernetStatus
  | ethernetSetMode => exact msafe_of_safe safe_EthernetSetMode
  | linFrame => exact msafe_of_safe safe_LinFrame
  | linSendFrameRequest => exact msafe_of_safe safe_LinSendFrameRequest
  | linSendFrameHeaderRequest => exact msafe_of_safe safe_LinSendFrameHeaderRequest
  | linTransmission => exact msafe_of_safe safe_LinTransmission
  | linWakeupPulse => exact msafe_of_safe safe_LinWakeupPulse
  | linFrameResponse => exact msafe_of_safe safe_LinFrameResponse
  | wireLinControllerConfig => exact msafe_of_safe safe_WireLinControllerConfig
  | linControllerStatusUpdate => exact msafe_of_safe safe_LinControllerStatusUpdate
  | linFrameResponseUpdate => exact msafe_of_safe safe_LinFrameResponseUpdate
  | flexrayHeader => exact msafe_of_safe safe_FlexrayHeader
  | wireFlexrayFrame => exact msafe_of_safe safe_WireFlexrayFrame
  | wireFlexrayFrameEvent => exact msafe_of_safe safe_WireFlexrayFrameEvent
  | wireFlexrayFrameTransmitEvent => exact msafe_of_safe safe_WireFlexrayFrameTransmitEvent
  | flexraySymbolEvent => exact msafe_of_safe safe_FlexraySymbolEvent
  | flexrayCycleStartEvent => exact msafe_of_safe safe_FlexrayCycleStartEvent
  | flexrayHostCommand => exact msafe_of_safe safe_FlexrayHostCommand
  | flexrayClusterParameters => exact msafe_of_safe safe_FlexrayClusterParameters
  | flexrayNodeParameters => exact msafe_of_safe safe_FlexrayNodeParameters
  | flexrayTxBufferConfig => exact msafe_of_safe safe_FlexrayTxBufferConfig
  | flexrayControllerConfig => exact msafe_of_safe safe_FlexrayControllerConfig
  | flexrayTxBufferConfigUpdate => exact msafe_of_safe safe_FlexrayTxBufferConfigUpdate
  | wireFlexrayTxBufferUpdate => exact msafe_of_safe safe_WireFlexrayTxBufferUpdate
  | flexrayPocStatusEvent => exact msafe_of_safe safe_FlexrayPocStatusEvent
  | nextSimTask => exact msafe_of_safe safe_NextSimTask
  | systemCommand => exact msafe_of_safe safe_SystemCommand
  | participantStatus => exact msafe_ParticipantStatus
  | workflowConfiguration => exact msafe_of_safe safe_WorkflowConfiguration
  | wireDataMessageEvent => exact msafe_of_safe safe_WireDataMessageEvent
  | functionCall => exact msafe_of_safe safe_FunctionCall
  | functionCallResponse => exact msafe_of_safe safe_FunctionCallResponse
  | requestReplyCall => exact msafe_of_safe safe_RequestReplyCall
  | requestReplyCallReturn => exact msafe_of_safe safe_RequestReplyCallReturn
  | serviceDescriptor => exact msafe_of_safe safe_ServiceDescriptor
  | participantDiscoveryEvent => exact msafe_of_safe safe_ParticipantDiscoveryEvent
  | serviceDiscoveryEvent => exact msafe_of_safe safe_ServiceDiscoveryEvent
  | metricData => exact msafe_of_safe safe_MetricData
  | metricsUpdate => exact msafe_of_safe safe_MetricsUpdate
  | sourceLoc => exact msafe_of_safe safe_SourceLoc
  | registryMsgHeader => exact msafe_of_safe safe_RegistryMsgHeader
  | vasioPeerInfo => exact msafe_of_safe safe_VAsioPeerInfo
  | vasioMsgSubscriber => exact msafe_of_safe safe_VAsioMsgSubscriber
  | subscriptionAcknowledge => exact msafe_of_safe safe_SubscriptionAcknowledge
  | remoteParticipantConnectRequest => exact msafe_of_safe safe_RemoteParticipantConnectRequest
  | logMsg => exact msafe_LogMsg

theorem safe_all (t : MsgType) (h1 : t ≠ .participantStatus) (h2 : t ≠ .logMsg) : SafeDecoder t.read := by
  cases t with
  | endpointAddress => exact safe_EndpointAddress
  | wireCanFrameEvent => exact safe_WireCanFrameEvent
  | canFrameTransmitEvent => exact safe_CanFrameTransmitEvent
  | canControllerStatus => exact safe_CanControllerStatus
  | canConfigureBaudrate => exact safe_CanConfigureBaudrate
  | canSetControllerMode => exact safe_CanSetControllerMode
  | wireEthernetFrame => exact safe_WireEthernetFrame
  | wireEthernetFrameEvent => exact safe_WireEthernetFrameEvent
  | ethernetFrameTransmitEvent => exact safe_EthernetFrameTransmitEvent
  | ethernetStatus => exact safe_EthernetStatus
  | ethernetSetMode => exact safe_EthernetSetMode
  | linFrame => exact safe_LinFrame
  | linSendFrameRequest => exact safe_LinSendFrameRequest
  | linSendFrameHeaderRequest => exact safe_LinSendFrameHeaderRequest
  | linTransmission => exact safe_LinTransmission
  | linWakeupPulse => exact safe_LinWakeupPulse
  | linFrameResponse => exact safe_LinFrameResponse
  | wireLinControllerConfig => exact safe_WireLinControllerConfig
  | linControllerStatusUpdate => exact safe_LinControllerStatusUpdate
  | linFrameResponseUpdate => exact safe_LinFrameResponseUpdate
  | flexrayHeader => exact safe_FlexrayHeader
  | wireFlexrayFrame => exact safe_WireFlexrayFrame
  | wireFlexrayFrameEvent => exact safe_WireFlexrayFrameEvent
  | wireFlexrayFrameTransmitEvent => exact safe_WireFlexrayFrameTransmitEvent
  | flexraySymbolEvent => exact safe_FlexraySymbolEvent
  | flexrayCycleStartEvent => exact safe_FlexrayCycleStartEvent
  | flexrayHostCommand => exact safe_FlexrayHostCommand
  | flexrayClusterParameters => exact safe_FlexrayClusterParameters
  | flexrayNodeParameters => exact safe_FlexrayNodeParameters
  | flexrayTxBufferConfig => exact safe_FlexrayTxBufferConfig
  | flexrayControllerConfig => exact safe_FlexrayControllerConfig
  | flexrayTxBufferConfigUpdate => exact safe_FlexrayTxBufferConfigUpdate
  | wireFlexrayTxBufferUpdate => exact safe_WireFlexrayTxBufferUpdate
  | flexrayPocStatusEvent => exact safe_FlexrayPocStatusEvent
  | nextSimTask => exact safe_NextSimTask
  | systemCommand => exact safe_SystemCommand
  | participantStatus => exact (h1 rfl).elim
  | workflowConfiguration => exact safe_WorkflowConfiguration
  | wireDataMessageEvent => exact safe_WireDataMessageEvent
  | functionCall => exact safe_FunctionCall
  | functionCallResponse => exact safe_FunctionCallResponse
  | requestReplyCall => exact safe_RequestReplyCall
  | requestReplyCallReturn => exact safe_RequestReplyCallReturn
  | serviceDescriptor => exact safe_ServiceDescriptor
  | participantDiscoveryEvent => exact safe_ParticipantDiscoveryEvent
  | serviceDiscoveryEvent => exact safe_ServiceDiscoveryEvent
  | metricData => exact safe_MetricData
  | metricsUpdate => exact safe_MetricsUpdate
  | sourceLoc => exact safe_SourceLoc
  | registryMsgHeader => exact safe_RegistryMsgHeader
  | vasioPeerInfo => exact safe_VAsioPeerInfo
  | vasioMsgSubscriber => exact safe_VAsioMsgSubscriber
  | subscriptionAcknowledge => exact safe_SubscriptionAcknowledge
  | remoteParticipantConnectRequest => exact safe_RemoteParticipantConnectRequest
  | logMsg => exact (h2 rfl).elim
/-! ## handshake -/

theorem rt_RegistryMsgHeader30 {ver : ProtocolVersion} (m : RegistryMsgHeader30) :
    RoundTrips ver (wRegistryMsgHeader30 m) rRegistryMsgHeader30 m := by
  refine rt_bind (rt_array m.preambel (by decide)) ?_
  refine rt_bind (rt_int m.versionHigh (by decide) (by decide)) ?_
  exact rt_last (rt_int m.versionLow (by decide) (by decide)) rfl

theorem rt_VAsioMsgSubscriber30 {ver : ProtocolVersion} (m : VAsioMsgSubscriber30) (h1 : Short m.networkName)
    (h2 : Short m.msgTypeName) : RoundTrips ver (wVAsioMsgSubscriber30 m) rVAsioMsgSubscriber30 m := by
  refine rt_bind (rt_int m.receiverIdx (by decide) (by decide)) ?_
  refine rt_bind (rt_bytes m.networkName h1) ?_
  exact rt_last (rt_bytes m.msgTypeName h2) rfl

theorem rt_VAsioPeerInfo30 {ver : ProtocolVersion} (m : VAsioPeerInfo30) (h1 : Short m.participantName)
    (h2 : Short m.acceptorHost) : RoundTrips ver (wVAsioPeerInfo30 m) rVAsioPeerInfo30 m := by
  refine rt_bind (rt_bytes m.participantName h1) ?_
  refine rt_bind (rt_int m.participantId (by decide) (by decide)) ?_
  refine rt_bind (rt_bytes m.acceptorHost h2) ?_
  exact rt_last (rt_int m.acceptorPort (by decide) (by decide)) rfl

theorem rt_VAsioPeerUri30 {ver : ProtocolVersion} (m : VAsioPeerUri30) (h1 : Short m.participantName)
    (h2 : ShortList m.acceptorUris) (h3 : ∀ s ∈ m.acceptorUris, Short s) :
    RoundTrips ver (wVAsioPeerUri30 m) rVAsioPeerUri30 m := by
  refine rt_bind (rt_bytes m.participantName h1) ?_
  refine rt_bind (rt_int m.participantId (by decide) (by decide)) ?_
  exact rt_last (rt_vec _ _ m.acceptorUris h2 (fun s hs => rt_bytes s (h3 s hs))) rfl

theorem safe_RegistryMsgHeader30 : SafeDecoder rRegistryMsgHeader30 :=
  safe_bind (safe_array 4) (fun _ => safe_bind (safe_int 16) (fun _ => safe_bind (safe_int 16) (fun _ => safe_pure _)))

theorem safe_VAsioMsgSubscriber30 : SafeDecoder rVAsioMsgSubscriber30 :=
  safe_bind (safe_int 64) (fun _ => safe_bind safe_bytes (fun _ => safe_bind safe_bytes (fun _ => safe_pure _)))

theorem safe_VAsioPeerInfo30 : SafeDecoder rVAsioPeerInfo30 :=
  safe_bind safe_bytes (fun _ => safe_bind (safe_int 64) (fun _ => safe_bind safe_bytes (fun _ =>
    safe_bind (safe_int 16) (fun _ => safe_pure _))))

theorem safe_VAsioPeerUri30 : SafeDecoder rVAsioPeerUri30 :=
  safe_bind safe_bytes (fun _ => safe_bind (safe_int 64) (fun _ => safe_bind (safe_vec safe_bytes) (fun _ =>
    safe_pure _)))

theorem safe_ParticipantAnnouncement : SafeDecoder rParticipantAnnouncement := by
  refine safe_bind safe_version (fun _ => safe_ite ?_ ?_)
  · exact safe_bind safe_RegistryMsgHeader30 (fun _ => safe_bind safe_VAsioPeerInfo30 (fun _ =>
      safe_bind safe_VAsioPeerUri30 (fun _ => safe_pure _)))
  · exact safe_bind safe_RegistryMsgHeader (fun _ => safe_bind safe_VAsioPeerInfo (fun _ =>
      safe_bind safe_remaining (fun _ => safe_ite (safe_pure _) (safe_bind safe_bytes (fun _ => safe_pure _)))))

theorem safe_ParticipantAnnouncementReply : SafeDecoder rParticipantAnnouncementReply := by
  refine safe_bind safe_version (fun _ => safe_ite ?_ ?_)
  · exact safe_bind (safe_vec safe_VAsioMsgSubscriber30) (fun _ => safe_pure _)
  · exact safe_bind safe_RegistryMsgHeader (fun _ => safe_bind (safe_int 8) (fun _ =>
      safe_bind (safe_vec safe_VAsioMsgSubscriber) (fun _ => safe_bind safe_remaining (fun _ =>
        safe_ite (safe_bind safe_bytes (fun _ => safe_pure _)) (safe_pure _)))))

theorem safe_KnownParticipants : SafeDecoder rKnownParticipants := by
  refine safe_bind safe_version (fun _ => safe_ite ?_ ?_)
  · exact safe_bind safe_RegistryMsgHeader30 (fun _ => safe_bind (safe_vec safe_VAsioPeerInfo30) (fun _ =>
      safe_bind safe_remaining (fun _ => safe_ite (safe_bind (safe_vec safe_VAsioPeerUri30) (fun _ => safe_pure _))
        (safe_pure _))))
  · exact safe_bind safe_RegistryMsgHeader (fun _ => safe_bind (safe_vec safe_VAsioPeerInfo) (fun _ => safe_pure _))

theorem safe_ProxyMessageHeader : SafeDecoder rProxyMessageHeader :=
  safe_bind safe_version (fun _ => safe_ite (safe_throwing _) (safe_int 8))

theorem safe_ProxyMessage : SafeDecoder rProxyMessage := by
  refine safe_bind safe_version (fun _ => safe_ite (safe_throwing _) ?_)
  exact safe_bind safe_ProxyMessageHeader (fun _ => safe_bind safe_bytes (fun _ => safe_bind safe_bytes (fun _ =>
    safe_bind safe_bytes (fun _ => safe_pure _))))

theorem rt_ProxyMessage {ver : ProtocolVersion} (hv : ver.lt ⟨3, 1⟩ = false) (m : ProxyMessage)
    (h : FitsProxyMessage m) : RoundTrips ver (wProxyMessage m) rProxyMessage m := by
  obtain ⟨h1, h2, h3⟩ := h
  refine rt_version_w (rt_version ?_)
  simp only [hv, Bool.false_eq_true, ↓reduceIte]
  refine rt_bind (a := m.version) ?_ ?_
  · refine rt_version_w (rt_version ?_)
    simp only [hv, Bool.false_eq_true, ↓reduceIte]
    exact rt_int m.version (by decide) (by decide)
  refine rt_bind (rt_bytes m.source h1) ?_
  refine rt_bind (rt_bytes m.destination h2) ?_
  exact rt_last (rt_bytes m.payload h3) rfl

theorem rt_Reply31 {ver : ProtocolVersion} (hv : ver ≠ ⟨3, 0⟩) (m : ParticipantAnnouncementReply)
    (h : FitsParticipantAnnouncementReply m) :
    RoundTrips ver (wParticipantAnnouncementReply m) rParticipantAnnouncementReply m := by
  obtain ⟨h1, h2⟩ := h
  refine rt_version_w (rt_version ?_)
  simp only [hv, ↓reduceIte]
  refine rt_bind (rt_RegistryMsgHeader m.remoteHeader) ?_
  refine rt_bind (rt_int m.status (by decide) (by decide)) ?_
  refine rt_bind (rt_vec _ _ m.subscribers h1.1 (fun x hx => rt_VAsioMsgSubscriber x (h1.2 x hx))) ?_
  refine rt_remaining (fun n hn => ?_)
  simp only [gt_iff_lt, hn, ↓reduceIte]
  exact rt_last (rt_bytes m.diagnostic h2) rfl

theorem rt_Reply30 (m : ParticipantAnnouncementReply) (h : FitsParticipantAnnouncementReply m) :
    RoundTrips ⟨3, 0⟩ (wParticipantAnnouncementReply m) rParticipantAnnouncementReply
      ⟨⟨registryPreamble, 3, 0⟩, 1, m.subscribers.map (fun s => { s with version := 0 }), []⟩ := by
  obtain ⟨h1, h2⟩ := h
  refine rt_version_w (rt_version ?_)
  simp only [↓reduceIte]
  refine rt_last (rt_vec _ _ _ (by simpa [ShortList] using h1.1) ?_) ?_
  · intro x hx
    simp only [List.mem_map] at hx
    obtain ⟨s, hs, rfl⟩ := hx
    exact rt_VAsioMsgSubscriber30 _ (h1.2 s hs).1 (h1.2 s hs).2
  · simp [List.map_map, Function.comp_def]

theorem rt_Known31 {ver : ProtocolVersion} (hv : ver ≠ ⟨3, 0⟩) (m : KnownParticipants)
    (h : FitsKnownParticipants m) : RoundTrips ver (wKnownParticipants m) rKnownParticipants m := by
  obtain ⟨h1, h2⟩ := h
  refine rt_version_w (rt_version ?_)
  simp only [hv, ↓reduceIte]
  refine rt_bind (rt_RegistryMsgHeader m.messageHeader) ?_
  exact rt_last (rt_vec _ _ m.peerInfos h1 (fun x hx => rt_VAsioPeerInfo x (h2 x hx))) rfl

theorem rt_Known30 (m : KnownParticipants) (h : FitsKnownParticipants m) :
    RoundTrips ⟨3, 0⟩ (wKnownParticipants m) rKnownParticipants
      ⟨⟨registryPreamble, 3, 0⟩, m.peerInfos.map (fun i => { i with capabilities := [] })⟩ := by
  obtain ⟨h1, h2⟩ := h
  refine rt_version_w (rt_version ?_)
  simp only [↓reduceIte]
  refine rt_bind (rt_RegistryMsgHeader30 .default) ?_
  refine rt_bind (rt_vec wVAsioPeerInfo30 rVAsioPeerInfo30 [] (by simp [ShortList]) (by simp)) ?_
  refine rt_remaining (fun n hn => ?_)
  simp only [gt_iff_lt, hn, ↓reduceIte]
  refine rt_last (rt_vec _ _ _ (by simpa [ShortList] using h1) ?_) ?_
  · intro x hx
    simp only [List.mem_map] at hx
    obtain ⟨s, hs, rfl⟩ := hx
    have := h2 s hs
    exact rt_VAsioPeerUri30 _ this.1 this.2.1.1 this.2.1.2
  · simp [knownFromV30, List.map_map, Function.comp_def]

/-- The announcement encodes itself with the protocol version of its own header. -/
theorem announcement_after_version {ver : ProtocolVersion} {bytes : List UInt8} {w : R Unit}
    (h : Appends ver w bytes) (b : MessageBuffer) (hb : b.wPos = b.storage.length) :
    (setProtocolVersion ver >>= fun _ => w) b =
      .ok ((), { b with protocolVersion := ver, storage := b.storage ++ bytes, wPos := b.wPos + bytes.length }) := by
  rw [R.bind_def]
  show w { b with protocolVersion := ver } = _
  rw [h { b with protocolVersion := ver } rfl hb]

theorem rt_Announcement31 (m : ParticipantAnnouncement) (h : FitsParticipantAnnouncement m)
    (hv : (⟨m.messageHeader.versionHigh, m.messageHeader.versionLow⟩ : ProtocolVersion) ≠ ⟨3, 0⟩) :
    RoundTrips ⟨m.messageHeader.versionHigh, m.messageHeader.versionLow⟩
      (do let version ← getProtocolVersion
          if version = ⟨3, 0⟩ then serializeV30Announcement m
          else do wRegistryMsgHeader m.messageHeader; wVAsioPeerInfo m.peerInfo; wBytes m.simulationName)
      rParticipantAnnouncement m := by
  obtain ⟨h1, h2⟩ := h
  refine rt_version_w (rt_version ?_)
  simp only [hv, ↓reduceIte]
  refine rt_bind (rt_RegistryMsgHeader m.messageHeader) ?_
  refine rt_bind (rt_VAsioPeerInfo m.peerInfo h1) ?_
  refine rt_remaining (fun n hn => ?_)
  have : ¬ n = 0 := by omega
  simp only [this, ↓reduceIte]
  exact rt_last (rt_bytes m.simulationName h2) rfl

theorem rt_Announcement30 (m : ParticipantAnnouncement) (h : FitsParticipantAnnouncement m) :
    RoundTrips ⟨3, 0⟩
      (do let version ← getProtocolVersion
          if version = ⟨3, 0⟩ then serializeV30Announcement m
          else do wRegistryMsgHeader m.messageHeader; wVAsioPeerInfo m.peerInfo; wBytes m.simulationName)
      rParticipantAnnouncement ⟨⟨registryPreamble, 3, 0⟩, { m.peerInfo with capabilities := [] }, []⟩ := by
  obtain ⟨h1, h2⟩ := h
  refine rt_version_w (rt_version ?_)
  simp only [↓reduceIte]
  refine rt_bind (rt_RegistryMsgHeader30 .default) ?_
  refine rt_bind (rt_VAsioPeerInfo30 ⟨[], 0, [], 0⟩ (by simp [Short]) (by simp [Short])) ?_
  refine rt_last (rt_VAsioPeerUri30 _ h1.1 h1.2.1.1 h1.2.1.2) ?_
  rfl

end SilKit.Wire
