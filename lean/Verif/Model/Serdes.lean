import Verif.Model.MessageBuffer
/-!
# Serialization of all wire messages

For every message type the writing and the reading operator are modelled separately, field by field in the order of the
C++ statements. Enums are their underlying integers (`core`'s plain enums without a fixed underlying type – `MetricKind`,
`NetworkType`, `ServiceDiscoveryEvent::Type` – are 32-bit `int`s). `bool` members are the byte of their object
representation: `operator>>` copies whatever byte was received (0/1 is not enforced by the code). `std::map` is the list
of its entries in key order. All paths are relative to `SilKit/source`.
-/
namespace SilKit.Wire
open MessageBuffer

/-- Message type `EndpointAddress`; the members in wire order, core/internal/InternalSerdes.hpp:13-17. -/
structure EndpointAddress where
  participant : BitVec 64
  endpoint : BitVec 64
deriving Repr, DecidableEq

/-- `operator<<(MessageBuffer&, const EndpointAddress&)`, core/internal/InternalSerdes.hpp:13-17. -/
def wEndpointAddress (m : EndpointAddress) : R Unit := do
  wInt m.participant
  wInt m.endpoint

/-- `operator>>(MessageBuffer&, EndpointAddress&)`, core/internal/InternalSerdes.hpp:19-23. -/
def rEndpointAddress : R EndpointAddress := do
  let participant ← rInt 64
  let endpoint ← rInt 64
  pure ⟨participant, endpoint⟩

/-- Message type `WireCanFrameEvent`; the members in wire order, services/can/CanSerdes.cpp:14-19. The members of the nested `frame` are inlined. -/
structure WireCanFrameEvent where
  timestamp : BitVec 64
  canId : BitVec 32
  flags : BitVec 32
  dlc : BitVec 16
  sdt : BitVec 8
  vcid : BitVec 8
  af : BitVec 32
  dataField : List UInt8
  direction : BitVec 8
  userContext : BitVec 64
deriving Repr, DecidableEq

/-- `operator<<(MessageBuffer&, const WireCanFrameEvent&)`, services/can/CanSerdes.cpp:14-19. -/
def wWireCanFrameEvent (m : WireCanFrameEvent) : R Unit := do
  wDuration m.timestamp
  wInt m.canId
  wInt m.flags
  wInt m.dlc
  wInt m.sdt
  wInt m.vcid
  wInt m.af
  wBytes m.dataField
  wInt m.direction
  wPtr m.userContext

/-- `operator>>(MessageBuffer&, WireCanFrameEvent&)`, services/can/CanSerdes.cpp:21-26. -/
def rWireCanFrameEvent : R WireCanFrameEvent := do
  let timestamp ← rDuration
  let canId ← rInt 32
  let flags ← rInt 32
  let dlc ← rInt 16
  let sdt ← rInt 8
  let vcid ← rInt 8
  let af ← rInt 32
  let dataField ← rBytes
  let direction ← rInt 8
  let userContext ← rPtr
  pure ⟨timestamp, canId, flags, dlc, sdt, vcid, af, dataField, direction, userContext⟩

/-- Message type `CanFrameTransmitEvent`; the members in wire order, services/can/CanSerdes.cpp:28-32. -/
structure CanFrameTransmitEvent where
  canId : BitVec 32
  timestamp : BitVec 64
  status : BitVec 32
  userContext : BitVec 64
deriving Repr, DecidableEq

/-- `operator<<(MessageBuffer&, const CanFrameTransmitEvent&)`, services/can/CanSerdes.cpp:28-32. -/
def wCanFrameTransmitEvent (m : CanFrameTransmitEvent) : R Unit := do
  wInt m.canId
  wDuration m.timestamp
  wInt m.status
  wPtr m.userContext

/-- `operator>>(MessageBuffer&, CanFrameTransmitEvent&)`, services/can/CanSerdes.cpp:34-38. -/
def rCanFrameTransmitEvent : R CanFrameTransmitEvent := do
  let canId ← rInt 32
  let timestamp ← rDuration
  let status ← rInt 32
  let userContext ← rPtr
  pure ⟨canId, timestamp, status, userContext⟩

/-- Message type `CanControllerStatus`; the members in wire order, services/can/CanSerdes.cpp:40-44. -/
structure CanControllerStatus where
  timestamp : BitVec 64
  controllerState : BitVec 32
  errorState : BitVec 32
deriving Repr, DecidableEq

/-- `operator<<(MessageBuffer&, const CanControllerStatus&)`, services/can/CanSerdes.cpp:40-44. -/
def wCanControllerStatus (m : CanControllerStatus) : R Unit := do
  wDuration m.timestamp
  wInt m.controllerState
  wInt m.errorState

/-- `operator>>(MessageBuffer&, CanControllerStatus&)`, services/can/CanSerdes.cpp:46-50. -/
def rCanControllerStatus : R CanControllerStatus := do
  let timestamp ← rDuration
  let controllerState ← rInt 32
  let errorState ← rInt 32
  pure ⟨timestamp, controllerState, errorState⟩

/-- Message type `CanConfigureBaudrate`; the members in wire order, services/can/CanSerdes.cpp:52-56. -/
structure CanConfigureBaudrate where
  baudRate : BitVec 32
  fdBaudRate : BitVec 32
  xlBaudRate : BitVec 32
deriving Repr, DecidableEq

/-- `operator<<(MessageBuffer&, const CanConfigureBaudrate&)`, services/can/CanSerdes.cpp:52-56. -/
def wCanConfigureBaudrate (m : CanConfigureBaudrate) : R Unit := do
  wInt m.baudRate
  wInt m.fdBaudRate
  wInt m.xlBaudRate

/-- `operator>>(MessageBuffer&, CanConfigureBaudrate&)`, services/can/CanSerdes.cpp:58-62. -/
def rCanConfigureBaudrate : R CanConfigureBaudrate := do
  let baudRate ← rInt 32
  let fdBaudRate ← rInt 32
  let xlBaudRate ← rInt 32
  pure ⟨baudRate, fdBaudRate, xlBaudRate⟩

/-- Message type `CanSetControllerMode`; the members in wire order, services/can/CanSerdes.cpp:64-68. `flags` is the byte containing the two bit-fields. -/
structure CanSetControllerMode where
  flags : BitVec 8
  mode : BitVec 32
deriving Repr, DecidableEq

/-- `operator<<(MessageBuffer&, const CanSetControllerMode&)`, services/can/CanSerdes.cpp:64-68. -/
def wCanSetControllerMode (m : CanSetControllerMode) : R Unit := do
  wInt m.flags
  wInt m.mode

/-- `operator>>(MessageBuffer&, CanSetControllerMode&)`, services/can/CanSerdes.cpp:70-76. -/
def rCanSetControllerMode : R CanSetControllerMode := do
  let flags ← rInt 8
  let mode ← rInt 32
  pure ⟨flags, mode⟩

/-- Message type `WireEthernetFrame`; the members in wire order, services/ethernet/EthernetSerdes.cpp:11-16. -/
structure WireEthernetFrame where
  raw : List UInt8
deriving Repr, DecidableEq

/-- `operator<<(MessageBuffer&, const WireEthernetFrame&)`, services/ethernet/EthernetSerdes.cpp:11-16. -/
def wWireEthernetFrame (m : WireEthernetFrame) : R Unit := do
  wBytes m.raw

/-- `operator>>(MessageBuffer&, WireEthernetFrame&)`, services/ethernet/EthernetSerdes.cpp:18-23. -/
def rWireEthernetFrame : R WireEthernetFrame := do
  let raw ← rBytes
  pure ⟨raw⟩

/-- Message type `WireEthernetFrameEvent`; the members in wire order, services/ethernet/EthernetSerdes.cpp:25-30. -/
structure WireEthernetFrameEvent where
  timestamp : BitVec 64
  frame : WireEthernetFrame
  direction : BitVec 8
  userContext : BitVec 64
deriving Repr, DecidableEq

/-- `operator<<(MessageBuffer&, const WireEthernetFrameEvent&)`, services/ethernet/EthernetSerdes.cpp:25-30. -/
def wWireEthernetFrameEvent (m : WireEthernetFrameEvent) : R Unit := do
  wDuration m.timestamp
  wWireEthernetFrame m.frame
  wInt m.direction
  wPtr m.userContext

/-- `operator>>(MessageBuffer&, WireEthernetFrameEvent&)`, services/ethernet/EthernetSerdes.cpp:32-37. -/
def rWireEthernetFrameEvent : R WireEthernetFrameEvent := do
  let timestamp ← rDuration
  let frame ← rWireEthernetFrame
  let direction ← rInt 8
  let userContext ← rPtr
  pure ⟨timestamp, frame, direction, userContext⟩

/-- Message type `EthernetFrameTransmitEvent`; the members in wire order, services/ethernet/EthernetSerdes.cpp:39-44. -/
structure EthernetFrameTransmitEvent where
  timestamp : BitVec 64
  status : BitVec 32
  userContext : BitVec 64
deriving Repr, DecidableEq

/-- `operator<<(MessageBuffer&, const EthernetFrameTransmitEvent&)`, services/ethernet/EthernetSerdes.cpp:39-44. -/
def wEthernetFrameTransmitEvent (m : EthernetFrameTransmitEvent) : R Unit := do
  wDuration m.timestamp
  wInt m.status
  wPtr m.userContext

/-- `operator>>(MessageBuffer&, EthernetFrameTransmitEvent&)`, services/ethernet/EthernetSerdes.cpp:46-50. -/
def rEthernetFrameTransmitEvent : R EthernetFrameTransmitEvent := do
  let timestamp ← rDuration
  let status ← rInt 32
  let userContext ← rPtr
  pure ⟨timestamp, status, userContext⟩

/-- Message type `EthernetStatus`; the members in wire order, services/ethernet/EthernetSerdes.cpp:52-56. -/
structure EthernetStatus where
  timestamp : BitVec 64
  state : BitVec 32
  bitrate : BitVec 32
deriving Repr, DecidableEq

/-- `operator<<(MessageBuffer&, const EthernetStatus&)`, services/ethernet/EthernetSerdes.cpp:52-56. -/
def wEthernetStatus (m : EthernetStatus) : R Unit := do
  wDuration m.timestamp
  wInt m.state
  wInt m.bitrate

/-- `operator>>(MessageBuffer&, EthernetStatus&)`, services/ethernet/EthernetSerdes.cpp:58-62. -/
def rEthernetStatus : R EthernetStatus := do
  let timestamp ← rDuration
  let state ← rInt 32
  let bitrate ← rInt 32
  pure ⟨timestamp, state, bitrate⟩

/-- Message type `EthernetSetMode`; the members in wire order, services/ethernet/EthernetSerdes.cpp:64-68. -/
structure EthernetSetMode where
  mode : BitVec 8
deriving Repr, DecidableEq

/-- `operator<<(MessageBuffer&, const EthernetSetMode&)`, services/ethernet/EthernetSerdes.cpp:64-68. -/
def wEthernetSetMode (m : EthernetSetMode) : R Unit := do
  wInt m.mode

/-- `operator>>(MessageBuffer&, EthernetSetMode&)`, services/ethernet/EthernetSerdes.cpp:70-74. -/
def rEthernetSetMode : R EthernetSetMode := do
  let mode ← rInt 8
  pure ⟨mode⟩

/-- Message type `LinFrame`; the members in wire order, services/lin/LinSerdes.cpp:12-16. -/
structure LinFrame where
  id : BitVec 8
  checksumModel : BitVec 8
  dataLength : BitVec 8
  data : Vector UInt8 8
deriving Repr, DecidableEq

/-- `operator<<(MessageBuffer&, const LinFrame&)`, services/lin/LinSerdes.cpp:12-16. -/
def wLinFrame (m : LinFrame) : R Unit := do
  wInt m.id
  wInt m.checksumModel
  wInt m.dataLength
  wArray m.data

/-- `operator>>(MessageBuffer&, LinFrame&)`, services/lin/LinSerdes.cpp:17-21. -/
def rLinFrame : R LinFrame := do
  let id ← rInt 8
  let checksumModel ← rInt 8
  let dataLength ← rInt 8
  let data ← rArray 8
  pure ⟨id, checksumModel, dataLength, data⟩

/-- Message type `LinSendFrameRequest`; the members in wire order, services/lin/LinSerdes.cpp:23-27. -/
structure LinSendFrameRequest where
  frame : LinFrame
  responseType : BitVec 8
deriving Repr, DecidableEq

/-- `operator<<(MessageBuffer&, const LinSendFrameRequest&)`, services/lin/LinSerdes.cpp:23-27. -/
def wLinSendFrameRequest (m : LinSendFrameRequest) : R Unit := do
  wLinFrame m.frame
  wInt m.responseType

/-- `operator>>(MessageBuffer&, LinSendFrameRequest&)`, services/lin/LinSerdes.cpp:28-32. -/
def rLinSendFrameRequest : R LinSendFrameRequest := do
  let frame ← rLinFrame
  let responseType ← rInt 8
  pure ⟨frame, responseType⟩

/-- Message type `LinSendFrameHeaderRequest`; the members in wire order, services/lin/LinSerdes.cpp:34-38. -/
structure LinSendFrameHeaderRequest where
  timestamp : BitVec 64
  id : BitVec 8
deriving Repr, DecidableEq

/-- `operator<<(MessageBuffer&, const LinSendFrameHeaderRequest&)`, services/lin/LinSerdes.cpp:34-38. -/
def wLinSendFrameHeaderRequest (m : LinSendFrameHeaderRequest) : R Unit := do
  wDuration m.timestamp
  wInt m.id

/-- `operator>>(MessageBuffer&, LinSendFrameHeaderRequest&)`, services/lin/LinSerdes.cpp:39-43. -/
def rLinSendFrameHeaderRequest : R LinSendFrameHeaderRequest := do
  let timestamp ← rDuration
  let id ← rInt 8
  pure ⟨timestamp, id⟩

/-- Message type `LinTransmission`; the members in wire order, services/lin/LinSerdes.cpp:45-49. -/
structure LinTransmission where
  timestamp : BitVec 64
  frame : LinFrame
  status : BitVec 8
deriving Repr, DecidableEq

/-- `operator<<(MessageBuffer&, const LinTransmission&)`, services/lin/LinSerdes.cpp:45-49. -/
def wLinTransmission (m : LinTransmission) : R Unit := do
  wDuration m.timestamp
  wLinFrame m.frame
  wInt m.status

/-- `operator>>(MessageBuffer&, LinTransmission&)`, services/lin/LinSerdes.cpp:50-54. -/
def rLinTransmission : R LinTransmission := do
  let timestamp ← rDuration
  let frame ← rLinFrame
  let status ← rInt 8
  pure ⟨timestamp, frame, status⟩

/-- Message type `LinWakeupPulse`; the members in wire order, services/lin/LinSerdes.cpp:56-60. -/
structure LinWakeupPulse where
  timestamp : BitVec 64
  direction : BitVec 8
deriving Repr, DecidableEq

/-- `operator<<(MessageBuffer&, const LinWakeupPulse&)`, services/lin/LinSerdes.cpp:56-60. -/
def wLinWakeupPulse (m : LinWakeupPulse) : R Unit := do
  wDuration m.timestamp
  wInt m.direction

/-- `operator>>(MessageBuffer&, LinWakeupPulse&)`, services/lin/LinSerdes.cpp:61-65. -/
def rLinWakeupPulse : R LinWakeupPulse := do
  let timestamp ← rDuration
  let direction ← rInt 8
  pure ⟨timestamp, direction⟩

/-- Message type `LinFrameResponse`; the members in wire order, services/lin/LinSerdes.cpp:67-71. -/
structure LinFrameResponse where
  frame : LinFrame
  responseMode : BitVec 8
deriving Repr, DecidableEq

/-- `operator<<(MessageBuffer&, const LinFrameResponse&)`, services/lin/LinSerdes.cpp:67-71. -/
def wLinFrameResponse (m : LinFrameResponse) : R Unit := do
  wLinFrame m.frame
  wInt m.responseMode

/-- `operator>>(MessageBuffer&, LinFrameResponse&)`, services/lin/LinSerdes.cpp:72-76. -/
def rLinFrameResponse : R LinFrameResponse := do
  let frame ← rLinFrame
  let responseMode ← rInt 8
  pure ⟨frame, responseMode⟩

/-- Message type `WireLinControllerConfig`; the members in wire order, services/lin/LinSerdes.cpp:78-82. -/
structure WireLinControllerConfig where
  controllerMode : BitVec 8
  baudRate : BitVec 32
  frameResponses : List LinFrameResponse
  simulationMode : BitVec 8
deriving Repr, DecidableEq

/-- `operator<<(MessageBuffer&, const WireLinControllerConfig&)`, services/lin/LinSerdes.cpp:78-82. -/
def wWireLinControllerConfig (m : WireLinControllerConfig) : R Unit := do
  wInt m.controllerMode
  wInt m.baudRate
  wVec wLinFrameResponse m.frameResponses
  wInt m.simulationMode

/-- `operator>>(MessageBuffer&, WireLinControllerConfig&)`, services/lin/LinSerdes.cpp:83-91. -/
def rWireLinControllerConfig : R WireLinControllerConfig := do
  let controllerMode ← rInt 8
  let baudRate ← rInt 32
  let frameResponses ← rVec rLinFrameResponse
  let left ← remainingBytesLeft
  if left ≥ 1 then do
    let simulationMode ← rInt 8
    pure ⟨controllerMode, baudRate, frameResponses, simulationMode⟩
  else pure ⟨controllerMode, baudRate, frameResponses, 0⟩

/-- Message type `LinControllerStatusUpdate`; the members in wire order, services/lin/LinSerdes.cpp:93-97. -/
structure LinControllerStatusUpdate where
  timestamp : BitVec 64
  status : BitVec 32
deriving Repr, DecidableEq

/-- `operator<<(MessageBuffer&, const LinControllerStatusUpdate&)`, services/lin/LinSerdes.cpp:93-97. -/
def wLinControllerStatusUpdate (m : LinControllerStatusUpdate) : R Unit := do
  wDuration m.timestamp
  wInt m.status

/-- `operator>>(MessageBuffer&, LinControllerStatusUpdate&)`, services/lin/LinSerdes.cpp:98-102. -/
def rLinControllerStatusUpdate : R LinControllerStatusUpdate := do
  let timestamp ← rDuration
  let status ← rInt 32
  pure ⟨timestamp, status⟩

/-- Message type `LinFrameResponseUpdate`; the members in wire order, services/lin/LinSerdes.cpp:104-108. -/
structure LinFrameResponseUpdate where
  frameResponses : List LinFrameResponse
deriving Repr, DecidableEq

/-- `operator<<(MessageBuffer&, const LinFrameResponseUpdate&)`, services/lin/LinSerdes.cpp:104-108. -/
def wLinFrameResponseUpdate (m : LinFrameResponseUpdate) : R Unit := do
  wVec wLinFrameResponse m.frameResponses

/-- `operator>>(MessageBuffer&, LinFrameResponseUpdate&)`, services/lin/LinSerdes.cpp:109-113. -/
def rLinFrameResponseUpdate : R LinFrameResponseUpdate := do
  let frameResponses ← rVec rLinFrameResponse
  pure ⟨frameResponses⟩

/-- Message type `FlexrayHeader`; the members in wire order, services/flexray/FlexraySerdes.cpp:13-17. -/
structure FlexrayHeader where
  flags : BitVec 8
  frameId : BitVec 16
  payloadLength : BitVec 8
  headerCrc : BitVec 16
  cycleCount : BitVec 8
deriving Repr, DecidableEq

/-- `operator<<(MessageBuffer&, const FlexrayHeader&)`, services/flexray/FlexraySerdes.cpp:13-17. -/
def wFlexrayHeader (m : FlexrayHeader) : R Unit := do
  wInt m.flags
  wInt m.frameId
  wInt m.payloadLength
  wInt m.headerCrc
  wInt m.cycleCount

/-- `operator>>(MessageBuffer&, FlexrayHeader&)`, services/flexray/FlexraySerdes.cpp:19-23. -/
def rFlexrayHeader : R FlexrayHeader := do
  let flags ← rInt 8
  let frameId ← rInt 16
  let payloadLength ← rInt 8
  let headerCrc ← rInt 16
  let cycleCount ← rInt 8
  pure ⟨flags, frameId, payloadLength, headerCrc, cycleCount⟩

/-- Message type `WireFlexrayFrame`; the members in wire order, services/flexray/FlexraySerdes.cpp:25-29. -/
structure WireFlexrayFrame where
  header : FlexrayHeader
  payload : List UInt8
deriving Repr, DecidableEq

/-- `operator<<(MessageBuffer&, const WireFlexrayFrame&)`, services/flexray/FlexraySerdes.cpp:25-29. -/
def wWireFlexrayFrame (m : WireFlexrayFrame) : R Unit := do
  wFlexrayHeader m.header
  wBytes m.payload

/-- `operator>>(MessageBuffer&, WireFlexrayFrame&)`, services/flexray/FlexraySerdes.cpp:31-35. -/
def rWireFlexrayFrame : R WireFlexrayFrame := do
  let header ← rFlexrayHeader
  let payload ← rBytes
  pure ⟨header, payload⟩

/-- Message type `WireFlexrayFrameEvent`; the members in wire order, services/flexray/FlexraySerdes.cpp:37-41. -/
structure WireFlexrayFrameEvent where
  timestamp : BitVec 64
  channel : BitVec 32
  frame : WireFlexrayFrame
deriving Repr, DecidableEq

/-- `operator<<(MessageBuffer&, const WireFlexrayFrameEvent&)`, services/flexray/FlexraySerdes.cpp:37-41. -/
def wWireFlexrayFrameEvent (m : WireFlexrayFrameEvent) : R Unit := do
  wDuration m.timestamp
  wInt m.channel
  wWireFlexrayFrame m.frame

/-- `operator>>(MessageBuffer&, WireFlexrayFrameEvent&)`, services/flexray/FlexraySerdes.cpp:43-47. -/
def rWireFlexrayFrameEvent : R WireFlexrayFrameEvent := do
  let timestamp ← rDuration
  let channel ← rInt 32
  let frame ← rWireFlexrayFrame
  pure ⟨timestamp, channel, frame⟩

/-- Message type `WireFlexrayFrameTransmitEvent`; the members in wire order, services/flexray/FlexraySerdes.cpp:49-54. -/
structure WireFlexrayFrameTransmitEvent where
  timestamp : BitVec 64
  txBufferIndex : BitVec 16
  channel : BitVec 32
  frame : WireFlexrayFrame
deriving Repr, DecidableEq

/-- `operator<<(MessageBuffer&, const WireFlexrayFrameTransmitEvent&)`, services/flexray/FlexraySerdes.cpp:49-54. -/
def wWireFlexrayFrameTransmitEvent (m : WireFlexrayFrameTransmitEvent) : R Unit := do
  wDuration m.timestamp
  wInt m.txBufferIndex
  wInt m.channel
  wWireFlexrayFrame m.frame

/-- `operator>>(MessageBuffer&, WireFlexrayFrameTransmitEvent&)`, services/flexray/FlexraySerdes.cpp:56-60. -/
def rWireFlexrayFrameTransmitEvent : R WireFlexrayFrameTransmitEvent := do
  let timestamp ← rDuration
  let txBufferIndex ← rInt 16
  let channel ← rInt 32
  let frame ← rWireFlexrayFrame
  pure ⟨timestamp, txBufferIndex, channel, frame⟩

/-- Message type `FlexraySymbolEvent`; the members in wire order, services/flexray/FlexraySerdes.cpp:62-66. Also `FlexraySymbolTransmitEvent`, which is serialized as its base class. -/
structure FlexraySymbolEvent where
  timestamp : BitVec 64
  channel : BitVec 32
  pattern : BitVec 8
deriving Repr, DecidableEq

/-- `operator<<(MessageBuffer&, const FlexraySymbolEvent&)`, services/flexray/FlexraySerdes.cpp:62-66, 74-80. -/
def wFlexraySymbolEvent (m : FlexraySymbolEvent) : R Unit := do
  wDuration m.timestamp
  wInt m.channel
  wInt m.pattern

/-- `operator>>(MessageBuffer&, FlexraySymbolEvent&)`, services/flexray/FlexraySerdes.cpp:68-72, 82-87. -/
def rFlexraySymbolEvent : R FlexraySymbolEvent := do
  let timestamp ← rDuration
  let channel ← rInt 32
  let pattern ← rInt 8
  pure ⟨timestamp, channel, pattern⟩

/-- Message type `FlexrayCycleStartEvent`; the members in wire order, services/flexray/FlexraySerdes.cpp:89-94. -/
structure FlexrayCycleStartEvent where
  timestamp : BitVec 64
  cycleCounter : BitVec 8
deriving Repr, DecidableEq

/-- `operator<<(MessageBuffer&, const FlexrayCycleStartEvent&)`, services/flexray/FlexraySerdes.cpp:89-94. -/
def wFlexrayCycleStartEvent (m : FlexrayCycleStartEvent) : R Unit := do
  wDuration m.timestamp
  wInt m.cycleCounter

/-- `operator>>(MessageBuffer&, FlexrayCycleStartEvent&)`, services/flexray/FlexraySerdes.cpp:96-101. -/
def rFlexrayCycleStartEvent : R FlexrayCycleStartEvent := do
  let timestamp ← rDuration
  let cycleCounter ← rInt 8
  pure ⟨timestamp, cycleCounter⟩

/-- Message type `FlexrayHostCommand`; the members in wire order, services/flexray/FlexraySerdes.cpp:103-107. -/
structure FlexrayHostCommand where
  command : BitVec 8
deriving Repr, DecidableEq

/-- `operator<<(MessageBuffer&, const FlexrayHostCommand&)`, services/flexray/FlexraySerdes.cpp:103-107. -/
def wFlexrayHostCommand (m : FlexrayHostCommand) : R Unit := do
  wInt m.command

/-- `operator>>(MessageBuffer&, FlexrayHostCommand&)`, services/flexray/FlexraySerdes.cpp:109-113. -/
def rFlexrayHostCommand : R FlexrayHostCommand := do
  let command ← rInt 8
  pure ⟨command⟩

/-- Message type `FlexrayClusterParameters`; the members in wire order, services/flexray/FlexraySerdes.cpp:115-128. -/
structure FlexrayClusterParameters where
  gColdstartAttempts : BitVec 8
  gCycleCountMax : BitVec 8
  gdActionPointOffset : BitVec 16
  gdDynamicSlotIdlePhase : BitVec 16
  gdMiniSlot : BitVec 16
  gdMiniSlotActionPointOffset : BitVec 16
  gdStaticSlot : BitVec 16
  gdSymbolWindow : BitVec 16
  gdSymbolWindowActionPointOffset : BitVec 16
  gdTSSTransmitter : BitVec 16
  gdWakeupTxActive : BitVec 16
  gdWakeupTxIdle : BitVec 16
  gListenNoise : BitVec 8
  gMacroPerCycle : BitVec 16
  gMaxWithoutClockCorrectionFatal : BitVec 8
  gMaxWithoutClockCorrectionPassive : BitVec 8
  gNumberOfMiniSlots : BitVec 16
  gNumberOfStaticSlots : BitVec 16
  gPayloadLengthStatic : BitVec 16
  gSyncFrameIDCountMax : BitVec 8
deriving Repr, DecidableEq

/-- `operator<<(MessageBuffer&, const FlexrayClusterParameters&)`, services/flexray/FlexraySerdes.cpp:115-128. -/
def wFlexrayClusterParameters (m : FlexrayClusterParameters) : R Unit := do
  wInt m.gColdstartAttempts
  wInt m.gCycleCountMax
  wInt m.gdActionPointOffset
  wInt m.gdDynamicSlotIdlePhase
  wInt m.gdMiniSlot
  wInt m.gdMiniSlotActionPointOffset
  wInt m.gdStaticSlot
  wInt m.gdSymbolWindow
  wInt m.gdSymbolWindowActionPointOffset
  wInt m.gdTSSTransmitter
  wInt m.gdWakeupTxActive
  wInt m.gdWakeupTxIdle
  wInt m.gListenNoise
  wInt m.gMacroPerCycle
  wInt m.gMaxWithoutClockCorrectionFatal
  wInt m.gMaxWithoutClockCorrectionPassive
  wInt m.gNumberOfMiniSlots
  wInt m.gNumberOfStaticSlots
  wInt m.gPayloadLengthStatic
  wInt m.gSyncFrameIDCountMax

/-- `operator>>(MessageBuffer&, FlexrayClusterParameters&)`, services/flexray/FlexraySerdes.cpp:130-140. -/
def rFlexrayClusterParameters : R FlexrayClusterParameters := do
  let gColdstartAttempts ← rInt 8
  let gCycleCountMax ← rInt 8
  let gdActionPointOffset ← rInt 16
  let gdDynamicSlotIdlePhase ← rInt 16
  let gdMiniSlot ← rInt 16
  let gdMiniSlotActionPointOffset ← rInt 16
  let gdStaticSlot ← rInt 16
  let gdSymbolWindow ← rInt 16
  let gdSymbolWindowActionPointOffset ← rInt 16
  let gdTSSTransmitter ← rInt 16
  let gdWakeupTxActive ← rInt 16
  let gdWakeupTxIdle ← rInt 16
  let gListenNoise ← rInt 8
  let gMacroPerCycle ← rInt 16
  let gMaxWithoutClockCorrectionFatal ← rInt 8
  let gMaxWithoutClockCorrectionPassive ← rInt 8
  let gNumberOfMiniSlots ← rInt 16
  let gNumberOfStaticSlots ← rInt 16
  let gPayloadLengthStatic ← rInt 16
  let gSyncFrameIDCountMax ← rInt 8
  pure ⟨gColdstartAttempts, gCycleCountMax, gdActionPointOffset, gdDynamicSlotIdlePhase, gdMiniSlot, gdMiniSlotActionPointOffset, gdStaticSlot, gdSymbolWindow, gdSymbolWindowActionPointOffset, gdTSSTransmitter, gdWakeupTxActive, gdWakeupTxIdle, gListenNoise, gMacroPerCycle, gMaxWithoutClockCorrectionFatal, gMaxWithoutClockCorrectionPassive, gNumberOfMiniSlots, gNumberOfStaticSlots, gPayloadLengthStatic, gSyncFrameIDCountMax⟩

/-- Message type `FlexrayNodeParameters`; the members in wire order, services/flexray/FlexraySerdes.cpp:142-154. The two version 2 members `pSecondKeySlotId` and `pTwoKeySlotMode` are not written by these operators; they are members of `FlexrayControllerConfig` in the model. -/
structure FlexrayNodeParameters where
  pAllowHaltDueToClock : BitVec 8
  pAllowPassiveToActive : BitVec 8
  pChannels : BitVec 32
  pClusterDriftDamping : BitVec 8
  pdAcceptedStartupRange : BitVec 32
  pdListenTimeout : BitVec 32
  pKeySlotId : BitVec 16
  pKeySlotOnlyEnabled : BitVec 8
  pKeySlotUsedForStartup : BitVec 8
  pKeySlotUsedForSync : BitVec 8
  pLatestTx : BitVec 16
  pMacroInitialOffsetA : BitVec 8
  pMacroInitialOffsetB : BitVec 8
  pMicroInitialOffsetA : BitVec 32
  pMicroInitialOffsetB : BitVec 32
  pMicroPerCycle : BitVec 32
  pOffsetCorrectionOut : BitVec 32
  pOffsetCorrectionStart : BitVec 16
  pRateCorrectionOut : BitVec 32
  pWakeupChannel : BitVec 32
  pWakeupPattern : BitVec 8
  pdMicrotick : BitVec 32
  pSamplesPerMicrotick : BitVec 8
deriving Repr, DecidableEq

/-- `operator<<(MessageBuffer&, const FlexrayNodeParameters&)`, services/flexray/FlexraySerdes.cpp:142-154. -/
def wFlexrayNodeParameters (m : FlexrayNodeParameters) : R Unit := do
  wInt m.pAllowHaltDueToClock
  wInt m.pAllowPassiveToActive
  wInt m.pChannels
  wInt m.pClusterDriftDamping
  wInt m.pdAcceptedStartupRange
  wInt m.pdListenTimeout
  wInt m.pKeySlotId
  wInt m.pKeySlotOnlyEnabled
  wInt m.pKeySlotUsedForStartup
  wInt m.pKeySlotUsedForSync
  wInt m.pLatestTx
  wInt m.pMacroInitialOffsetA
  wInt m.pMacroInitialOffsetB
  wInt m.pMicroInitialOffsetA
  wInt m.pMicroInitialOffsetB
  wInt m.pMicroPerCycle
  wInt m.pOffsetCorrectionOut
  wInt m.pOffsetCorrectionStart
  wInt m.pRateCorrectionOut
  wInt m.pWakeupChannel
  wInt m.pWakeupPattern
  wInt m.pdMicrotick
  wInt m.pSamplesPerMicrotick

/-- `operator>>(MessageBuffer&, FlexrayNodeParameters&)`, services/flexray/FlexraySerdes.cpp:156-167. -/
def rFlexrayNodeParameters : R FlexrayNodeParameters := do
  let pAllowHaltDueToClock ← rInt 8
  let pAllowPassiveToActive ← rInt 8
  let pChannels ← rInt 32
  let pClusterDriftDamping ← rInt 8
  let pdAcceptedStartupRange ← rInt 32
  let pdListenTimeout ← rInt 32
  let pKeySlotId ← rInt 16
  let pKeySlotOnlyEnabled ← rInt 8
  let pKeySlotUsedForStartup ← rInt 8
  let pKeySlotUsedForSync ← rInt 8
  let pLatestTx ← rInt 16
  let pMacroInitialOffsetA ← rInt 8
  let pMacroInitialOffsetB ← rInt 8
  let pMicroInitialOffsetA ← rInt 32
  let pMicroInitialOffsetB ← rInt 32
  let pMicroPerCycle ← rInt 32
  let pOffsetCorrectionOut ← rInt 32
  let pOffsetCorrectionStart ← rInt 16
  let pRateCorrectionOut ← rInt 32
  let pWakeupChannel ← rInt 32
  let pWakeupPattern ← rInt 8
  let pdMicrotick ← rInt 32
  let pSamplesPerMicrotick ← rInt 8
  pure ⟨pAllowHaltDueToClock, pAllowPassiveToActive, pChannels, pClusterDriftDamping, pdAcceptedStartupRange, pdListenTimeout, pKeySlotId, pKeySlotOnlyEnabled, pKeySlotUsedForStartup, pKeySlotUsedForSync, pLatestTx, pMacroInitialOffsetA, pMacroInitialOffsetB, pMicroInitialOffsetA, pMicroInitialOffsetB, pMicroPerCycle, pOffsetCorrectionOut, pOffsetCorrectionStart, pRateCorrectionOut, pWakeupChannel, pWakeupPattern, pdMicrotick, pSamplesPerMicrotick⟩

/-- Message type `FlexrayTxBufferConfig`; the members in wire order, services/flexray/FlexraySerdes.cpp:169-174. -/
structure FlexrayTxBufferConfig where
  channels : BitVec 32
  slotId : BitVec 16
  offset : BitVec 8
  repetition : BitVec 8
  hasPayloadPreambleIndicator : BitVec 8
  headerCrc : BitVec 16
  transmissionMode : BitVec 8
deriving Repr, DecidableEq

/-- `operator<<(MessageBuffer&, const FlexrayTxBufferConfig&)`, services/flexray/FlexraySerdes.cpp:169-174. -/
def wFlexrayTxBufferConfig (m : FlexrayTxBufferConfig) : R Unit := do
  wInt m.channels
  wInt m.slotId
  wInt m.offset
  wInt m.repetition
  wInt m.hasPayloadPreambleIndicator
  wInt m.headerCrc
  wInt m.transmissionMode

/-- `operator>>(MessageBuffer&, FlexrayTxBufferConfig&)`, services/flexray/FlexraySerdes.cpp:176-181. -/
def rFlexrayTxBufferConfig : R FlexrayTxBufferConfig := do
  let channels ← rInt 32
  let slotId ← rInt 16
  let offset ← rInt 8
  let repetition ← rInt 8
  let hasPayloadPreambleIndicator ← rInt 8
  let headerCrc ← rInt 16
  let transmissionMode ← rInt 8
  pure ⟨channels, slotId, offset, repetition, hasPayloadPreambleIndicator, headerCrc, transmissionMode⟩

/-- Message type `FlexrayControllerConfig`; the members in wire order, services/flexray/FlexraySerdes.cpp:183-192. `pSecondKeySlotId` and `pTwoKeySlotMode` belong to `nodeParams`. -/
structure FlexrayControllerConfig where
  clusterParams : FlexrayClusterParameters
  nodeParams : FlexrayNodeParameters
  bufferConfigs : List FlexrayTxBufferConfig
  pSecondKeySlotId : BitVec 16
  pTwoKeySlotMode : BitVec 8
deriving Repr, DecidableEq

/-- `operator<<(MessageBuffer&, const FlexrayControllerConfig&)`, services/flexray/FlexraySerdes.cpp:183-192. -/
def wFlexrayControllerConfig (m : FlexrayControllerConfig) : R Unit := do
  wFlexrayClusterParameters m.clusterParams
  wFlexrayNodeParameters m.nodeParams
  wVec wFlexrayTxBufferConfig m.bufferConfigs
  wInt m.pSecondKeySlotId
  wInt m.pTwoKeySlotMode

/-- `operator>>(MessageBuffer&, FlexrayControllerConfig&)`, services/flexray/FlexraySerdes.cpp:194-204. -/
def rFlexrayControllerConfig : R FlexrayControllerConfig := do
  let clusterParams ← rFlexrayClusterParameters
  let nodeParams ← rFlexrayNodeParameters
  let bufferConfigs ← rVec rFlexrayTxBufferConfig
  let left ← remainingBytesLeft
  if left > 0 then do
    let pSecondKeySlotId ← rInt 16
    let pTwoKeySlotMode ← rInt 8
    pure ⟨clusterParams, nodeParams, bufferConfigs, pSecondKeySlotId, pTwoKeySlotMode⟩
  else pure ⟨clusterParams, nodeParams, bufferConfigs, 0, 0⟩

/-- Message type `FlexrayTxBufferConfigUpdate`; the members in wire order, services/flexray/FlexraySerdes.cpp:206-211. -/
structure FlexrayTxBufferConfigUpdate where
  txBufferIndex : BitVec 16
  txBufferConfig : FlexrayTxBufferConfig
deriving Repr, DecidableEq

/-- `operator<<(MessageBuffer&, const FlexrayTxBufferConfigUpdate&)`, services/flexray/FlexraySerdes.cpp:206-211. -/
def wFlexrayTxBufferConfigUpdate (m : FlexrayTxBufferConfigUpdate) : R Unit := do
  wInt m.txBufferIndex
  wFlexrayTxBufferConfig m.txBufferConfig

/-- `operator>>(MessageBuffer&, FlexrayTxBufferConfigUpdate&)`, services/flexray/FlexraySerdes.cpp:213-217. -/
def rFlexrayTxBufferConfigUpdate : R FlexrayTxBufferConfigUpdate := do
  let txBufferIndex ← rInt 16
  let txBufferConfig ← rFlexrayTxBufferConfig
  pure ⟨txBufferIndex, txBufferConfig⟩

/-- Message type `WireFlexrayTxBufferUpdate`; the members in wire order, services/flexray/FlexraySerdes.cpp:219-224. -/
structure WireFlexrayTxBufferUpdate where
  txBufferIndex : BitVec 16
  payloadDataValid : BitVec 8
  payload : List UInt8
deriving Repr, DecidableEq

/-- `operator<<(MessageBuffer&, const WireFlexrayTxBufferUpdate&)`, services/flexray/FlexraySerdes.cpp:219-224. -/
def wWireFlexrayTxBufferUpdate (m : WireFlexrayTxBufferUpdate) : R Unit := do
  wInt m.txBufferIndex
  wInt m.payloadDataValid
  wBytes m.payload

/-- `operator>>(MessageBuffer&, WireFlexrayTxBufferUpdate&)`, services/flexray/FlexraySerdes.cpp:226-230. -/
def rWireFlexrayTxBufferUpdate : R WireFlexrayTxBufferUpdate := do
  let txBufferIndex ← rInt 16
  let payloadDataValid ← rInt 8
  let payload ← rBytes
  pure ⟨txBufferIndex, payloadDataValid, payload⟩

/-- Message type `FlexrayPocStatusEvent`; the members in wire order, services/flexray/FlexraySerdes.cpp:232-240. -/
structure FlexrayPocStatusEvent where
  timestamp : BitVec 64
  chiHaltRequest : BitVec 8
  coldstartNoise : BitVec 8
  errorMode : BitVec 8
  freeze : BitVec 8
  slotMode : BitVec 8
  startupState : BitVec 8
  state : BitVec 8
  wakeupStatus : BitVec 8
  chiReadyRequest : BitVec 8
deriving Repr, DecidableEq

/-- `operator<<(MessageBuffer&, const FlexrayPocStatusEvent&)`, services/flexray/FlexraySerdes.cpp:232-240. -/
def wFlexrayPocStatusEvent (m : FlexrayPocStatusEvent) : R Unit := do
  wDuration m.timestamp
  wInt m.chiHaltRequest
  wInt m.coldstartNoise
  wInt m.errorMode
  wInt m.freeze
  wInt m.slotMode
  wInt m.startupState
  wInt m.state
  wInt m.wakeupStatus
  wInt m.chiReadyRequest

/-- `operator>>(MessageBuffer&, FlexrayPocStatusEvent&)`, services/flexray/FlexraySerdes.cpp:242-250. -/
def rFlexrayPocStatusEvent : R FlexrayPocStatusEvent := do
  let timestamp ← rDuration
  let chiHaltRequest ← rInt 8
  let coldstartNoise ← rInt 8
  let errorMode ← rInt 8
  let freeze ← rInt 8
  let slotMode ← rInt 8
  let startupState ← rInt 8
  let state ← rInt 8
  let wakeupStatus ← rInt 8
  let chiReadyRequest ← rInt 8
  pure ⟨timestamp, chiHaltRequest, coldstartNoise, errorMode, freeze, slotMode, startupState, state, wakeupStatus, chiReadyRequest⟩

/-- Message type `NextSimTask`; the members in wire order, services/orchestration/SyncSerdes.cpp:12-17. -/
structure NextSimTask where
  timePoint : BitVec 64
  duration : BitVec 64
deriving Repr, DecidableEq

/-- `operator<<(MessageBuffer&, const NextSimTask&)`, services/orchestration/SyncSerdes.cpp:12-17. -/
def wNextSimTask (m : NextSimTask) : R Unit := do
  wDuration m.timePoint
  wDuration m.duration

/-- `operator>>(MessageBuffer&, NextSimTask&)`, services/orchestration/SyncSerdes.cpp:18-23. -/
def rNextSimTask : R NextSimTask := do
  let timePoint ← rDuration
  let duration ← rDuration
  pure ⟨timePoint, duration⟩

/-- Message type `SystemCommand`; the members in wire order, services/orchestration/SyncSerdes.cpp:26-31. -/
structure SystemCommand where
  kind : BitVec 8
deriving Repr, DecidableEq

/-- `operator<<(MessageBuffer&, const SystemCommand&)`, services/orchestration/SyncSerdes.cpp:26-31. -/
def wSystemCommand (m : SystemCommand) : R Unit := do
  wInt m.kind

/-- `operator>>(MessageBuffer&, SystemCommand&)`, services/orchestration/SyncSerdes.cpp:32-37. -/
def rSystemCommand : R SystemCommand := do
  let kind ← rInt 8
  pure ⟨kind⟩

/-- Message type `ParticipantStatus`; the members in wire order, services/orchestration/SyncSerdes.cpp:40-45. -/
structure ParticipantStatus where
  participantName : List UInt8
  state : BitVec 16
  enterReason : List UInt8
  enterTime : BitVec 64
  refreshTime : BitVec 64
deriving Repr, DecidableEq

/-- `operator<<(MessageBuffer&, const ParticipantStatus&)`, services/orchestration/SyncSerdes.cpp:40-45. -/
def wParticipantStatus (m : ParticipantStatus) : R Unit := do
  wBytes m.participantName
  wInt m.state
  wBytes m.enterReason
  wTimePoint m.enterTime
  wTimePoint m.refreshTime

/-- `operator>>(MessageBuffer&, ParticipantStatus&)`, services/orchestration/SyncSerdes.cpp:46-51. -/
def rParticipantStatus : R ParticipantStatus := do
  let participantName ← rBytes
  let state ← rInt 16
  let enterReason ← rBytes
  let enterTime ← rTimePoint
  let refreshTime ← rTimePoint
  pure ⟨participantName, state, enterReason, enterTime, refreshTime⟩

/-- Message type `WorkflowConfiguration`; the members in wire order, services/orchestration/SyncSerdes.cpp:53-59. -/
structure WorkflowConfiguration where
  requiredParticipantNames : List (List UInt8)
deriving Repr, DecidableEq

/-- `operator<<(MessageBuffer&, const WorkflowConfiguration&)`, services/orchestration/SyncSerdes.cpp:53-59. -/
def wWorkflowConfiguration (m : WorkflowConfiguration) : R Unit := do
  wVec wBytes m.requiredParticipantNames

/-- `operator>>(MessageBuffer&, WorkflowConfiguration&)`, services/orchestration/SyncSerdes.cpp:61-66. -/
def rWorkflowConfiguration : R WorkflowConfiguration := do
  let requiredParticipantNames ← rVec rBytes
  pure ⟨requiredParticipantNames⟩

/-- Message type `WireDataMessageEvent`; the members in wire order, services/pubsub/DataSerdes.cpp:11-15. -/
structure WireDataMessageEvent where
  data : List UInt8
  timestamp : BitVec 64
deriving Repr, DecidableEq

/-- `operator<<(MessageBuffer&, const WireDataMessageEvent&)`, services/pubsub/DataSerdes.cpp:11-15. -/
def wWireDataMessageEvent (m : WireDataMessageEvent) : R Unit := do
  wBytes m.data
  wDuration m.timestamp

/-- `operator>>(MessageBuffer&, WireDataMessageEvent&)`, services/pubsub/DataSerdes.cpp:17-21. -/
def rWireDataMessageEvent : R WireDataMessageEvent := do
  let data ← rBytes
  let timestamp ← rDuration
  pure ⟨data, timestamp⟩

/-- Message type `FunctionCall`; the members in wire order, services/rpc/RpcSerdes.cpp:11-15. -/
structure FunctionCall where
  timestamp : BitVec 64
  callUuid : Uuid
  data : List UInt8
deriving Repr, DecidableEq

/-- `operator<<(MessageBuffer&, const FunctionCall&)`, services/rpc/RpcSerdes.cpp:11-15. -/
def wFunctionCall (m : FunctionCall) : R Unit := do
  wDuration m.timestamp
  wUuid m.callUuid
  wBytes m.data

/-- `operator>>(MessageBuffer&, FunctionCall&)`, services/rpc/RpcSerdes.cpp:17-21. -/
def rFunctionCall : R FunctionCall := do
  let timestamp ← rDuration
  let callUuid ← rUuid
  let data ← rBytes
  pure ⟨timestamp, callUuid, data⟩

/-- Message type `FunctionCallResponse`; the members in wire order, services/rpc/RpcSerdes.cpp:23-27. -/
structure FunctionCallResponse where
  timestamp : BitVec 64
  callUuid : Uuid
  data : List UInt8
  status : BitVec 32
deriving Repr, DecidableEq

/-- `operator<<(MessageBuffer&, const FunctionCallResponse&)`, services/rpc/RpcSerdes.cpp:23-27. -/
def wFunctionCallResponse (m : FunctionCallResponse) : R Unit := do
  wDuration m.timestamp
  wUuid m.callUuid
  wBytes m.data
  wInt m.status

/-- `operator>>(MessageBuffer&, FunctionCallResponse&)`, services/rpc/RpcSerdes.cpp:29-33. -/
def rFunctionCallResponse : R FunctionCallResponse := do
  let timestamp ← rDuration
  let callUuid ← rUuid
  let data ← rBytes
  let status ← rInt 32
  pure ⟨timestamp, callUuid, data, status⟩

/-- Message type `RequestReplyCall`; the members in wire order, core/requests/RequestReplySerdes.cpp:11-15. -/
structure RequestReplyCall where
  callUuid : Uuid
  functionType : BitVec 16
  callData : List UInt8
deriving Repr, DecidableEq

/-- `operator<<(MessageBuffer&, const RequestReplyCall&)`, core/requests/RequestReplySerdes.cpp:11-15. -/
def wRequestReplyCall (m : RequestReplyCall) : R Unit := do
  wUuid m.callUuid
  wInt m.functionType
  wBytes m.callData

/-- `operator>>(MessageBuffer&, RequestReplyCall&)`, core/requests/RequestReplySerdes.cpp:17-21. -/
def rRequestReplyCall : R RequestReplyCall := do
  let callUuid ← rUuid
  let functionType ← rInt 16
  let callData ← rBytes
  pure ⟨callUuid, functionType, callData⟩

/-- Message type `RequestReplyCallReturn`; the members in wire order, core/requests/RequestReplySerdes.cpp:23-27. -/
structure RequestReplyCallReturn where
  callUuid : Uuid
  functionType : BitVec 16
  callReturnData : List UInt8
  callReturnStatus : BitVec 16
deriving Repr, DecidableEq

/-- `operator<<(MessageBuffer&, const RequestReplyCallReturn&)`, core/requests/RequestReplySerdes.cpp:23-27. -/
def wRequestReplyCallReturn (m : RequestReplyCallReturn) : R Unit := do
  wUuid m.callUuid
  wInt m.functionType
  wBytes m.callReturnData
  wInt m.callReturnStatus

/-- `operator>>(MessageBuffer&, RequestReplyCallReturn&)`, core/requests/RequestReplySerdes.cpp:29-33. -/
def rRequestReplyCallReturn : R RequestReplyCallReturn := do
  let callUuid ← rUuid
  let functionType ← rInt 16
  let callReturnData ← rBytes
  let callReturnStatus ← rInt 16
  pure ⟨callUuid, functionType, callReturnData, callReturnStatus⟩

/-- Message type `ServiceDescriptor`; the members in wire order, core/service/ServiceSerdes.cpp:13-19. -/
structure ServiceDescriptor where
  participantName : List UInt8
  serviceType : BitVec 8
  networkName : List UInt8
  networkType : BitVec 32
  serviceName : List UInt8
  serviceId : BitVec 64
  supplementalData : List (List UInt8 × List UInt8)
  participantId : BitVec 64
deriving Repr, DecidableEq

/-- `operator<<(MessageBuffer&, const ServiceDescriptor&)`, core/service/ServiceSerdes.cpp:13-19. -/
def wServiceDescriptor (m : ServiceDescriptor) : R Unit := do
  wBytes m.participantName
  wInt m.serviceType
  wBytes m.networkName
  wInt m.networkType
  wBytes m.serviceName
  wInt m.serviceId
  wMap m.supplementalData
  wInt m.participantId

/-- `operator>>(MessageBuffer&, ServiceDescriptor&)`, core/service/ServiceSerdes.cpp:21-28. -/
def rServiceDescriptor : R ServiceDescriptor := do
  let participantName ← rBytes
  let serviceType ← rInt 8
  let networkName ← rBytes
  let networkType ← rInt 32
  let serviceName ← rBytes
  let serviceId ← rInt 64
  let supplementalData ← rMap
  let participantId ← rInt 64
  pure ⟨participantName, serviceType, networkName, networkType, serviceName, serviceId, supplementalData, participantId⟩

/-- Message type `ParticipantDiscoveryEvent`; the members in wire order, core/service/ServiceSerdes.cpp:32-37. -/
structure ParticipantDiscoveryEvent where
  participantName : List UInt8
  version : BitVec 64
  services : List ServiceDescriptor
deriving Repr, DecidableEq

/-- `operator<<(MessageBuffer&, const ParticipantDiscoveryEvent&)`, core/service/ServiceSerdes.cpp:32-37. -/
def wParticipantDiscoveryEvent (m : ParticipantDiscoveryEvent) : R Unit := do
  wBytes m.participantName
  wInt m.version
  wVec wServiceDescriptor m.services

/-- `operator>>(MessageBuffer&, ParticipantDiscoveryEvent&)`, core/service/ServiceSerdes.cpp:39-44. -/
def rParticipantDiscoveryEvent : R ParticipantDiscoveryEvent := do
  let participantName ← rBytes
  let version ← rInt 64
  let services ← rVec rServiceDescriptor
  pure ⟨participantName, version, services⟩

/-- Message type `ServiceDiscoveryEvent`; the members in wire order, core/service/ServiceSerdes.cpp:47-51. -/
structure ServiceDiscoveryEvent where
  type : BitVec 32
  serviceDescriptor : ServiceDescriptor
deriving Repr, DecidableEq

/-- `operator<<(MessageBuffer&, const ServiceDiscoveryEvent&)`, core/service/ServiceSerdes.cpp:47-51. -/
def wServiceDiscoveryEvent (m : ServiceDiscoveryEvent) : R Unit := do
  wInt m.type
  wServiceDescriptor m.serviceDescriptor

/-- `operator>>(MessageBuffer&, ServiceDiscoveryEvent&)`, core/service/ServiceSerdes.cpp:53-57. -/
def rServiceDiscoveryEvent : R ServiceDiscoveryEvent := do
  let type ← rInt 32
  let serviceDescriptor ← rServiceDescriptor
  pure ⟨type, serviceDescriptor⟩

/-- Message type `MetricData`; the members in wire order, services/metrics/MetricsSerdes.cpp:11-14. -/
structure MetricData where
  timestamp : BitVec 64
  name : List UInt8
  kind : BitVec 32
  value : List UInt8
deriving Repr, DecidableEq

/-- `operator<<(MessageBuffer&, const MetricData&)`, services/metrics/MetricsSerdes.cpp:11-14. -/
def wMetricData (m : MetricData) : R Unit := do
  wInt m.timestamp
  wBytes m.name
  wInt m.kind
  wBytes m.value

/-- `operator>>(MessageBuffer&, MetricData&)`, services/metrics/MetricsSerdes.cpp:16-20. -/
def rMetricData : R MetricData := do
  let timestamp ← rInt 64
  let name ← rBytes
  let kind ← rInt 32
  let value ← rBytes
  pure ⟨timestamp, name, kind, value⟩

/-- Message type `MetricsUpdate`; the members in wire order, services/metrics/MetricsSerdes.cpp:23-26. -/
structure MetricsUpdate where
  metrics : List MetricData
deriving Repr, DecidableEq

/-- `operator<<(MessageBuffer&, const MetricsUpdate&)`, services/metrics/MetricsSerdes.cpp:23-26. -/
def wMetricsUpdate (m : MetricsUpdate) : R Unit := do
  wVec wMetricData m.metrics

/-- `operator>>(MessageBuffer&, MetricsUpdate&)`, services/metrics/MetricsSerdes.cpp:28-31. -/
def rMetricsUpdate : R MetricsUpdate := do
  let metrics ← rVec rMetricData
  pure ⟨metrics⟩

/-- Message type `SourceLoc`; the members in wire order, services/logging/LoggingSerdes.cpp:13-17. -/
structure SourceLoc where
  filename : List UInt8
  line : BitVec 32
  funcname : List UInt8
deriving Repr, DecidableEq

/-- `operator<<(MessageBuffer&, const SourceLoc&)`, services/logging/LoggingSerdes.cpp:13-17. -/
def wSourceLoc (m : SourceLoc) : R Unit := do
  wBytes m.filename
  wInt m.line
  wBytes m.funcname

/-- `operator>>(MessageBuffer&, SourceLoc&)`, services/logging/LoggingSerdes.cpp:18-22. -/
def rSourceLoc : R SourceLoc := do
  let filename ← rBytes
  let line ← rInt 32
  let funcname ← rBytes
  pure ⟨filename, line, funcname⟩

/-- Message type `RegistryMsgHeader`; the members in wire order, core/vasio/VAsioSerdes.cpp:19-23. -/
structure RegistryMsgHeader where
  preamble : BitVec 32
  versionHigh : BitVec 16
  versionLow : BitVec 16
deriving Repr, DecidableEq

/-- `operator<<(MessageBuffer&, const RegistryMsgHeader&)`, core/vasio/VAsioSerdes.cpp:19-23. -/
def wRegistryMsgHeader (m : RegistryMsgHeader) : R Unit := do
  wInt m.preamble
  wInt m.versionHigh
  wInt m.versionLow

/-- `operator>>(MessageBuffer&, RegistryMsgHeader&)`, core/vasio/VAsioSerdes.cpp:24-28. -/
def rRegistryMsgHeader : R RegistryMsgHeader := do
  let preamble ← rInt 32
  let versionHigh ← rInt 16
  let versionLow ← rInt 16
  pure ⟨preamble, versionHigh, versionLow⟩

/-- Message type `VAsioPeerInfo`; the members in wire order, core/vasio/VAsioSerdes.cpp:31-35. -/
structure VAsioPeerInfo where
  participantName : List UInt8
  participantId : BitVec 64
  acceptorUris : List (List UInt8)
  capabilities : List UInt8
deriving Repr, DecidableEq

/-- `operator<<(MessageBuffer&, const VAsioPeerInfo&)`, core/vasio/VAsioSerdes.cpp:31-35. -/
def wVAsioPeerInfo (m : VAsioPeerInfo) : R Unit := do
  wBytes m.participantName
  wInt m.participantId
  wVec wBytes m.acceptorUris
  wBytes m.capabilities

/-- `operator>>(MessageBuffer&, VAsioPeerInfo&)`, core/vasio/VAsioSerdes.cpp:37-41. -/
def rVAsioPeerInfo : R VAsioPeerInfo := do
  let participantName ← rBytes
  let participantId ← rInt 64
  let acceptorUris ← rVec rBytes
  let capabilities ← rBytes
  pure ⟨participantName, participantId, acceptorUris, capabilities⟩

/-- Message type `VAsioMsgSubscriber`; the members in wire order, core/vasio/VAsioSerdes.cpp:43-47. -/
structure VAsioMsgSubscriber where
  receiverIdx : BitVec 64
  networkName : List UInt8
  msgTypeName : List UInt8
  version : BitVec 32
deriving Repr, DecidableEq

/-- `operator<<(MessageBuffer&, const VAsioMsgSubscriber&)`, core/vasio/VAsioSerdes.cpp:43-47. -/
def wVAsioMsgSubscriber (m : VAsioMsgSubscriber) : R Unit := do
  wInt m.receiverIdx
  wBytes m.networkName
  wBytes m.msgTypeName
  wInt m.version

/-- `operator>>(MessageBuffer&, VAsioMsgSubscriber&)`, core/vasio/VAsioSerdes.cpp:49-53. -/
def rVAsioMsgSubscriber : R VAsioMsgSubscriber := do
  let receiverIdx ← rInt 64
  let networkName ← rBytes
  let msgTypeName ← rBytes
  let version ← rInt 32
  pure ⟨receiverIdx, networkName, msgTypeName, version⟩

/-- Message type `SubscriptionAcknowledge`; the members in wire order, core/vasio/VAsioSerdes.cpp:55-59. -/
structure SubscriptionAcknowledge where
  status : BitVec 8
  subscriber : VAsioMsgSubscriber
deriving Repr, DecidableEq

/-- `operator<<(MessageBuffer&, const SubscriptionAcknowledge&)`, core/vasio/VAsioSerdes.cpp:55-59. -/
def wSubscriptionAcknowledge (m : SubscriptionAcknowledge) : R Unit := do
  wInt m.status
  wVAsioMsgSubscriber m.subscriber

/-- `operator>>(MessageBuffer&, SubscriptionAcknowledge&)`, core/vasio/VAsioSerdes.cpp:61-65. -/
def rSubscriptionAcknowledge : R SubscriptionAcknowledge := do
  let status ← rInt 8
  let subscriber ← rVAsioMsgSubscriber
  pure ⟨status, subscriber⟩

/-- Message type `RemoteParticipantConnectRequest`; the members in wire order, core/vasio/VAsioSerdes.cpp:224-228. -/
structure RemoteParticipantConnectRequest where
  messageHeader : RegistryMsgHeader
  requestOrigin : VAsioPeerInfo
  requestTarget : VAsioPeerInfo
  status : BitVec 8
deriving Repr, DecidableEq

/-- `operator<<(MessageBuffer&, const RemoteParticipantConnectRequest&)`, core/vasio/VAsioSerdes.cpp:224-228. -/
def wRemoteParticipantConnectRequest (m : RemoteParticipantConnectRequest) : R Unit := do
  wRegistryMsgHeader m.messageHeader
  wVAsioPeerInfo m.requestOrigin
  wVAsioPeerInfo m.requestTarget
  wInt m.status

/-- `operator>>(MessageBuffer&, RemoteParticipantConnectRequest&)`, core/vasio/VAsioSerdes.cpp:229-233. -/
def rRemoteParticipantConnectRequest : R RemoteParticipantConnectRequest := do
  let messageHeader ← rRegistryMsgHeader
  let requestOrigin ← rVAsioPeerInfo
  let requestTarget ← rVAsioPeerInfo
  let status ← rInt 8
  pure ⟨messageHeader, requestOrigin, requestTarget, status⟩
/-! ## Log messages -/

/-- `Topic` names, core/internal/string_utils_internal.hpp:74-150 (`operator<<(std::ostream&, const Topic&)`) with the
enum values of core/internal/LoggingTopics.hpp:15-41. -/
def topicNames : List (Nat × List Char) :=
  [(1, ['U', 's', 'e', 'r']), (7, ['T', 'i', 'm', 'e', 'S', 'y', 'n', 'c']),
   (2, ['L', 'i', 'f', 'e', 'C', 'y', 'c', 'l', 'e']), (3, ['S', 'y', 's', 't', 'e', 'm', 'S', 't', 'a', 't', 'e']),
   (4, ['M', 'e', 's', 's', 'a', 'g', 'e', 'T', 'r', 'a', 'c', 'i', 'n', 'g']),
   (5, ['S', 'e', 'r', 'v', 'i', 'c', 'e', 'D', 'i', 's', 'c', 'o', 'v', 'e', 'r', 'y']),
   (8, ['P', 'a', 'r', 't', 'i', 'c', 'i', 'p', 'a', 'n', 't']), (6, ['A', 's', 'i', 'o']),
   (9, ['T', 'i', 'm', 'e', 'C', 'o', 'n', 'f', 'i', 'g']),
   (10, ['R', 'e', 'q', 'u', 'e', 's', 't', 'R', 'e', 'p', 'l', 'y']),
   (11, ['S', 'y', 's', 't', 'e', 'm', 'M', 'o', 'n', 'i', 't', 'o', 'r']), (12, ['C', 'a', 'n']),
   (13, ['E', 't', 'h', 'e', 'r', 'n', 'e', 't']), (14, ['F', 'l', 'e', 'x', 'r', 'a', 'y']), (15, ['L', 'i', 'n']),
   (16, ['M', 'e', 't', 'r', 'i', 'c', 's']), (17, ['P', 'u', 'b', 's', 'u', 'b']), (18, ['R', 'p', 'c']),
   (19, ['T', 'r', 'a', 'c', 'i', 'n', 'g']), (20, ['D', 'a', 's', 'h', 'b', 'o', 'a', 'r', 'd']),
   (21, ['N', 'e', 't', 'S', 'i', 'm']), (22, ['E', 'x', 't', 'e', 'n', 's', 'i', 'o', 'n']), (0, ['N', 'o', 'n', 'e'])]

/-- The ASCII bytes of a text. -/
def ascii (s : List Char) : List UInt8 := s.map (fun c => UInt8.ofNat c.toNat)

/-- `to_string(Topic)`, core/internal/string_utils_internal.hpp:67-150; `default:` prints "Invalid". -/
def topicToString (t : BitVec 32) : List UInt8 :=
  match topicNames.find? (fun e => e.1 == t.toNat) with
  | some e => ascii e.2
  | none => ascii ['I', 'n', 'v', 'a', 'l', 'i', 'd']

/-- `SilKit::Util::LowerCase` (`std::tolower` in the C locale). -/
def lowerCase (s : List UInt8) : List UInt8 :=
  s.map (fun c => if 65 ≤ c.toNat ∧ c.toNat ≤ 90 then UInt8.ofNat (c.toNat + 32) else c)

/-- The names tested by `from_topic_string` in the order of the tests, core/internal/string_utils_internal.hpp:155-200. -/
def topicLowerNames : List (Nat × List Char) :=
  [(0, ['n', 'o', 'n', 'e']), (1, ['u', 's', 'e', 'r']), (7, ['t', 'i', 'm', 'e', 's', 'y', 'n', 'c']),
   (2, ['l', 'i', 'f', 'e', 'c', 'y', 'c', 'l', 'e']), (3, ['s', 'y', 's', 't', 'e', 'm', 's', 't', 'a', 't', 'e']),
   (4, ['m', 'e', 's', 's', 'a', 'g', 'e', 't', 'r', 'a', 'c', 'i', 'n', 'g']),
   (5, ['s', 'e', 'r', 'v', 'i', 'c', 'e', 'd', 'i', 's', 'c', 'o', 'v', 'e', 'r', 'y']),
   (8, ['p', 'a', 'r', 't', 'i', 'c', 'i', 'p', 'a', 'n', 't']), (9, ['t', 'i', 'm', 'e', 'c', 'o', 'n', 'f', 'i', 'g']),
   (6, ['a', 's', 'i', 'o']), (10, ['r', 'e', 'q', 'u', 'e', 's', 't', 'r', 'e', 'p', 'l', 'y']),
   (11, ['s', 'y', 's', 't', 'e', 'm', 'm', 'o', 'n', 'i', 't', 'o', 'r']), (12, ['c', 'a', 'n']),
   (13, ['e', 't', 'h', 'e', 'r', 'n', 'e', 't']), (14, ['f', 'l', 'e', 'x', 'r', 'a', 'y']), (15, ['l', 'i', 'n']),
   (16, ['m', 'e', 't', 'r', 'i', 'c', 's']), (17, ['p', 'u', 'b', 's', 'u', 'b']), (18, ['r', 'p', 'c']),
   (19, ['t', 'r', 'a', 'c', 'i', 'n', 'g']), (20, ['d', 'a', 's', 'h', 'b', 'o', 'a', 'r', 'd']),
   (21, ['n', 'e', 't', 's', 'i', 'm']), (22, ['e', 'x', 't', 'e', 'n', 's', 'i', 'o', 'n'])]

/-- `from_topic_string`, core/internal/string_utils_internal.hpp:152-202; unknown names give `Topic::Invalid`. -/
def fromTopicString (s : List UInt8) : BitVec 32 :=
  match topicLowerNames.find? (fun e => ascii e.2 == lowerCase s) with
  | some e => BitVec.ofNat 32 e.1
  | none => 0xffffffff

/-- `struct LogMsg`, core/internal/LoggingDatatypesInternal.hpp:34-43 (members in wire order). -/
structure LogMsg where
  loggerName : List UInt8
  level : BitVec 32
  time : BitVec 64
  source : SourceLoc
  payload : List UInt8
  keyValues : List (List UInt8 × List UInt8)
  topic : BitVec 32
deriving Repr, DecidableEq

/-- `operator<<(MessageBuffer&, const LogMsg&)`, services/logging/LoggingSerdes.cpp:25-30. -/
def wLogMsg (m : LogMsg) : R Unit := do
  wBytes m.loggerName
  wInt m.level
  wTimePoint m.time
  wSourceLoc m.source
  wBytes m.payload
  wVec (wPair wBytes wBytes) m.keyValues
  wBytes (topicToString m.topic)

/-- Second part of `operator>>(MessageBuffer&, LogMsg&)`, services/logging/LoggingSerdes.cpp:38-43. -/
def rLogMsgTopic (m : LogMsg) : R LogMsg := do
  let left ← remainingBytesLeft
  if left > 0 then do
    let tempTopic ← rBytes
    pure { m with topic := fromTopicString tempTopic }
  else pure m

/-- `operator>>(MessageBuffer&, LogMsg&)`, services/logging/LoggingSerdes.cpp:31-45. Missing trailing members keep their
default values (no key/values, `Topic::None`). -/
def rLogMsg : R LogMsg := do
  let loggerName ← rBytes
  let level ← rInt 32
  let time ← rTimePoint
  let source ← rSourceLoc
  let payload ← rBytes
  let left ← remainingBytesLeft
  if left > 0 then do
    let keyValues ← rVec (rPair rBytes rBytes)
    rLogMsgTopic ⟨loggerName, level, time, source, payload, keyValues, 0⟩
  else rLogMsgTopic ⟨loggerName, level, time, source, payload, [], 0⟩

/-! ## Protocol version 3.0 (legacy peers) -/

/-- `protocol_3_0::RegistryMsgHeader`, core/vasio/VAsioSerdes_Protocol30.cpp:18-23. -/
structure RegistryMsgHeader30 where
  preambel : Vector UInt8 4
  versionHigh : BitVec 16
  versionLow : BitVec 16
deriving Repr, DecidableEq

/-- Default member initialisers, core/vasio/VAsioSerdes_Protocol30.cpp:20-22 ("VIB-", 3, 0). -/
def RegistryMsgHeader30.default : RegistryMsgHeader30 := ⟨#v[0x56, 0x49, 0x42, 0x2d], 3, 0⟩

/-- core/vasio/VAsioSerdes_Protocol30.cpp:25-29. -/
def wRegistryMsgHeader30 (m : RegistryMsgHeader30) : R Unit := do
  wArray m.preambel
  wInt m.versionHigh
  wInt m.versionLow

/-- core/vasio/VAsioSerdes_Protocol30.cpp:30-34. -/
def rRegistryMsgHeader30 : R RegistryMsgHeader30 := do
  let preambel ← rArray 4
  let versionHigh ← rInt 16
  let versionLow ← rInt 16
  pure ⟨preambel, versionHigh, versionLow⟩

/-- `protocol_3_0::VAsioMsgSubscriber`, core/vasio/VAsioSerdes_Protocol30.cpp:37-42. -/
structure VAsioMsgSubscriber30 where
  receiverIdx : BitVec 64
  networkName : List UInt8
  msgTypeName : List UInt8
deriving Repr, DecidableEq

/-- core/vasio/VAsioSerdes_Protocol30.cpp:44-48. -/
def wVAsioMsgSubscriber30 (m : VAsioMsgSubscriber30) : R Unit := do
  wInt m.receiverIdx
  wBytes m.networkName
  wBytes m.msgTypeName

/-- core/vasio/VAsioSerdes_Protocol30.cpp:50-54. -/
def rVAsioMsgSubscriber30 : R VAsioMsgSubscriber30 := do
  let receiverIdx ← rInt 64
  let networkName ← rBytes
  let msgTypeName ← rBytes
  pure ⟨receiverIdx, networkName, msgTypeName⟩

/-- `protocol_3_0::VAsioPeerInfo`, core/vasio/VAsioSerdes_Protocol30.cpp:57-63. -/
structure VAsioPeerInfo30 where
  participantName : List UInt8
  participantId : BitVec 64
  acceptorHost : List UInt8
  acceptorPort : BitVec 16
deriving Repr, DecidableEq

/-- core/vasio/VAsioSerdes_Protocol30.cpp:94-98. -/
def wVAsioPeerInfo30 (m : VAsioPeerInfo30) : R Unit := do
  wBytes m.participantName
  wInt m.participantId
  wBytes m.acceptorHost
  wInt m.acceptorPort

/-- core/vasio/VAsioSerdes_Protocol30.cpp:100-104. -/
def rVAsioPeerInfo30 : R VAsioPeerInfo30 := do
  let participantName ← rBytes
  let participantId ← rInt 64
  let acceptorHost ← rBytes
  let acceptorPort ← rInt 16
  pure ⟨participantName, participantId, acceptorHost, acceptorPort⟩

/-- `protocol_3_0::VAsioPeerUri`, core/vasio/VAsioSerdes_Protocol30.cpp:65-70. -/
structure VAsioPeerUri30 where
  participantName : List UInt8
  participantId : BitVec 64
  acceptorUris : List (List UInt8)
deriving Repr, DecidableEq

/-- core/vasio/VAsioSerdes_Protocol30.cpp:107-111. -/
def wVAsioPeerUri30 (m : VAsioPeerUri30) : R Unit := do
  wBytes m.participantName
  wInt m.participantId
  wVec wBytes m.acceptorUris

/-- core/vasio/VAsioSerdes_Protocol30.cpp:113-117. -/
def rVAsioPeerUri30 : R VAsioPeerUri30 := do
  let participantName ← rBytes
  let participantId ← rInt 64
  let acceptorUris ← rVec rBytes
  pure ⟨participantName, participantId, acceptorUris⟩

/-! ## Handshake messages -/

/-- `RegistryMsgHeader` preamble value, core/vasio/VAsioDatatypes.hpp:19. -/
def registryPreamble : BitVec 32 := 0x2d424956

/-- `struct ParticipantAnnouncement`, core/vasio/VAsioDatatypes.hpp:56-61. -/
structure ParticipantAnnouncement where
  messageHeader : RegistryMsgHeader
  peerInfo : VAsioPeerInfo
  simulationName : List UInt8
deriving Repr, DecidableEq

/-- `struct ParticipantAnnouncementReply`, core/vasio/VAsioDatatypes.hpp:63-77. -/
structure ParticipantAnnouncementReply where
  remoteHeader : RegistryMsgHeader
  status : BitVec 8
  subscribers : List VAsioMsgSubscriber
  diagnostic : List UInt8
deriving Repr, DecidableEq

/-- `struct KnownParticipants`, core/vasio/VAsioDatatypes.hpp:79-83. -/
structure KnownParticipants where
  messageHeader : RegistryMsgHeader
  peerInfos : List VAsioPeerInfo
deriving Repr, DecidableEq

/-- `SerializeV30(MessageBuffer&, const ParticipantAnnouncement&)`, core/vasio/VAsioSerdes_Protocol30.cpp:182-191 with
120-126: the old-style `peerInfo` stays default initialised. -/
def serializeV30Announcement (m : ParticipantAnnouncement) : R Unit := do
  wRegistryMsgHeader30 .default
  wVAsioPeerInfo30 ⟨[], 0, [], 0⟩
  wVAsioPeerUri30 ⟨m.peerInfo.participantName, m.peerInfo.participantId, m.peerInfo.acceptorUris⟩

/-- `DeserializeV30(MessageBuffer&, ParticipantAnnouncement&)`, core/vasio/VAsioSerdes_Protocol30.cpp:168-180 with
127-132 into a fresh `ParticipantAnnouncement`. -/
def deserializeV30Announcement : R ParticipantAnnouncement := do
  let messageHeader ← rRegistryMsgHeader30
  let _peerInfo ← rVAsioPeerInfo30
  let peerUri ← rVAsioPeerUri30
  pure ⟨⟨registryPreamble, messageHeader.versionHigh, messageHeader.versionLow⟩,
    ⟨peerUri.participantName, peerUri.participantId, peerUri.acceptorUris, []⟩, []⟩

/-- `operator<<(MessageBuffer&, const ParticipantAnnouncement&)`, core/vasio/VAsioSerdes.cpp:67-82. -/
def wParticipantAnnouncement (m : ParticipantAnnouncement) : R Unit := do
  setProtocolVersion ⟨m.messageHeader.versionHigh, m.messageHeader.versionLow⟩
  let version ← getProtocolVersion
  if version = ⟨3, 0⟩ then serializeV30Announcement m
  else do
    wRegistryMsgHeader m.messageHeader
    wVAsioPeerInfo m.peerInfo
    wBytes m.simulationName

/-- `operator>>(MessageBuffer&, ParticipantAnnouncement&)`, core/vasio/VAsioSerdes.cpp:84-104. -/
def rParticipantAnnouncement : R ParticipantAnnouncement := do
  let version ← getProtocolVersion
  if version = ⟨3, 0⟩ then deserializeV30Announcement
  else do
    let messageHeader ← rRegistryMsgHeader
    let peerInfo ← rVAsioPeerInfo
    let left ← remainingBytesLeft
    if left = 0 then pure ⟨messageHeader, peerInfo, []⟩
    else do
      let simulationName ← rBytes
      pure ⟨messageHeader, peerInfo, simulationName⟩

/-- `SerializeV30(MessageBuffer&, const ParticipantAnnouncementReply&)`, core/vasio/VAsioSerdes_Protocol30.cpp:215-228
with 150-155. -/
def serializeV30Reply (m : ParticipantAnnouncementReply) : R Unit :=
  wVec wVAsioMsgSubscriber30 (m.subscribers.map (fun s => ⟨s.receiverIdx, s.networkName, s.msgTypeName⟩))

/-- `DeserializeV30(MessageBuffer&, ParticipantAnnouncementReply&)`, core/vasio/VAsioSerdes_Protocol30.cpp:193-213 with
157-161. -/
def deserializeV30Reply : R ParticipantAnnouncementReply := do
  let subscribers ← rVec rVAsioMsgSubscriber30
  pure ⟨⟨registryPreamble, 3, 0⟩, 1,
    subscribers.map (fun s => ⟨s.receiverIdx, s.networkName, s.msgTypeName, 0⟩), []⟩

/-- `operator<<(MessageBuffer&, const ParticipantAnnouncementReply&)`, core/vasio/VAsioSerdes.cpp:106-121. -/
def wParticipantAnnouncementReply (m : ParticipantAnnouncementReply) : R Unit := do
  let version ← getProtocolVersion
  if version = ⟨3, 0⟩ then serializeV30Reply m
  else do
    wRegistryMsgHeader m.remoteHeader
    wInt m.status
    wVec wVAsioMsgSubscriber m.subscribers
    wBytes m.diagnostic

/-- `operator>>(MessageBuffer&, ParticipantAnnouncementReply&)`, core/vasio/VAsioSerdes.cpp:122-140. -/
def rParticipantAnnouncementReply : R ParticipantAnnouncementReply := do
  let version ← getProtocolVersion
  if version = ⟨3, 0⟩ then deserializeV30Reply
  else do
    let remoteHeader ← rRegistryMsgHeader
    let status ← rInt 8
    let subscribers ← rVec rVAsioMsgSubscriber
    let left ← remainingBytesLeft
    if left > 0 then do
      let diagnostic ← rBytes
      pure ⟨remoteHeader, status, subscribers, diagnostic⟩
    else pure ⟨remoteHeader, status, subscribers, []⟩

/-- `SerializeV30(MessageBuffer&, const KnownParticipants&)`, core/vasio/VAsioSerdes_Protocol30.cpp:247-267 with
134-139. -/
def serializeV30Known (m : KnownParticipants) : R Unit := do
  wRegistryMsgHeader30 .default
  wVec wVAsioPeerInfo30 []
  wVec wVAsioPeerUri30 (m.peerInfos.map (fun i => ⟨i.participantName, i.participantId, i.acceptorUris⟩))

/-- The result of `DeserializeV30(MessageBuffer&, KnownParticipants&)`, core/vasio/VAsioSerdes_Protocol30.cpp:235-244. -/
def knownFromV30 (peerUris : List VAsioPeerUri30) : KnownParticipants :=
  ⟨⟨registryPreamble, 3, 0⟩, peerUris.map (fun u => ⟨u.participantName, u.participantId, u.acceptorUris, []⟩)⟩

/-- `DeserializeV30(MessageBuffer&, KnownParticipants&)`, core/vasio/VAsioSerdes_Protocol30.cpp:230-245 with 140-148. -/
def deserializeV30Known : R KnownParticipants := do
  let _messageHeader ← rRegistryMsgHeader30
  let _peerInfos ← rVec rVAsioPeerInfo30
  let left ← remainingBytesLeft
  if left > 0 then do
    let peerUris ← rVec rVAsioPeerUri30
    pure (knownFromV30 peerUris)
  else pure (knownFromV30 [])

/-- `operator<<(MessageBuffer&, const KnownParticipants&)`, core/vasio/VAsioSerdes.cpp:142-154. -/
def wKnownParticipants (m : KnownParticipants) : R Unit := do
  let version ← getProtocolVersion
  if version = ⟨3, 0⟩ then serializeV30Known m
  else do
    wRegistryMsgHeader m.messageHeader
    wVec wVAsioPeerInfo m.peerInfos

/-- `operator>>(MessageBuffer&, KnownParticipants&)`, core/vasio/VAsioSerdes.cpp:155-167. -/
def rKnownParticipants : R KnownParticipants := do
  let version ← getProtocolVersion
  if version = ⟨3, 0⟩ then deserializeV30Known
  else do
    let messageHeader ← rRegistryMsgHeader
    let peerInfos ← rVec rVAsioPeerInfo
    pure ⟨messageHeader, peerInfos⟩

/-! ## Proxy messages -/

/-- `struct ProxyMessage` with its `ProxyMessageHeader` inlined, core/vasio/VAsioDatatypes.hpp:121-132. -/
structure ProxyMessage where
  version : BitVec 8
  source : List UInt8
  destination : List UInt8
  payload : List UInt8
deriving Repr, DecidableEq

/-- Text of the exception, core/vasio/VAsioSerdes.cpp:174. -/
def proxyUnsupported : String := "ProxyMessage is not supported in protocol versions < 3.1"

/-- `operator<<(MessageBuffer&, const ProxyMessageHeader&)`, core/vasio/VAsioSerdes.cpp:169-181. -/
def wProxyMessageHeader (version : BitVec 8) : R Unit := do
  let v ← getProtocolVersion
  if v.lt ⟨3, 1⟩ then throwing proxyUnsupported else wInt version

/-- `operator>>(MessageBuffer&, ProxyMessageHeader&)`, core/vasio/VAsioSerdes.cpp:182-194. -/
def rProxyMessageHeader : R (BitVec 8) := do
  let v ← getProtocolVersion
  if v.lt ⟨3, 1⟩ then throwing proxyUnsupported else rInt 8

/-- `operator<<(MessageBuffer&, const ProxyMessage&)`, core/vasio/VAsioSerdes.cpp:196-208. -/
def wProxyMessage (m : ProxyMessage) : R Unit := do
  let v ← getProtocolVersion
  if v.lt ⟨3, 1⟩ then throwing proxyUnsupported
  else do
    wProxyMessageHeader m.version
    wBytes m.source
    wBytes m.destination
    wBytes m.payload

/-- `operator>>(MessageBuffer&, ProxyMessage&)`, core/vasio/VAsioSerdes.cpp:209-221. -/
def rProxyMessage : R ProxyMessage := do
  let v ← getProtocolVersion
  if v.lt ⟨3, 1⟩ then throwing proxyUnsupported
  else do
    let version ← rProxyMessageHeader
    let source ← rBytes
    let destination ← rBytes
    let payload ← rBytes
    pure ⟨version, source, destination, payload⟩

/-! ## Framing headers: `SerializedMessage` -/

/-- `enum class VAsioMsgKind : uint8_t`, core/vasio/VAsioMsgKind.hpp:11-20, as its values. -/
def kindSubscriptionAnnouncement : BitVec 8 := 1
/-- See `kindSubscriptionAnnouncement`. -/
def kindSubscriptionAcknowledge : BitVec 8 := 2
/-- See `kindSubscriptionAnnouncement`. -/
def kindMwMsg : BitVec 8 := 3
/-- See `kindSubscriptionAnnouncement`. -/
def kindSimMsg : BitVec 8 := 4
/-- See `kindSubscriptionAnnouncement`. -/
def kindRegistryMessage : BitVec 8 := 5
/-- See `kindSubscriptionAnnouncement`. -/
def kindProxyMessage : BitVec 8 := 6

/-- `IsMwOrSim`, core/vasio/SerializedMessageTraits.hpp:95-98. -/
def isMwOrSim (kind : BitVec 8) : Bool := kind == kindMwMsg || kind == kindSimMsg

/-- The header members of `SerializedMessage`, core/vasio/SerializedMessage.hpp:101-111. Members that a message of the
given kind does not carry are `none`. -/
structure Headers where
  messageSize : BitVec 32
  messageKind : BitVec 8
  registryKind : Option (BitVec 8)
  registryMessageHeader : Option RegistryMsgHeader
  proxyVersion : Option (BitVec 8)
  remoteIndex : Option (BitVec 64)
  endpointAddress : Option EndpointAddress
deriving Repr, DecidableEq

/-- `SerializedMessage::WriteNetworkHeaders`, core/vasio/SerializedMessage.cpp:79-91. -/
def writeNetworkHeaders (kind registryKind : BitVec 8) (remoteIndex : BitVec 64) (addr : EndpointAddress) : R Unit := do
  wInt (0 : BitVec 32)
  wInt kind
  if kind = kindRegistryMessage then wInt registryKind else pure ()
  if isMwOrSim kind then do
    wInt remoteIndex
    wEndpointAddress addr
  else pure ()

/-- `SerializedMessage::ReleaseStorage`, core/vasio/SerializedMessage.cpp:17-27: overwrite the size placeholder.
`memcpy` to an empty buffer would be undefined. -/
def releaseStorage (b : MessageBuffer) : Res (List UInt8) :=
  if b.storage.length > uint32Max then .throw "SerializedMessage::Serialize: message buffer is too large"
  else copyTo b.storage 0 (leBytes 4 b.storage.length)

/-- Constructor `SerializedMessage(message, endpointAddress, remoteIndex)` followed by `ReleaseStorage`,
core/vasio/SerializedMessage.hpp:150-166 (the reading of the headers at its end has no effect on the bytes). -/
def serialize (kind registryKind : BitVec 8) (remoteIndex : BitVec 64) (addr : EndpointAddress) (payload : R Unit) :
    Res (List UInt8) :=
  match (do writeNetworkHeaders kind registryKind remoteIndex addr; payload : R Unit) MessageBuffer.empty with
  | .ok (_, b) => releaseStorage b
  | .throw m => .throw m
  | .ub m => .ub m

/-- `PeekRegistryMessageHeader`, core/vasio/VAsioSerdes.cpp:270-290: `memcpy` of `sizeof(RegistryMsgHeader)` = 8 bytes
from the read position, without a check that so many bytes are there. -/
def peekRegistryMessageHeader : R RegistryMsgHeader := fun b =>
  match copyFrom b.storage b.rPos 8 with
  | .ok raw =>
    match rRegistryMsgHeader (MessageBuffer.ofBytes raw) with
    | .ok (h, _) => .ok (h, b)
    | .throw m => .throw m
    | .ub m => .ub m
  | .throw m => .throw m
  | .ub m => .ub m

/-- `PeekProxyMessageHeader`, core/vasio/VAsioSerdes.cpp:261-268: reads with the checked operator and restores the read
position. -/
def peekProxyMessageHeader : R (BitVec 8) := fun b =>
  match rProxyMessageHeader b with
  | .ok (v, b') => .ok (v, { b' with rPos := b.rPos })
  | .throw m => .throw m
  | .ub m => .ub m

/-- The `switch (_registryKind)` of core/vasio/SerializedMessage.cpp:109-134. Unknown values fall through the switch. -/
def readRegistryHeader (registryKind : BitVec 8) : R (Option RegistryMsgHeader) :=
  if registryKind = 1 ∨ registryKind = 3 ∨ registryKind = 4 then do
    let h ← peekRegistryMessageHeader
    pure (some h)
  else if registryKind = 2 then do
    let version ← getProtocolVersion
    if version = ⟨3, 1⟩ then do
      let h ← peekRegistryMessageHeader
      pure (some h)
    else if version = ⟨3, 0⟩ then pure (some ⟨registryPreamble, 3, 0⟩)
    else throwing "SerializedMessage: Unsupported protocol version encountered during handshake"
  else if registryKind = 0 then
    throwing "SerializedMessage: ReadNetworkHeaders() encountered RegistryMessageKind::Invalid"
  else pure none

/-- `SerializedMessage::ReadNetworkHeaders`, core/vasio/SerializedMessage.cpp:93-146 (called by the constructor from a
received blob, 11-15). -/
def readNetworkHeaders : R Headers := do
  let messageSize ← rInt 32
  let messageKind ← rInt 8
  if messageKind = kindRegistryMessage then do
    let registryKind ← rInt 8
    let header ← readRegistryHeader registryKind
    pure ⟨messageSize, messageKind, some registryKind, header, none, none, none⟩
  else if messageKind = kindProxyMessage then do
    let v ← peekProxyMessageHeader
    pure ⟨messageSize, messageKind, none, none, some v, none, none⟩
  else if isMwOrSim messageKind then do
    let remoteIndex ← rInt 64
    let addr ← rEndpointAddress
    pure ⟨messageSize, messageKind, none, none, none, some remoteIndex, some addr⟩
  else pure ⟨messageSize, messageKind, none, none, none, none, none⟩

/-- Constructor from a received blob (core/vasio/SerializedMessage.cpp:11-15) followed by `Deserialize<T>()`
(core/vasio/SerializedMessage.hpp:167-173). -/
def parse {α : Type} (r : R α) (blob : List UInt8) : Res (Headers × α) :=
  match (do let h ← readNetworkHeaders; let a ← r; pure (h, a) : R (Headers × α)) (MessageBuffer.ofBytes blob) with
  | .ok (p, _) => .ok p
  | .throw m => .throw m
  | .ub m => .ub m

end SilKit.Wire
