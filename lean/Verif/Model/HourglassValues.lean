/-!
# Model of the values and errors that pass through the C interface

Source: `SilKit/include/silkit/detail/impl/services/**` (the header-only C++ API) and `SilKit/source/capi/Capi*.cpp` (the C interface of the library).

A call of the C++ API packs its arguments into C structures; the C function checks them and unpacks them into C++ values again, which it gives to
the service. An event goes the other way: the C interface packs it into C structures, the callback of the C++ API unpacks it for the user's handler.

The integer types are the same on both sides (the C++ enumerations have the types of the C interface as underlying types), so that a cast between
an enumeration and its C type changes nothing; they are `BitVec`s of the width of the type. The exceptions are modelled: the timestamps
(signed on the C++ side, unsigned on the C side), sizes cast to `uint32_t`, strings (which end at the first zero byte on the C side), `bool`s
and the arrays to which pointers are kept.

Not modelled: the calls without values (e.g. `Start`), the logger, the creation of participants, the network simulator, memory that the user frees
too early.
-/
namespace SilKit.HourglassValues

/-! ## Errors -/

/-- The classes of exceptions: include/silkit/participant/exception.hpp:13-99, source/capi/CapiExceptions.hpp:11-14; of the standard library:
`std::runtime_error`, other classes derived from `std::exception`; `other`: anything else that can be thrown. -/
inductive Exn
  | silkit | typeConversion | configuration | state | protocol | assertion | extension | logic | length | outOfRange
  | badParameter
  | runtimeError | stdException | other
deriving Repr, DecidableEq

/-- The class itself and the classes it is derived from. -/
def classes : Exn → List Exn
  | .length => [.length, .logic, .silkit, .stdException]
  | .outOfRange => [.outOfRange, .logic, .silkit, .stdException]
  | .silkit => [.silkit, .stdException]
  | .runtimeError => [.runtimeError, .stdException]
  | .stdException => [.stdException]
  | .other => [.other]
  | e => [e, .silkit, .stdException]

/-- include/silkit/capi/Types.h:29-54. -/
inductive Code
  | success | unspecified | notSupported | notImplemented | badParameter | bufferTooSmall | timeout | unsupportedService
  | wrongState | typeConversion | configuration | protocol | assertion | extension | logic | length | outOfRange
deriving Repr, DecidableEq

/-- The catch clauses of `CAPI_CATCH_EXCEPTIONS` in their order, CapiImpl.hpp:13-82, without the last one. -/
def clauses : List (Exn × Code) :=
  [(.badParameter, .badParameter), (.state, .wrongState), (.typeConversion, .typeConversion), (.configuration, .configuration),
   (.protocol, .protocol), (.assertion, .assertion), (.extension, .extension), (.length, .length), (.outOfRange, .outOfRange),
   (.logic, .logic), (.silkit, .unspecified), (.runtimeError, .unspecified), (.stdException, .unspecified)]

/-- An exception with its text, thrown inside a C function: the first clause that matches returns its code and sets the thread-local
`SilKit_error_string`; `catch (...)` only returns a code. The first argument is the error string before. -/
def caught (errorString : String) (e : Exn) (text : String) : String × Code :=
  match clauses.find? (fun c => decide (c.1 ∈ classes e)) with
  | some c => (text, c.2)
  | none => (errorString, .unspecified)

/-- `ThrowOnError`, include/silkit/detail/impl/ThrowOnError.hpp:36-83: the class thrown to the user of the C++ API, and the error string that ends its
text (the beginning names the code). Simplified: `SilKit_GetLastErrorString` never returns a null pointer (CapiUtils.cpp:98-102). -/
def thrown (errorString : String) : Code → Option (Exn × String)
  | .success => none
  | .wrongState => some (.state, errorString)
  | .typeConversion => some (.typeConversion, errorString)
  | .configuration => some (.configuration, errorString)
  | .protocol => some (.protocol, errorString)
  | .assertion => some (.assertion, errorString)
  | .extension => some (.extension, errorString)
  | .logic => some (.logic, errorString)
  | .length => some (.length, errorString)
  | .outOfRange => some (.outOfRange, errorString)
  | _ => some (.silkit, errorString)

/-- What the user of the C++ API gets for an exception inside the library. -/
def errorThroughC (errorString : String) (e : Exn) (text : String) : Option (Exn × String) :=
  thrown (caught errorString e text).1 (caught errorString e text).2

/-! ## Structure headers -/

/-- `SK_ID_MAKE`, include/silkit/capi/InterfaceIdentifiers.h:45-49. -/
def makeId (service datatype version : Nat) : Nat :=
  (83 <<< 56) ||| (75 <<< 48) ||| ((service &&& 0xff) <<< 40) ||| ((datatype &&& 0xff) <<< 32) ||| ((version &&& 0xff) <<< 24)

/-- InterfaceIdentifiers.h:39, 41, 43. -/
def idService (id : Nat) : Nat := (id >>> 40) &&& 0xff
def idDatatype (id : Nat) : Nat := (id >>> 32) &&& 0xff
def idVersion (id : Nat) : Nat := (id >>> 24) &&& 0xff

/-- `SK_ID_IS_VALID`, InterfaceIdentifiers.h:51-54. -/
def validId (id : Nat) : Bool :=
  decide (idService id > 0 ∧ idService id < 9 ∧ idDatatype id ≠ 0 ∧ idVersion id ≠ 0 ∧ (id >>> 56) &&& 0xff = 83 ∧ (id >>> 48) &&& 0xff = 75)

/-- The structures of the C interface (without those of the network simulator): service, data type and version, InterfaceIdentifiers.h:70-254. -/
inductive Struct
  | canFrame | canFrameTransmitEvent | canFrameEvent | canStateChangeEvent | canErrorStateChangeEvent
  | ethernetFrameEvent | ethernetFrameTransmitEvent | ethernetStateChangeEvent | ethernetBitrateChangeEvent | ethernetFrame
  | flexrayFrameEvent | flexrayFrameTransmitEvent | flexraySymbolEvent | flexraySymbolTransmitEvent | flexrayCycleStartEvent
  | flexrayPocStatusEvent | flexrayWakeupEvent | flexrayControllerConfig | flexrayClusterParameters | flexrayNodeParameters
  | flexrayHostCommand | flexrayHeader | flexrayFrame | flexrayTxBufferConfig | flexrayTxBufferUpdate
  | linFrame | linFrameResponse | linControllerConfig | linFrameStatusEvent | linGoToSleepEvent | linWakeupEvent
  | linSlaveConfigurationEvent | linSlaveConfiguration | linControllerDynamicConfig | linFrameHeaderEvent | linSendFrameHeaderRequest
  | dataMessageEvent | dataSpec | rpcCallEvent | rpcCallResultEvent | rpcSpec
  | participantStatus | lifecycleConfiguration | workflowConfiguration | participantConnectionInformation
deriving Repr, DecidableEq

def structId : Struct → Nat
  | .canFrame => makeId 1 1 1 | .canFrameTransmitEvent => makeId 1 2 2 | .canFrameEvent => makeId 1 3 1
  | .canStateChangeEvent => makeId 1 4 1 | .canErrorStateChangeEvent => makeId 1 5 1
  | .ethernetFrameEvent => makeId 2 1 1 | .ethernetFrameTransmitEvent => makeId 2 2 1 | .ethernetStateChangeEvent => makeId 2 3 1
  | .ethernetBitrateChangeEvent => makeId 2 4 1 | .ethernetFrame => makeId 2 5 1
  | .flexrayFrameEvent => makeId 3 1 1 | .flexrayFrameTransmitEvent => makeId 3 2 1 | .flexraySymbolEvent => makeId 3 3 1
  | .flexraySymbolTransmitEvent => makeId 3 5 1 | .flexrayCycleStartEvent => makeId 3 6 1 | .flexrayPocStatusEvent => makeId 3 7 1
  | .flexrayWakeupEvent => makeId 3 8 1 | .flexrayControllerConfig => makeId 3 9 1 | .flexrayClusterParameters => makeId 3 10 1
  | .flexrayNodeParameters => makeId 3 11 2 | .flexrayHostCommand => makeId 3 12 1 | .flexrayHeader => makeId 3 13 1
  | .flexrayFrame => makeId 3 14 1 | .flexrayTxBufferConfig => makeId 3 15 1 | .flexrayTxBufferUpdate => makeId 3 16 1
  | .linFrame => makeId 4 1 1 | .linFrameResponse => makeId 4 2 1 | .linControllerConfig => makeId 4 3 1
  | .linFrameStatusEvent => makeId 4 4 1 | .linGoToSleepEvent => makeId 4 5 1 | .linWakeupEvent => makeId 4 6 1
  | .linSlaveConfigurationEvent => makeId 4 7 1 | .linSlaveConfiguration => makeId 4 8 1 | .linControllerDynamicConfig => makeId 4 9 1
  | .linFrameHeaderEvent => makeId 4 10 1 | .linSendFrameHeaderRequest => makeId 4 11 1
  | .dataMessageEvent => makeId 5 1 1 | .dataSpec => makeId 5 2 1
  | .rpcCallEvent => makeId 6 1 1 | .rpcCallResultEvent => makeId 6 2 1 | .rpcSpec => makeId 6 3 1
  | .participantStatus => makeId 7 1 1 | .lifecycleConfiguration => makeId 7 2 1 | .workflowConfiguration => makeId 7 3 3
  | .participantConnectionInformation => makeId 7 4 1

/-! ## Timestamps, bytes, strings -/

/-- `timestamp.count()` (`int64_t`) given to a `SilKit_NanosecondsTime` (`uint64_t`, Types.h:56). -/
def toCount (t : Int) : Nat := (t % 2 ^ 64).toNat

/-- `std::chrono::nanoseconds{…}` of a `uint64_t`: the representation is `int64_t`. -/
def toNanoseconds (u : Nat) : Int := if u < 2 ^ 63 then u else (u : Int) - 2 ^ 64

abbrev Bytes := List (BitVec 8)

/-- `SilKit_ByteVector`: whether the pointer is null, and the bytes it points to. -/
structure ByteVector where
  null : Bool
  bytes : Bytes
deriving Repr, DecidableEq

/-- util/Span.hpp:344-347. -/
def toByteVector (s : Bytes) : ByteVector := ⟨s.isEmpty, s⟩

/-- util/Span.hpp:339-342. -/
def toSpan (v : ByteVector) : Bytes := v.bytes

/-- `payload.size = (uint32_t)msg.frame.payload.size()`, CapiFlexray.cpp:260, 317. -/
def toByteVector32 (s : Bytes) : ByteVector := ⟨s.isEmpty, s.take (s.length % 2 ^ 32)⟩

/-- A `std::string` given as `c_str()` and made into a `std::string` again: it ends at the first zero byte. -/
def cString (s : Bytes) : Bytes := s.takeWhile (fun b => b != 0)

/-- `bool` and `SilKit_Bool` (`uint8_t`, Types.h:101-103). -/
def ofBool (b : Bool) : BitVec 8 := if b then 1 else 0
def toBool (b : BitVec 8) : Bool := b != 0

/-! ## The C++ values -/

/-- services/can/CanDatatypes.hpp. -/
structure CanFrame where
  canId : BitVec 32
  flags : BitVec 32
  dlc : BitVec 16
  sdt : BitVec 8
  vcid : BitVec 8
  af : BitVec 32
  dataField : Bytes
deriving Repr, DecidableEq

/-- services/lin/LinDatatypes.hpp. -/
structure LinFrame where
  id : BitVec 8
  checksumModel : BitVec 8
  dataLength : BitVec 8
  /-- `std::array<uint8_t, 8>`. -/
  data : Vector (BitVec 8) 8
deriving Repr, DecidableEq

structure LinFrameResponse where
  frame : LinFrame
  responseMode : BitVec 8
deriving Repr, DecidableEq

structure LinControllerConfig where
  controllerMode : BitVec 8
  baudRate : BitVec 32
  frameResponses : List LinFrameResponse
deriving Repr, DecidableEq

/-- services/flexray/FlexrayDatatypes.hpp. The values of type `FlexrayMicroTick` are signed. -/
structure FlexrayClusterParameters where
  gColdstartAttempts : BitVec 8
  gCycleCountMax : BitVec 8
  gdActionPointOffset : BitVec 16
  gdDynamicSlotIdlePhase : BitVec 16
  gdMiniSlot : BitVec 16
  gdMiniSlotActionPointOffset : BitVec 16
  gdStaticSlot : BitVec 16
  gdSymbolWindow : BitVec 16
  gdSymbolWindowActionPointOffset : BitVec 16
  gdTSSTransmitter : BitVec 16
  gdWakeupTxActive : BitVec 16
  gdWakeupTxIdle : BitVec 16
  gListenNoise : BitVec 8
  gMacroPerCycle : BitVec 16
  gMaxWithoutClockCorrectionFatal : BitVec 8
  gMaxWithoutClockCorrectionPassive : BitVec 8
  gNumberOfMiniSlots : BitVec 16
  gNumberOfStaticSlots : BitVec 16
  gPayloadLengthStatic : BitVec 16
  gSyncFrameIDCountMax : BitVec 8
deriving Repr, DecidableEq

structure FlexrayNodeParameters where
  pAllowHaltDueToClock : BitVec 8
  pAllowPassiveToActive : BitVec 8
  pChannels : BitVec 32
  pClusterDriftDamping : BitVec 8
  pdAcceptedStartupRange : BitVec 32
  pdListenTimeout : BitVec 32
  pKeySlotId : BitVec 16
  pKeySlotOnlyEnabled : BitVec 8
  pKeySlotUsedForStartup : BitVec 8
  pKeySlotUsedForSync : BitVec 8
  pLatestTx : BitVec 16
  pMacroInitialOffsetA : BitVec 8
  pMacroInitialOffsetB : BitVec 8
  pMicroInitialOffsetA : BitVec 32
  pMicroInitialOffsetB : BitVec 32
  pMicroPerCycle : BitVec 32
  pOffsetCorrectionOut : BitVec 32
  pOffsetCorrectionStart : BitVec 16
  pRateCorrectionOut : BitVec 32
  pWakeupChannel : BitVec 32
  pWakeupPattern : BitVec 8
  pdMicrotick : BitVec 32
  pSamplesPerMicrotick : BitVec 8
  pSecondKeySlotId : BitVec 16
  pTwoKeySlotMode : BitVec 8
deriving Repr, DecidableEq

structure FlexrayTxBufferConfig where
  channels : BitVec 32
  slotId : BitVec 16
  offset : BitVec 8
  repetition : BitVec 8
  hasPayloadPreambleIndicator : Bool
  headerCrc : BitVec 16
  transmissionMode : BitVec 8
deriving Repr, DecidableEq

structure FlexrayControllerConfig where
  clusterParams : FlexrayClusterParameters
  nodeParams : FlexrayNodeParameters
  bufferConfigs : List FlexrayTxBufferConfig
deriving Repr, DecidableEq

structure FlexrayTxBufferUpdate where
  txBufferIndex : BitVec 16
  payloadDataValid : Bool
  payload : Bytes
deriving Repr, DecidableEq

structure FlexrayHeader where
  flags : BitVec 8
  frameId : BitVec 16
  payloadLength : BitVec 8
  headerCrc : BitVec 16
  cycleCount : BitVec 8
deriving Repr, DecidableEq

structure FlexrayFrame where
  header : FlexrayHeader
  payload : Bytes
deriving Repr, DecidableEq

structure PocStatus where
  state : BitVec 8
  chiHaltRequest : Bool
  coldstartNoise : Bool
  freeze : Bool
  chiReadyRequest : Bool
  errorMode : BitVec 8
  slotMode : BitVec 8
  startupState : BitVec 8
  wakeupStatus : BitVec 8
deriving Repr, DecidableEq

/-- services/datatypes.hpp:35-53. -/
structure Label where
  key : Bytes
  value : Bytes
  kind : BitVec 32
deriving Repr, DecidableEq

/-- `PubSubSpec` and `RpcSpec`: topic or function name, media type, labels. -/
structure Spec where
  name : Bytes
  mediaType : Bytes
  labels : List Label
deriving Repr, DecidableEq

/-- services/orchestration/OrchestrationDatatypes.hpp. -/
structure ParticipantStatus where
  participantName : Bytes
  state : BitVec 16
  enterReason : Bytes
  enterTime : Int
  refreshTime : Int
deriving Repr, DecidableEq

inductive FlexrayCommand
  | run | deferredHalt | freeze | allowColdstart | allSlots | wakeup
deriving Repr, DecidableEq

/-- The events of the services, with the values the handlers get. -/
inductive Event
  | canFrame (timestamp : Int) (frame : CanFrame) (direction : BitVec 8) (userContext : Nat)
  | canFrameTransmit (canId : BitVec 32) (timestamp : Int) (status : BitVec 32) (userContext : Nat)
  | canStateChange (timestamp : Int) (state : BitVec 32)
  | canErrorStateChange (timestamp : Int) (state : BitVec 32)
  | ethFrame (timestamp : Int) (raw : Bytes) (direction : BitVec 8) (userContext : Nat)
  | ethFrameTransmit (timestamp : Int) (status : BitVec 32) (userContext : Nat)
  | ethStateChange (timestamp : Int) (state : BitVec 32)
  | ethBitrateChange (timestamp : Int) (bitrate : BitVec 32)
  | linFrameStatus (timestamp : Int) (frame : LinFrame) (status : BitVec 8)
  | linGoToSleep (timestamp : Int)
  | linWakeup (timestamp : Int) (direction : BitVec 8)
  | linSlaveConfiguration (timestamp : Int)
  | linFrameHeader (timestamp : Int) (id : BitVec 8)
  | frFrame (timestamp : Int) (channel : BitVec 32) (frame : FlexrayFrame)
  | frFrameTransmit (timestamp : Int) (txBufferIndex : BitVec 16) (channel : BitVec 32) (frame : FlexrayFrame)
  | frWakeup (timestamp : Int) (channel : BitVec 32) (pattern : BitVec 8)
  | frSymbol (timestamp : Int) (channel : BitVec 32) (pattern : BitVec 8)
  | frSymbolTransmit (timestamp : Int) (channel : BitVec 32) (pattern : BitVec 8)
  | frPocStatus (timestamp : Int) (status : PocStatus)
  | frCycleStart (timestamp : Int) (cycleCounter : BitVec 8)
  | dataMessage (timestamp : Int) (data : Bytes)
  | rpcCall (timestamp : Int) (callHandle : Nat) (argumentData : Bytes)
  | rpcCallResult (timestamp : Int) (userContext : Nat) (callStatus : BitVec 32) (resultData : Bytes)
  | participantStatus (status : ParticipantStatus)
  | systemState (state : BitVec 16)
  | simulationStep (now duration : Int)
deriving Repr, DecidableEq

/-! ## Events packed into C structures -/

structure CCanFrame where
  header : Nat
  id : BitVec 32
  flags : BitVec 32
  dlc : BitVec 16
  sdt : BitVec 8
  vcid : BitVec 8
  af : BitVec 32
  data : ByteVector
deriving Repr, DecidableEq

structure CLinFrame where
  /-- `none`: whatever was in memory. -/
  header : Option Nat
  id : BitVec 8
  checksumModel : BitVec 8
  dataLength : BitVec 8
  data : Vector (BitVec 8) 8
deriving Repr, DecidableEq

structure CFlexrayHeader where
  header : Nat
  flags : BitVec 8
  frameId : BitVec 16
  payloadLength : BitVec 8
  headerCrc : BitVec 16
  cycleCount : BitVec 8
deriving Repr, DecidableEq

structure CFlexrayFrame where
  header : Nat
  frameHeader : CFlexrayHeader
  payload : ByteVector
deriving Repr, DecidableEq

structure CPocStatus where
  state : BitVec 8
  chiHaltRequest : BitVec 8
  coldstartNoise : BitVec 8
  freeze : BitVec 8
  chiReadyRequest : BitVec 8
  errorMode : BitVec 8
  slotMode : BitVec 8
  startupState : BitVec 8
  wakeupStatus : BitVec 8
deriving Repr, DecidableEq

/-- The C structures of the events; `header` is the identifier in the structure header. The pointers inside are replaced by what they point to (local
variables of the function that calls the handler). -/
inductive CEvent
  | canFrame (header : Nat) (timestamp : Nat) (frame : CCanFrame) (direction : BitVec 8) (userContext : Nat)
  | canFrameTransmit (header : Nat) (userContext : Nat) (timestamp : Nat) (status : BitVec 32) (canId : BitVec 32)
  | canStateChange (header : Nat) (timestamp : Nat) (state : BitVec 32)
  | canErrorStateChange (header : Nat) (timestamp : Nat) (state : BitVec 32)
  | ethFrame (header : Nat) (timestamp : Nat) (frameHeader : Nat) (raw : ByteVector) (direction : BitVec 8) (userContext : Nat)
  | ethFrameTransmit (header : Nat) (userContext : Nat) (timestamp : Nat) (status : BitVec 32)
  | ethStateChange (header : Nat) (timestamp : Nat) (state : BitVec 32)
  | ethBitrateChange (header : Nat) (timestamp : Nat) (bitrate : BitVec 32)
  | linFrameStatus (header : Nat) (timestamp : Nat) (frame : CLinFrame) (status : BitVec 8)
  | linGoToSleep (header : Nat) (timestamp : Nat)
  | linWakeup (header : Nat) (timestamp : Nat) (direction : BitVec 8)
  | linSlaveConfiguration (header : Nat) (timestamp : Nat)
  | linFrameHeader (header : Nat) (timestamp : Nat) (id : BitVec 8)
  | frFrame (header : Nat) (timestamp : Nat) (channel : BitVec 32) (frame : CFlexrayFrame)
  | frFrameTransmit (header : Nat) (timestamp : Nat) (txBufferIndex : BitVec 16) (channel : BitVec 32) (frame : CFlexrayFrame)
  | frWakeup (header : Nat) (timestamp : Nat) (channel : BitVec 32) (pattern : BitVec 8)
  | frSymbol (header : Nat) (timestamp : Nat) (channel : BitVec 32) (pattern : BitVec 8)
  | frSymbolTransmit (header : Nat) (timestamp : Nat) (channel : BitVec 32) (pattern : BitVec 8)
  | frPocStatus (header : Nat) (timestamp : Nat) (status : CPocStatus)
  | frCycleStart (header : Nat) (timestamp : Nat) (cycleCounter : BitVec 8)
  | dataMessage (header : Nat) (timestamp : Nat) (data : ByteVector)
  | rpcCall (header : Nat) (timestamp : Nat) (callHandle : Nat) (argumentData : ByteVector)
  | rpcCallResult (header : Nat) (timestamp : Nat) (userContext : Nat) (callStatus : BitVec 32) (resultData : ByteVector)
  | participantStatus (header : Nat) (enterReason : Bytes) (enterTime : Nat) (participantName : Bytes) (state : BitVec 16) (refreshTime : Nat)
  | systemState (state : BitVec 16)
  | simulationStep (now duration : Nat)
deriving Repr, DecidableEq

/-- CapiCan.cpp:46-58. -/
def packCanFrame (x : CanFrame) : CCanFrame :=
  { header := structId .canFrame, id := x.canId, flags := x.flags, dlc := x.dlc, sdt := x.sdt, vcid := x.vcid, af := x.af
    data := toByteVector x.dataField }

/-- CanController.hpp:162-169. -/
def unpackCanFrame (x : CCanFrame) : CanFrame :=
  { canId := x.id, flags := x.flags, dlc := x.dlc, sdt := x.sdt, vcid := x.vcid, af := x.af, dataField := toSpan x.data }

/-- CapiLin.cpp:268-272: without structure header. -/
def packLinFrame (x : LinFrame) : CLinFrame :=
  { header := none, id := x.id, checksumModel := x.checksumModel, dataLength := x.dataLength, data := x.data }

/-- LinController.hpp:257-261. -/
def unpackLinFrame (x : CLinFrame) : LinFrame :=
  { id := x.id, checksumModel := x.checksumModel, dataLength := x.dataLength, data := x.data }

/-- CapiFlexray.cpp:249-260, 306-318. -/
def packFlexrayFrame (x : FlexrayFrame) : CFlexrayFrame :=
  { header := structId .flexrayFrame
    frameHeader :=
      { header := structId .flexrayHeader, cycleCount := x.header.cycleCount, frameId := x.header.frameId, flags := x.header.flags
        headerCrc := x.header.headerCrc, payloadLength := x.header.payloadLength }
    payload := toByteVector32 x.payload }

/-- FlexrayController.hpp:240-241, 279-280, `CToCxx` 597-604. -/
def unpackFlexrayFrame (x : CFlexrayFrame) : FlexrayFrame :=
  { header :=
      { cycleCount := x.frameHeader.cycleCount, flags := x.frameHeader.flags, frameId := x.frameHeader.frameId
        headerCrc := x.frameHeader.headerCrc, payloadLength := x.frameHeader.payloadLength }
    payload := toSpan x.payload }

/-- CapiFlexray.cpp:400-408. -/
def packPocStatus (x : PocStatus) : CPocStatus :=
  { state := x.state, chiHaltRequest := ofBool x.chiHaltRequest, coldstartNoise := ofBool x.coldstartNoise, freeze := ofBool x.freeze
    chiReadyRequest := ofBool x.chiReadyRequest, errorMode := x.errorMode, slotMode := x.slotMode, startupState := x.startupState
    wakeupStatus := x.wakeupStatus }

/-- FlexrayController.hpp:358-366. -/
def unpackPocStatus (x : CPocStatus) : PocStatus :=
  { state := x.state, chiHaltRequest := toBool x.chiHaltRequest, chiReadyRequest := toBool x.chiReadyRequest
    coldstartNoise := toBool x.coldstartNoise, errorMode := x.errorMode, freeze := toBool x.freeze, slotMode := x.slotMode
    startupState := x.startupState, wakeupStatus := x.wakeupStatus }

/-- What a handler given to the C interface gets: CapiCan.cpp:46-66, 99-108, 139-146, 176-184, CapiEthernet.cpp:72-85, 125-128, 164-166, 203-205,
CapiLin.cpp:265-280, 314-315, 349-351, 388-389, 440-442, CapiFlexray.cpp:243-268, 298-325, 354-362, 394-408, 440-447, 478-485, 517-523,
CapiDataPubSub.cpp:66-75, CapiRpc.cpp:30-36, 45-50, CapiOrchestration.cpp:562-575, 530-540, 376-378. -/
def pack : Event → CEvent
  | .canFrame t f d u => .canFrame (structId .canFrameEvent) (toCount t) (packCanFrame f) d u
  | .canFrameTransmit i t s u => .canFrameTransmit (structId .canFrameTransmitEvent) u (toCount t) s i
  | .canStateChange t s => .canStateChange (structId .canStateChangeEvent) (toCount t) s
  | .canErrorStateChange t s => .canErrorStateChange (structId .canErrorStateChangeEvent) (toCount t) s
  | .ethFrame t r d u => .ethFrame (structId .ethernetFrameEvent) (toCount t) (structId .ethernetFrame) (toByteVector r) d u
  | .ethFrameTransmit t s u => .ethFrameTransmit (structId .ethernetFrameTransmitEvent) u (toCount t) s
  | .ethStateChange t s => .ethStateChange (structId .ethernetStateChangeEvent) (toCount t) s
  | .ethBitrateChange t b => .ethBitrateChange (structId .ethernetBitrateChangeEvent) (toCount t) b
  | .linFrameStatus t f s => .linFrameStatus (structId .linFrameStatusEvent) (toCount t) (packLinFrame f) s
  | .linGoToSleep t => .linGoToSleep (structId .linGoToSleepEvent) (toCount t)
  | .linWakeup t d => .linWakeup (structId .linWakeupEvent) (toCount t) d
  | .linSlaveConfiguration t => .linSlaveConfiguration (structId .linSlaveConfigurationEvent) (toCount t)
  -- initialised as a `SilKit_LinWakeupEvent`, CapiLin.cpp:440
  | .linFrameHeader t i => .linFrameHeader (structId .linWakeupEvent) (toCount t) i
  | .frFrame t c f => .frFrame (structId .flexrayFrameEvent) (toCount t) c (packFlexrayFrame f)
  -- initialised as a `SilKit_FlexrayFrameEvent`, CapiFlexray.cpp:305
  | .frFrameTransmit t b c f => .frFrameTransmit (structId .flexrayFrameEvent) (toCount t) b c (packFlexrayFrame f)
  | .frWakeup t c p => .frWakeup (structId .flexrayWakeupEvent) (toCount t) c p
  | .frSymbol t c p => .frSymbol (structId .flexraySymbolEvent) (toCount t) c p
  | .frSymbolTransmit t c p => .frSymbolTransmit (structId .flexraySymbolTransmitEvent) (toCount t) c p
  | .frPocStatus t s => .frPocStatus (structId .flexrayPocStatusEvent) (toCount t) (packPocStatus s)
  | .frCycleStart t c => .frCycleStart (structId .flexrayCycleStartEvent) (toCount t) c
  | .dataMessage t d => .dataMessage (structId .dataMessageEvent) (toCount t) (toByteVector d)
  | .rpcCall t h d => .rpcCall (structId .rpcCallEvent) (toCount t) h (toByteVector d)
  | .rpcCallResult t u s d => .rpcCallResult (structId .rpcCallResultEvent) (toCount t) u s (toByteVector d)
  | .participantStatus s =>
      .participantStatus (structId .participantStatus) (cString s.enterReason) (toCount s.enterTime) (cString s.participantName) s.state
        (toCount s.refreshTime)
  | .systemState s => .systemState s
  | .simulationStep n d => .simulationStep (toCount n) (toCount d)

/-- What a handler given to the C++ API gets: CanController.hpp:157-173, 202-212, 240-250, 279-295, EthernetController.hpp:120-123, 162-164, 202-203, 240-241,
LinController.hpp:250-265, 301-303, 338-341, 370-378, 445-455, FlexrayController.hpp:235-241, 275-281, 316-320, 355-366, 401-405, 440-444, 479-482,
DataSubscriber.hpp:106-117, RpcServer.hpp:121-132, RpcClient.hpp:128-141, SystemMonitor.hpp:140-157, 108-113, TimeSyncService.hpp:92-98. -/
def unpack : CEvent → Event
  | .canFrame _ t f d u => .canFrame (toNanoseconds t) (unpackCanFrame f) d u
  | .canFrameTransmit h u t s i => .canFrameTransmit (if idVersion h ≥ 2 then i else 0) (toNanoseconds t) s u
  | .canStateChange _ t s => .canStateChange (toNanoseconds t) s
  | .canErrorStateChange _ t s => .canErrorStateChange (toNanoseconds t) s
  | .ethFrame _ t _ r d u => .ethFrame (toNanoseconds t) (toSpan r) d u
  | .ethFrameTransmit _ u t s => .ethFrameTransmit (toNanoseconds t) s u
  | .ethStateChange _ t s => .ethStateChange (toNanoseconds t) s
  | .ethBitrateChange _ t b => .ethBitrateChange (toNanoseconds t) b
  | .linFrameStatus _ t f s => .linFrameStatus (toNanoseconds t) (unpackLinFrame f) s
  | .linGoToSleep _ t => .linGoToSleep (toNanoseconds t)
  | .linWakeup _ t d => .linWakeup (toNanoseconds t) d
  | .linSlaveConfiguration _ t => .linSlaveConfiguration (toNanoseconds t)
  | .linFrameHeader _ t i => .linFrameHeader (toNanoseconds t) i
  | .frFrame _ t c f => .frFrame (toNanoseconds t) c (unpackFlexrayFrame f)
  | .frFrameTransmit _ t b c f => .frFrameTransmit (toNanoseconds t) b c (unpackFlexrayFrame f)
  | .frWakeup _ t c p => .frWakeup (toNanoseconds t) c p
  | .frSymbol _ t c p => .frSymbol (toNanoseconds t) c p
  | .frSymbolTransmit _ t c p => .frSymbolTransmit (toNanoseconds t) c p
  | .frPocStatus _ t s => .frPocStatus (toNanoseconds t) (unpackPocStatus s)
  | .frCycleStart _ t c => .frCycleStart (toNanoseconds t) c
  | .dataMessage _ t d => .dataMessage (toNanoseconds t) (toSpan d)
  | .rpcCall _ t h d => .rpcCall (toNanoseconds t) h (toSpan d)
  | .rpcCallResult _ t u s d => .rpcCallResult (toNanoseconds t) u s (toSpan d)
  -- both times from `enterTime`, SystemMonitor.hpp:150-153
  | .participantStatus _ r e n s _ =>
      .participantStatus { participantName := n, state := s, enterReason := r, enterTime := toNanoseconds e, refreshTime := toNanoseconds e }
  | .systemState s => .systemState s
  | .simulationStep n d => .simulationStep (toNanoseconds n) (toNanoseconds d)

/-- The query `ParticipantStatus`: CapiOrchestration.cpp:481-492, SystemMonitor.hpp:193-226. -/
def queryStatus (s : ParticipantStatus) : ParticipantStatus :=
  let enter := toCount s.enterTime
  let refresh := toCount s.refreshTime
  { participantName := cString s.participantName, state := s.state, enterReason := cString s.enterReason, enterTime := toNanoseconds enter
    refreshTime := toNanoseconds refresh }

/-! ## Commands -/

/-- The calls with values. -/
inductive Command
  | canSetBaudRate (rate fdRate xlRate : BitVec 32)
  | canSendFrame (frame : CanFrame) (userContext : Nat)
  | ethSendFrame (raw : Bytes) (userContext : Nat)
  | linInit (config : LinControllerConfig)
  | linSendFrame (frame : LinFrame) (responseType : BitVec 8)
  | linSendFrameHeader (id : BitVec 8)
  | linUpdateTxBuffer (frame : LinFrame)
  | linSetFrameResponse (response : LinFrameResponse)
  | linInitDynamic (controllerMode : BitVec 8) (baudRate : BitVec 32)
  | frConfigure (config : FlexrayControllerConfig)
  | frReconfigureTxBuffer (index : BitVec 16) (config : FlexrayTxBufferConfig)
  | frUpdateTxBuffer (update : FlexrayTxBufferUpdate)
  | frCommand (c : FlexrayCommand)
  | createDataPublisher (name : Bytes) (spec : Spec) (history : BitVec 8)
  | createDataSubscriber (name : Bytes) (spec : Spec)
  | publish (data : Bytes)
  | createRpcClient (name : Bytes) (spec : Spec)
  | createRpcServer (name : Bytes) (spec : Spec)
  | rpcCall (data : Bytes) (userContext : Nat)
  | rpcCallWithTimeout (data : Bytes) (timeout : Int) (userContext : Nat)
  | rpcSubmitResult (callHandle : Nat) (data : Bytes)
  | setSimulationStepHandler (initialStepSize : Int)
  | setWorkflowConfiguration (requiredParticipantNames : List Bytes)
deriving Repr, DecidableEq

/-- What happens to a call: the service is given a call, the C function returns an error, or undefined behaviour. -/
inductive Result
  | given (c : Command)
  | refused (c : Code)
  | undefined
deriving Repr, DecidableEq

/-- CanController.hpp:140-148. -/
def cCanFrame (x : CanFrame) : CCanFrame :=
  { header := structId .canFrame, id := x.canId, flags := x.flags, dlc := x.dlc, sdt := x.sdt, vcid := x.vcid, af := x.af
    data := toByteVector x.dataField }

/-- `SilKit_CanController_SendFrame`, CapiCan.cpp:217-239. -/
def canSendFrame (x : CCanFrame) (u : Nat) : Result :=
  if validId x.header then
    .given (.canSendFrame { canId := x.id, flags := x.flags, dlc := x.dlc, sdt := x.sdt, vcid := x.vcid, af := x.af, dataField := toSpan x.data } u)
  else .refused .badParameter

/-- `CxxToC`, LinController.hpp:490-503; the lambda in `Init` does the same, 147-153. -/
def cLinFrame (x : LinFrame) : CLinFrame :=
  { header := some (structId .linFrame), id := x.id, checksumModel := x.checksumModel, dataLength := x.dataLength, data := x.data }

/-- `assign`, CapiLin.cpp:19-25. -/
def assignLinFrame (x : CLinFrame) : LinFrame :=
  { id := x.id, checksumModel := x.checksumModel, dataLength := x.dataLength, data := x.data }

/-- A `std::vector` as far as pointers to its elements are concerned: `buffer` is the number of the array that holds the elements; it is a new one if the
capacity does not suffice. -/
structure Vec (α : Type) where
  buffer : Nat := 0
  capacity : Nat := 0
  elements : List α := []

def Vec.reserve (v : Vec α) (n : Nat) : Vec α := if n ≤ v.capacity then v else { v with buffer := v.buffer + 1, capacity := n }

/-- The growth is implementation-defined; here the capacity is doubled. -/
def Vec.push (v : Vec α) (x : α) : Vec α :=
  if v.elements.length < v.capacity then { v with elements := v.elements ++ [x] }
  else { buffer := v.buffer + 1, capacity := 2 * v.capacity + 1, elements := v.elements ++ [x] }

/-- A pointer to an element: the array and the position. -/
abbrev Pointer := Nat × Nat

def Vec.back (v : Vec α) : Pointer := (v.buffer, v.elements.length - 1)

/-- Dereferencing a pointer into an array that is gone is undefined behaviour. -/
def Vec.deref (v : Vec α) (p : Pointer) : Option α := if p.1 = v.buffer then v.elements[p.2]? else none

/-- One step of the `std::transform` in `LinController::Init`, LinController.hpp:146-159: the vector of frames and the responses so far, each a pointer to a
frame and a mode. -/
def packResponse (s : Vec CLinFrame × List (Pointer × BitVec 8)) (r : LinFrameResponse) : Vec CLinFrame × List (Pointer × BitVec 8) :=
  let frames := s.1.push (cLinFrame r.frame)
  (frames, s.2 ++ [(frames.back, r.responseMode)])

/-- LinController.hpp:141-160. -/
def packResponses (l : List LinFrameResponse) : Vec CLinFrame × List (Pointer × BitVec 8) :=
  l.foldl packResponse (Vec.reserve {} l.length, [])

/-- `assign`, CapiLin.cpp:27-45: the frame behind each pointer is read. -/
def assignResponse (frames : Vec CLinFrame) (r : Pointer × BitVec 8) : Option LinFrameResponse :=
  match frames.deref r.1 with
  | some f => some { frame := assignLinFrame f, responseMode := r.2 }
  | none => none

def assignResponses (frames : Vec CLinFrame) : List (Pointer × BitVec 8) → Option (List LinFrameResponse)
  | [] => some []
  | r :: rest => match assignResponse frames r, assignResponses frames rest with
    | some x, some xs => some (x :: xs)
    | _, _ => none

/-- LinController.hpp:139-172 with CapiLin.cpp:95-108, 47-52. -/
def linInit (x : LinControllerConfig) : Result :=
  let p := packResponses x.frameResponses
  if validId (structId .linControllerConfig) then
    match assignResponses p.1 p.2 with
    | some l => .given (.linInit { controllerMode := x.controllerMode, baudRate := x.baudRate, frameResponses := l })
    | none => .undefined
  else .refused .badParameter

structure CFlexrayClusterParameters where
  header : Nat
  gColdstartAttempts : BitVec 8
  gCycleCountMax : BitVec 8
  gdActionPointOffset : BitVec 16
  gdDynamicSlotIdlePhase : BitVec 16
  gdMiniSlot : BitVec 16
  gdMiniSlotActionPointOffset : BitVec 16
  gdStaticSlot : BitVec 16
  gdSymbolWindow : BitVec 16
  gdSymbolWindowActionPointOffset : BitVec 16
  gdTSSTransmitter : BitVec 16
  gdWakeupTxActive : BitVec 16
  gdWakeupTxIdle : BitVec 16
  gListenNoise : BitVec 8
  gMacroPerCycle : BitVec 16
  gMaxWithoutClockCorrectionFatal : BitVec 8
  gMaxWithoutClockCorrectionPassive : BitVec 8
  gNumberOfMiniSlots : BitVec 16
  gNumberOfStaticSlots : BitVec 16
  gPayloadLengthStatic : BitVec 16
  gSyncFrameIDCountMax : BitVec 8
deriving Repr, DecidableEq

structure CFlexrayNodeParameters where
  header : Nat
  pAllowHaltDueToClock : BitVec 8
  pAllowPassiveToActive : BitVec 8
  pChannels : BitVec 32
  pClusterDriftDamping : BitVec 8
  pdAcceptedStartupRange : BitVec 32
  pdListenTimeout : BitVec 32
  pKeySlotId : BitVec 16
  pKeySlotOnlyEnabled : BitVec 8
  pKeySlotUsedForStartup : BitVec 8
  pKeySlotUsedForSync : BitVec 8
  pLatestTx : BitVec 16
  pMacroInitialOffsetA : BitVec 8
  pMacroInitialOffsetB : BitVec 8
  pMicroInitialOffsetA : BitVec 32
  pMicroInitialOffsetB : BitVec 32
  pMicroPerCycle : BitVec 32
  pOffsetCorrectionOut : BitVec 32
  pOffsetCorrectionStart : BitVec 16
  pRateCorrectionOut : BitVec 32
  pWakeupChannel : BitVec 32
  pWakeupPattern : BitVec 8
  pdMicrotick : BitVec 32
  pSamplesPerMicrotick : BitVec 8
  pSecondKeySlotId : BitVec 16
  pTwoKeySlotMode : BitVec 8
deriving Repr, DecidableEq

structure CFlexrayTxBufferConfig where
  header : Nat
  channels : BitVec 32
  slotId : BitVec 16
  offset : BitVec 8
  repetition : BitVec 8
  hasPayloadPreambleIndicator : BitVec 8
  headerCrc : BitVec 16
  transmissionMode : BitVec 8
deriving Repr, DecidableEq

/-- `CxxToC`, FlexrayController.hpp:514-541. -/
def cClusterParameters (x : FlexrayClusterParameters) : CFlexrayClusterParameters :=
  { header := structId .flexrayClusterParameters
    gColdstartAttempts := x.gColdstartAttempts
    gCycleCountMax := x.gCycleCountMax
    gdActionPointOffset := x.gdActionPointOffset
    gdDynamicSlotIdlePhase := x.gdDynamicSlotIdlePhase
    gdMiniSlot := x.gdMiniSlot
    gdMiniSlotActionPointOffset := x.gdMiniSlotActionPointOffset
    gdStaticSlot := x.gdStaticSlot
    gdSymbolWindow := x.gdSymbolWindow
    gdSymbolWindowActionPointOffset := x.gdSymbolWindowActionPointOffset
    gdTSSTransmitter := x.gdTSSTransmitter
    gdWakeupTxActive := x.gdWakeupTxActive
    gdWakeupTxIdle := x.gdWakeupTxIdle
    gListenNoise := x.gListenNoise
    gMacroPerCycle := x.gMacroPerCycle
    gMaxWithoutClockCorrectionFatal := x.gMaxWithoutClockCorrectionFatal
    gMaxWithoutClockCorrectionPassive := x.gMaxWithoutClockCorrectionPassive
    gNumberOfMiniSlots := x.gNumberOfMiniSlots
    gNumberOfStaticSlots := x.gNumberOfStaticSlots
    gPayloadLengthStatic := x.gPayloadLengthStatic
    gSyncFrameIDCountMax := x.gSyncFrameIDCountMax }

/-- `CxxToC`, FlexrayController.hpp:543-572. -/
def cNodeParameters (x : FlexrayNodeParameters) : CFlexrayNodeParameters :=
  { header := structId .flexrayNodeParameters
    pAllowHaltDueToClock := x.pAllowHaltDueToClock
    pAllowPassiveToActive := x.pAllowPassiveToActive
    pChannels := x.pChannels
    pClusterDriftDamping := x.pClusterDriftDamping
    pdAcceptedStartupRange := x.pdAcceptedStartupRange
    pdListenTimeout := x.pdListenTimeout
    pKeySlotId := x.pKeySlotId
    pKeySlotOnlyEnabled := x.pKeySlotOnlyEnabled
    pKeySlotUsedForStartup := x.pKeySlotUsedForStartup
    pKeySlotUsedForSync := x.pKeySlotUsedForSync
    pLatestTx := x.pLatestTx
    pMacroInitialOffsetA := x.pMacroInitialOffsetA
    pMacroInitialOffsetB := x.pMacroInitialOffsetB
    pMicroInitialOffsetA := x.pMicroInitialOffsetA
    pMicroInitialOffsetB := x.pMicroInitialOffsetB
    pMicroPerCycle := x.pMicroPerCycle
    pOffsetCorrectionOut := x.pOffsetCorrectionOut
    pOffsetCorrectionStart := x.pOffsetCorrectionStart
    pRateCorrectionOut := x.pRateCorrectionOut
    pWakeupChannel := x.pWakeupChannel
    pWakeupPattern := x.pWakeupPattern
    pdMicrotick := x.pdMicrotick
    pSamplesPerMicrotick := x.pSamplesPerMicrotick
    pSecondKeySlotId := x.pSecondKeySlotId
    pTwoKeySlotMode := x.pTwoKeySlotMode }

/-- `CxxToC`, FlexrayController.hpp:574-586. -/
def cTxBufferConfig (x : FlexrayTxBufferConfig) : CFlexrayTxBufferConfig :=
  { header := structId .flexrayTxBufferConfig
    channels := x.channels
    slotId := x.slotId
    offset := x.offset
    repetition := x.repetition
    hasPayloadPreambleIndicator := ofBool x.hasPayloadPreambleIndicator
    headerCrc := x.headerCrc
    transmissionMode := x.transmissionMode }

/-- `assign`, CapiFlexray.cpp:28-51. -/
def assignClusterParameters (x : CFlexrayClusterParameters) : FlexrayClusterParameters :=
  { gColdstartAttempts := x.gColdstartAttempts
    gCycleCountMax := x.gCycleCountMax
    gdActionPointOffset := x.gdActionPointOffset
    gdDynamicSlotIdlePhase := x.gdDynamicSlotIdlePhase
    gdMiniSlot := x.gdMiniSlot
    gdMiniSlotActionPointOffset := x.gdMiniSlotActionPointOffset
    gdStaticSlot := x.gdStaticSlot
    gdSymbolWindow := x.gdSymbolWindow
    gdSymbolWindowActionPointOffset := x.gdSymbolWindowActionPointOffset
    gdTSSTransmitter := x.gdTSSTransmitter
    gdWakeupTxActive := x.gdWakeupTxActive
    gdWakeupTxIdle := x.gdWakeupTxIdle
    gListenNoise := x.gListenNoise
    gMacroPerCycle := x.gMacroPerCycle
    gMaxWithoutClockCorrectionFatal := x.gMaxWithoutClockCorrectionFatal
    gMaxWithoutClockCorrectionPassive := x.gMaxWithoutClockCorrectionPassive
    gNumberOfMiniSlots := x.gNumberOfMiniSlots
    gNumberOfStaticSlots := x.gNumberOfStaticSlots
    gPayloadLengthStatic := x.gPayloadLengthStatic
    gSyncFrameIDCountMax := x.gSyncFrameIDCountMax }

/-- `assign`, CapiFlexray.cpp:53-92. The structure to which it is assigned is not initialised (CapiFlexray.cpp:144): for another version it keeps what was
in memory, `memory`. -/
def assignNodeParameters (memory : FlexrayNodeParameters) (x : CFlexrayNodeParameters) : FlexrayNodeParameters :=
  let m := if idVersion x.header = 1 ∨ idVersion x.header = 2 then { memory with
    pAllowHaltDueToClock := x.pAllowHaltDueToClock
    pAllowPassiveToActive := x.pAllowPassiveToActive
    pChannels := x.pChannels
    pClusterDriftDamping := x.pClusterDriftDamping
    pdAcceptedStartupRange := x.pdAcceptedStartupRange
    pdListenTimeout := x.pdListenTimeout
    pKeySlotId := x.pKeySlotId
    pKeySlotOnlyEnabled := x.pKeySlotOnlyEnabled
    pKeySlotUsedForStartup := x.pKeySlotUsedForStartup
    pKeySlotUsedForSync := x.pKeySlotUsedForSync
    pLatestTx := x.pLatestTx
    pMacroInitialOffsetA := x.pMacroInitialOffsetA
    pMacroInitialOffsetB := x.pMacroInitialOffsetB
    pMicroInitialOffsetA := x.pMicroInitialOffsetA
    pMicroInitialOffsetB := x.pMicroInitialOffsetB
    pMicroPerCycle := x.pMicroPerCycle
    pOffsetCorrectionOut := x.pOffsetCorrectionOut
    pOffsetCorrectionStart := x.pOffsetCorrectionStart
    pRateCorrectionOut := x.pRateCorrectionOut
    pWakeupChannel := x.pWakeupChannel
    pWakeupPattern := x.pWakeupPattern
    pdMicrotick := x.pdMicrotick
    pSamplesPerMicrotick := x.pSamplesPerMicrotick } else memory
  if idVersion x.header = 2 then { m with pTwoKeySlotMode := x.pTwoKeySlotMode, pSecondKeySlotId := x.pSecondKeySlotId } else m

/-- `assign`, CapiFlexray.cpp:17-26. -/
def assignTxBufferConfig (x : CFlexrayTxBufferConfig) : FlexrayTxBufferConfig :=
  { channels := x.channels
    slotId := x.slotId
    offset := x.offset
    repetition := x.repetition
    hasPayloadPreambleIndicator := x.hasPayloadPreambleIndicator == 1
    headerCrc := x.headerCrc
    transmissionMode := x.transmissionMode }

/-- `SilKit_FlexrayController_Configure`, CapiFlexray.cpp:130-151, with `assign`, 94-107. -/
def cConfigure (memory : FlexrayNodeParameters) (header : Nat) (cluster : CFlexrayClusterParameters) (node : CFlexrayNodeParameters)
    (numBufferConfigs : Nat) (buffers : List CFlexrayTxBufferConfig) : Result :=
  if validId header && validId cluster.header && validId node.header then
    .given (.frConfigure
      { clusterParams := assignClusterParameters cluster
        nodeParams := assignNodeParameters memory node
        bufferConfigs := (buffers.take numBufferConfigs).map assignTxBufferConfig })
  else .refused .badParameter

/-- FlexrayController.hpp:144-170: `numBufferConfigs` is a `uint32_t`. -/
def frConfigure (memory : FlexrayNodeParameters) (x : FlexrayControllerConfig) : Result :=
  let buffers := x.bufferConfigs.map cTxBufferConfig
  cConfigure memory (structId .flexrayControllerConfig) (cClusterParameters x.clusterParams) (cNodeParameters x.nodeParams)
    (buffers.length % 2 ^ 32) buffers

/-- `ASSERT_VALID_BOOL_PARAMETER`, CapiImpl.hpp:126-133. -/
def validBool (b : BitVec 8) : Bool := b == 1 || b == 0

/-- FlexrayController.hpp:172-181 with CapiFlexray.cpp:154-171. -/
def frReconfigure (index : BitVec 16) (x : FlexrayTxBufferConfig) : Result :=
  let c := cTxBufferConfig x
  if validId c.header && validBool c.hasPayloadPreambleIndicator then .given (.frReconfigureTxBuffer index (assignTxBufferConfig c))
  else .refused .badParameter

/-- FlexrayController.hpp:183-190, 588-595 with CapiFlexray.cpp:174-196. -/
def frUpdate (x : FlexrayTxBufferUpdate) : Result :=
  let valid := ofBool x.payloadDataValid
  let payload := toByteVector x.payload
  if !validBool valid then .refused .badParameter
  else if toBool valid then
    if payload.null then .refused .badParameter
    else .given (.frUpdateTxBuffer { txBufferIndex := x.txBufferIndex, payloadDataValid := valid == 1, payload := toSpan payload })
  else .given (.frUpdateTxBuffer { txBufferIndex := x.txBufferIndex, payloadDataValid := valid == 1, payload := [] })

/-- include/silkit/capi/Flexray.h: `SilKit_FlexrayChiCommand_…`. -/
def chiRun : BitVec 8 := 0
def chiDeferredHalt : BitVec 8 := 1
def chiFreeze : BitVec 8 := 2
def chiAllowColdstart : BitVec 8 := 3
def chiAllSlots : BitVec 8 := 4
def chiWakeup : BitVec 8 := 5

/-- FlexrayController.hpp:192-228. -/
def chiCommand : FlexrayCommand → BitVec 8
  | .run => chiRun | .deferredHalt => chiDeferredHalt | .freeze => chiFreeze | .allowColdstart => chiAllowColdstart
  | .allSlots => chiAllSlots | .wakeup => chiWakeup

/-- `SilKit_FlexrayController_ExecuteCmd`, CapiFlexray.cpp:199-230. -/
def executeCmd (c : BitVec 8) : Result :=
  if c = chiRun then .given (.frCommand .run)
  else if c = chiDeferredHalt then .given (.frCommand .deferredHalt)
  else if c = chiFreeze then .given (.frCommand .freeze)
  else if c = chiAllowColdstart then .given (.frCommand .allowColdstart)
  else if c = chiAllSlots then .given (.frCommand .allSlots)
  else if c = chiWakeup then .given (.frCommand .wakeup)
  else .refused .badParameter

/-- MakePubSubSpecView.hpp:38-50, MakeRpcSpecView.hpp, with `assign`, TypeConversion.hpp:17-35: keys and values are C strings. -/
def throughLabel (l : Label) : Label := { key := cString l.key, value := cString l.value, kind := l.kind }

/-- DataPublisher.hpp:58-65 and the like. -/
def throughSpec (x : Spec) : Spec := { name := cString x.name, mediaType := cString x.mediaType, labels := x.labels.map throughLabel }

/-- `ASSERT_VALID_STRUCT_HEADER`, CapiImpl.hpp:135-143. -/
def checked (header : Nat) (r : Result) : Result := if validId header then r else .refused .badParameter

/-- LinController.hpp:184-193 with CapiLin.cpp:144-160. -/
def linSendFrame (x : LinFrame) (t : BitVec 8) : Result :=
  checked (structId .linFrame) (.given (.linSendFrame (assignLinFrame (cLinFrame x)) t))

/-- LinController.hpp:201-208 with CapiLin.cpp:174-189. -/
def linUpdateTxBuffer (x : LinFrame) : Result :=
  checked (structId .linFrame) (.given (.linUpdateTxBuffer (assignLinFrame (cLinFrame x))))

/-- LinController.hpp:210-222 with CapiLin.cpp:112-128. -/
def linSetFrameResponse (r : LinFrameResponse) : Result :=
  checked (structId .linFrameResponse)
    (.given (.linSetFrameResponse { frame := assignLinFrame (cLinFrame r.frame), responseMode := r.responseMode }))

/-- RpcServer.hpp:100-107 with CapiRpc.cpp:80-92: the call handle must not be null. -/
def submitResult (h : Nat) (d : Bytes) : Result :=
  if h = 0 then .refused .badParameter else .given (.rpcSubmitResult h (toSpan (toByteVector d)))

/-- A call of the C++ API, up to the call of the service. `memory` is what is in uninitialised memory. -/
def call (memory : FlexrayNodeParameters) : Command → Result
  -- CanController.hpp:108-112, CapiCan.cpp:204-213
  | .canSetBaudRate r f x => .given (.canSetBaudRate r f x)
  | .canSendFrame f u => canSendFrame (cCanFrame f) u
  -- EthernetController.hpp:271-279, CapiEthernet.cpp:228-243
  | .ethSendFrame r u => .given (.ethSendFrame (toSpan (toByteVector r)) u)
  | .linInit c => linInit c
  | .linSendFrame f t => linSendFrame f t
  -- LinController.hpp:195-199, CapiLin.cpp:162-171
  | .linSendFrameHeader i => .given (.linSendFrameHeader i)
  | .linUpdateTxBuffer f => linUpdateTxBuffer f
  | .linSetFrameResponse r => linSetFrameResponse r
  -- LinController.hpp:430-440, CapiLin.cpp:54-57, 408-425
  | .linInitDynamic m b => checked (structId .linControllerDynamicConfig) (.given (.linInitDynamic m b))
  | .frConfigure c => frConfigure memory c
  | .frReconfigureTxBuffer i c => frReconfigure i c
  | .frUpdateTxBuffer x => frUpdate x
  | .frCommand c => executeCmd (chiCommand c)
  -- DataPublisher.hpp:55-77, CapiDataPubSub.cpp:19-50
  | .createDataPublisher n s h => .given (.createDataPublisher (cString n) (throughSpec s) h)
  | .createDataSubscriber n s => .given (.createDataSubscriber (cString n) (throughSpec s))
  | .publish d => .given (.publish (toSpan (toByteVector d)))
  -- RpcClient.hpp:79-113, RpcServer.hpp:80-98, CapiRpc.cpp:57-77, 110-158
  | .createRpcClient n s => .given (.createRpcClient (cString n) (throughSpec s))
  | .createRpcServer n s => .given (.createRpcServer (cString n) (throughSpec s))
  | .rpcCall d u => .given (.rpcCall (toSpan (toByteVector d)) u)
  | .rpcCallWithTimeout d t u => .given (.rpcCallWithTimeout (toSpan (toByteVector d)) (toNanoseconds (toCount t)) u)
  | .rpcSubmitResult h d => submitResult h d
  -- TimeSyncService.hpp:100-101, CapiOrchestration.cpp:375-379
  | .setSimulationStepHandler t => .given (.setSimulationStepHandler (toNanoseconds (toCount t)))
  -- CapiOrchestration.cpp:702-709
  | .setWorkflowConfiguration l => .given (.setWorkflowConfiguration (l.map cString))

/-! ## The slave configuration of LIN -/

/-- `isLinIdResponding[linId] = SilKit_True`, CapiLin.cpp:64-67; outside of the array: undefined behaviour. -/
def markResponding (a : Option (Vector (BitVec 8) 64)) (id : BitVec 8) : Option (Vector (BitVec 8) 64) :=
  match a with
  | some v => if h : id.toNat < 64 then some (v.set id.toNat 1) else none
  | none => none

/-- CapiLin.cpp:60-68, LinController.hpp:406-428. `none`: undefined behaviour. -/
def slaveConfiguration (respondingLinIds : List (BitVec 8)) : Option (List (BitVec 8)) :=
  match respondingLinIds.foldl markResponding (some (Vector.replicate 64 0)) with
  | some v => some ((List.range 64).filterMap (fun i => if v[i]?.getD 0 != 0 then some (BitVec.ofNat 8 i) else none))
  | none => none

end SilKit.HourglassValues
