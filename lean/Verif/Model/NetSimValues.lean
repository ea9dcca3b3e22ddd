import Verif.Model.HourglassValues
/-!
# Model of the values that pass between controllers and a network simulator written with the C++ API

Source: `SilKit/source/experimental/netsim/SimulatedNetworkRouter.cpp`, `eventproducers/*.cpp` (in the library),
`SilKit/source/capi/CapiNetworkSimulator.cpp` (the C interface of the library), `SilKit/include/silkit/detail/impl/HourglassConversions.hpp`,
`SilKit/include/silkit/detail/impl/netsim/{EventProducer,NetworkSimulator}.hpp` (the header-only C++ API).

A message of a controller reaches the router of its network, which makes a value of the network simulation API of it. The simulated controller of
the C interface packs it into C structures and calls a function of the table that the C++ API has given to the library; this function unpacks the
structures and calls the user's simulated controller. An event that the user produces goes the other way: the C++ API packs it, the C function finds out
by the identifier in the structure header which structure it has got, unpacks it, and the event producer of the library sends messages to the receivers.

The integer types are the same on both sides and are `BitVec`s, as in `Model/HourglassValues.lean`; timestamps are signed on the C++ side and unsigned on the
C side. Which messages reach which network, and to whom the produced messages go, is the subject of `Model/NetSim.lean`; here the subject is the values.

Not modelled: exceptions thrown by the user's simulated controllers and networks, the serialisation between the participants.
-/
namespace SilKit.NetSimValues
open HourglassValues

/-! ## From the controllers to the simulator -/

/-- The messages that the controllers send to the simulator: wire/can/WireCanMessages.hpp:19-83, wire/flexray/WireFlexrayMessages.hpp:55-92,
wire/ethernet/WireEthernetMessages.hpp:46-58, wire/lin/WireLinMessages.hpp:29-83, LinDatatypes.hpp:297-301. -/
inductive Wire
  | canFrame (timestamp : Int) (frame : CanFrame) (direction : BitVec 8) (userContext : Nat)
  | canConfigureBaudrate (baudRate fdBaudRate xlBaudRate : BitVec 32)
  | canSetControllerMode (resetErrorHandling cancelTransmitRequests : Bool) (mode : BitVec 32)
  | frHostCommand (command : BitVec 8)
  | frControllerConfig (config : FlexrayControllerConfig)
  | frTxBufferConfigUpdate (txBufferIndex : BitVec 16) (config : FlexrayTxBufferConfig)
  | frTxBufferUpdate (update : FlexrayTxBufferUpdate)
  | ethFrame (timestamp : Int) (raw : Bytes) (direction : BitVec 8) (userContext : Nat)
  | ethSetMode (mode : BitVec 8)
  | linSendFrameRequest (frame : LinFrame) (responseType : BitVec 8)
  | linSendFrameHeaderRequest (timestamp : Int) (id : BitVec 8)
  | linWakeupPulse (timestamp : Int) (direction : BitVec 8)
  | linControllerConfig (controllerMode : BitVec 8) (baudRate : BitVec 32) (frameResponses : List LinFrameResponse) (simulationMode : BitVec 8)
  | linFrameResponseUpdate (frameResponses : List LinFrameResponse)
  | linControllerStatusUpdate (timestamp : Int) (status : BitVec 32)
deriving Repr, DecidableEq

/-- What the simulated controllers get: include/silkit/experimental/netsim/NetworkSimulatorDatatypes.hpp:36-225. -/
inductive Message
  | canFrameRequest (frame : CanFrame) (userContext : Nat)
  | canConfigureBaudrate (baudRate fdBaudRate xlBaudRate : BitVec 32)
  | canControllerMode (flags : BitVec 32) (state : BitVec 32)
  | frHostCommand (command : BitVec 8)
  | frControllerConfig (config : FlexrayControllerConfig)
  | frTxBufferConfigUpdate (txBufferIndex : BitVec 16) (config : FlexrayTxBufferConfig)
  | frTxBufferUpdate (update : FlexrayTxBufferUpdate)
  | ethFrameRequest (raw : Bytes) (userContext : Nat)
  | ethControllerMode (mode : BitVec 8)
  | linFrameRequest (frame : LinFrame) (responseType : BitVec 8)
  | linFrameHeaderRequest (id : BitVec 8)
  | linWakeupPulse (timestamp : Int)
  | linControllerConfig (controllerMode : BitVec 8) (baudRate : BitVec 32) (frameResponses : List LinFrameResponse) (simulationMode : BitVec 8)
  | linFrameResponseUpdate (frameResponses : List LinFrameResponse)
  | linControllerStatusUpdate (timestamp : Int) (status : BitVec 32)
deriving Repr, DecidableEq

/-- `ResetErrorHandling` and `CancelTransmitRequests`: `BIT(0)` and `BIT(1)`, capi/NetworkSimulator.h. -/
def modeFlags (reset cancel : Bool) : BitVec 32 := (if reset then 1 else 0) ||| (if cancel then 2 else 0)

/-- `SimulatedNetworkRouter::ReceiveMsg`, SimulatedNetworkRouter.cpp:137-477, with `ToCanFrame` (WireCanMessages.hpp:97-106) and `ToEthernetFrame`
(WireEthernetMessages.hpp:74-77). `memory`: what is in the memory of the uninitialised `EthernetControllerMode netsimMsg`
(SimulatedNetworkRouter.cpp:326), which stays there if the mode is unknown; the LIN configuration has a default (NetworkSimulatorDatatypes.hpp). -/
def route (memory : BitVec 8) : Wire → Message
  | .canFrame _ f _ u => .canFrameRequest f u
  | .canConfigureBaudrate b f x => .canConfigureBaudrate b f x
  | .canSetControllerMode r c m => .canControllerMode (modeFlags r c) m
  | .frHostCommand c => .frHostCommand c
  | .frControllerConfig c => .frControllerConfig c
  | .frTxBufferConfigUpdate i c => .frTxBufferConfigUpdate i c
  | .frTxBufferUpdate u => .frTxBufferUpdate u
  | .ethFrame _ r _ u => .ethFrameRequest r u
  | .ethSetMode m => .ethControllerMode (if m = 1 then 1 else if m = 0 then 0 else memory)
  | .linSendFrameRequest f r => .linFrameRequest f r
  | .linSendFrameHeaderRequest _ i => .linFrameHeaderRequest i
  | .linWakeupPulse t _ => .linWakeupPulse t
  | .linControllerConfig m b r s => .linControllerConfig m b r (if s = 0 then 0 else if s = 1 then 1 else 0)
  | .linFrameResponseUpdate r => .linFrameResponseUpdate r
  | .linControllerStatusUpdate t s => .linControllerStatusUpdate t s

/-! ### The C structures -/

/-- The identifiers of the structures of the network simulation, InterfaceIdentifiers.h:257-347: service 8, version 1. -/
def netSimId (datatype : Nat) : Nat := makeId 8 datatype 1

/-- `assignCxxToC`, HourglassConversions.hpp:34-43. -/
def toCCanFrame (x : CanFrame) : CCanFrame :=
  { header := structId .canFrame, id := x.canId, flags := x.flags, dlc := x.dlc, sdt := x.sdt, vcid := x.vcid, af := x.af
    data := toByteVector x.dataField }

/-- `assignCToCxx`, HourglassConversions.hpp:444-453. -/
def ofCCanFrame (x : CCanFrame) : CanFrame :=
  { canId := x.id, flags := x.flags, dlc := x.dlc, sdt := x.sdt, vcid := x.vcid, af := x.af, dataField := toSpan x.data }

/-- HourglassConversions.hpp:343-349. -/
def toCLinFrame (x : LinFrame) : CLinFrame :=
  { header := some (structId .linFrame), id := x.id, checksumModel := x.checksumModel, dataLength := x.dataLength, data := x.data }

/-- HourglassConversions.hpp:762-768. -/
def ofCLinFrame (x : CLinFrame) : LinFrame :=
  { id := x.id, checksumModel := x.checksumModel, dataLength := x.dataLength, data := x.data }

/-- HourglassConversions.hpp:173-196. -/
def toCCluster (x : FlexrayClusterParameters) : CFlexrayClusterParameters :=
  { header := structId .flexrayClusterParameters
    gColdstartAttempts := x.gColdstartAttempts
    gCycleCountMax := x.gCycleCountMax
    gdActionPointOffset := x.gdActionPointOffset
    gdDynamicSlotIdlePhase := x.gdDynamicSlotIdlePhase
    gdMiniSlot := x.gdMiniSlot
    gdMiniSlotActionPointOffset := x.gdMiniSlotActionPointOffset
    gdStaticSlot := x.gdStaticSlot
    gdSymbolWindow := x.gdSymbolWindow
    gdSymbolWindowActionPointOffset := x.gdSymbolWindowActionPointOffset
    gdTSSTransmitter := x.gdTSSTransmitter
    gdWakeupTxActive := x.gdWakeupTxActive
    gdWakeupTxIdle := x.gdWakeupTxIdle
    gListenNoise := x.gListenNoise
    gMacroPerCycle := x.gMacroPerCycle
    gMaxWithoutClockCorrectionFatal := x.gMaxWithoutClockCorrectionFatal
    gMaxWithoutClockCorrectionPassive := x.gMaxWithoutClockCorrectionPassive
    gNumberOfMiniSlots := x.gNumberOfMiniSlots
    gNumberOfStaticSlots := x.gNumberOfStaticSlots
    gPayloadLengthStatic := x.gPayloadLengthStatic
    gSyncFrameIDCountMax := x.gSyncFrameIDCountMax }

/-- HourglassConversions.hpp:605-628. -/
def ofCCluster (x : CFlexrayClusterParameters) : FlexrayClusterParameters :=
  {
    gColdstartAttempts := x.gColdstartAttempts
    gCycleCountMax := x.gCycleCountMax
    gdActionPointOffset := x.gdActionPointOffset
    gdDynamicSlotIdlePhase := x.gdDynamicSlotIdlePhase
    gdMiniSlot := x.gdMiniSlot
    gdMiniSlotActionPointOffset := x.gdMiniSlotActionPointOffset
    gdStaticSlot := x.gdStaticSlot
    gdSymbolWindow := x.gdSymbolWindow
    gdSymbolWindowActionPointOffset := x.gdSymbolWindowActionPointOffset
    gdTSSTransmitter := x.gdTSSTransmitter
    gdWakeupTxActive := x.gdWakeupTxActive
    gdWakeupTxIdle := x.gdWakeupTxIdle
    gListenNoise := x.gListenNoise
    gMacroPerCycle := x.gMacroPerCycle
    gMaxWithoutClockCorrectionFatal := x.gMaxWithoutClockCorrectionFatal
    gMaxWithoutClockCorrectionPassive := x.gMaxWithoutClockCorrectionPassive
    gNumberOfMiniSlots := x.gNumberOfMiniSlots
    gNumberOfStaticSlots := x.gNumberOfStaticSlots
    gPayloadLengthStatic := x.gPayloadLengthStatic
    gSyncFrameIDCountMax := x.gSyncFrameIDCountMax }

/-- HourglassConversions.hpp:198-226. -/
def toCNode (x : FlexrayNodeParameters) : CFlexrayNodeParameters :=
  { header := structId .flexrayNodeParameters
    pAllowHaltDueToClock := x.pAllowHaltDueToClock
    pAllowPassiveToActive := x.pAllowPassiveToActive
    pChannels := x.pChannels
    pClusterDriftDamping := x.pClusterDriftDamping
    pdAcceptedStartupRange := x.pdAcceptedStartupRange
    pdListenTimeout := x.pdListenTimeout
    pKeySlotId := x.pKeySlotId
    pKeySlotOnlyEnabled := x.pKeySlotOnlyEnabled
    pKeySlotUsedForStartup := x.pKeySlotUsedForStartup
    pKeySlotUsedForSync := x.pKeySlotUsedForSync
    pLatestTx := x.pLatestTx
    pMacroInitialOffsetA := x.pMacroInitialOffsetA
    pMacroInitialOffsetB := x.pMacroInitialOffsetB
    pMicroInitialOffsetA := x.pMicroInitialOffsetA
    pMicroInitialOffsetB := x.pMicroInitialOffsetB
    pMicroPerCycle := x.pMicroPerCycle
    pOffsetCorrectionOut := x.pOffsetCorrectionOut
    pOffsetCorrectionStart := x.pOffsetCorrectionStart
    pRateCorrectionOut := x.pRateCorrectionOut
    pWakeupChannel := x.pWakeupChannel
    pWakeupPattern := x.pWakeupPattern
    pdMicrotick := x.pdMicrotick
    pSamplesPerMicrotick := x.pSamplesPerMicrotick
    pTwoKeySlotMode := x.pTwoKeySlotMode
    pSecondKeySlotId := x.pSecondKeySlotId }

/-- HourglassConversions.hpp:630-658. -/
def ofCNode (x : CFlexrayNodeParameters) : FlexrayNodeParameters :=
  {
    pAllowHaltDueToClock := x.pAllowHaltDueToClock
    pAllowPassiveToActive := x.pAllowPassiveToActive
    pChannels := x.pChannels
    pClusterDriftDamping := x.pClusterDriftDamping
    pdAcceptedStartupRange := x.pdAcceptedStartupRange
    pdListenTimeout := x.pdListenTimeout
    pKeySlotId := x.pKeySlotId
    pKeySlotOnlyEnabled := x.pKeySlotOnlyEnabled
    pKeySlotUsedForStartup := x.pKeySlotUsedForStartup
    pKeySlotUsedForSync := x.pKeySlotUsedForSync
    pLatestTx := x.pLatestTx
    pMacroInitialOffsetA := x.pMacroInitialOffsetA
    pMacroInitialOffsetB := x.pMacroInitialOffsetB
    pMicroInitialOffsetA := x.pMicroInitialOffsetA
    pMicroInitialOffsetB := x.pMicroInitialOffsetB
    pMicroPerCycle := x.pMicroPerCycle
    pOffsetCorrectionOut := x.pOffsetCorrectionOut
    pOffsetCorrectionStart := x.pOffsetCorrectionStart
    pRateCorrectionOut := x.pRateCorrectionOut
    pWakeupChannel := x.pWakeupChannel
    pWakeupPattern := x.pWakeupPattern
    pdMicrotick := x.pdMicrotick
    pSamplesPerMicrotick := x.pSamplesPerMicrotick
    pTwoKeySlotMode := x.pTwoKeySlotMode
    pSecondKeySlotId := x.pSecondKeySlotId }

/-- HourglassConversions.hpp:228-238. -/
def toCTxBufferConfig (x : FlexrayTxBufferConfig) : CFlexrayTxBufferConfig :=
  { header := structId .flexrayTxBufferConfig
    channels := x.channels
    slotId := x.slotId
    offset := x.offset
    repetition := x.repetition
    hasPayloadPreambleIndicator := ofBool x.hasPayloadPreambleIndicator
    headerCrc := x.headerCrc
    transmissionMode := x.transmissionMode }

/-- HourglassConversions.hpp:593-603: the indicator is compared with `SilKit_True`, which is 1. -/
def ofCTxBufferConfig (x : CFlexrayTxBufferConfig) : FlexrayTxBufferConfig :=
  { channels := x.channels
    slotId := x.slotId
    offset := x.offset
    repetition := x.repetition
    hasPayloadPreambleIndicator := x.hasPayloadPreambleIndicator == 1
    headerCrc := x.headerCrc
    transmissionMode := x.transmissionMode }

/-- A `SilKit_LinFrameResponse`: its identifier, the pointer to its frame, its mode. -/
structure CResponse where
  header : Nat
  frame : Pointer
  responseMode : BitVec 8
deriving Repr, DecidableEq

/-- The C structures of the messages. Pointers to local variables are replaced by these; the frames of LIN frame responses are in an array of their own. -/
inductive CMessage
  | canFrameRequest (header : Nat) (frame : CCanFrame) (userContext : Nat)
  | canConfigureBaudrate (header : Nat) (rate fdRate xlRate : BitVec 32)
  | canControllerMode (header : Nat) (flags : BitVec 32) (state : BitVec 32)
  | frHostCommand (header : Nat) (chiCommand : BitVec 8)
  | frControllerConfig (header : Nat) (clusterParams : CFlexrayClusterParameters) (nodeParams : CFlexrayNodeParameters) (numBufferConfigs : Nat)
      (bufferConfigs : List CFlexrayTxBufferConfig)
  | frTxBufferConfigUpdate (header : Nat) (txBufferIdx : BitVec 16) (txBufferConfig : CFlexrayTxBufferConfig)
  | frTxBufferUpdate (header : Nat) (txBufferIndex : BitVec 16) (payloadDataValid : BitVec 8) (payload : ByteVector)
  | ethFrameRequest (header : Nat) (frameHeader : Nat) (raw : ByteVector) (userContext : Nat)
  | ethControllerMode (header : Nat) (mode : BitVec 8)
  | linFrameRequest (header : Nat) (frame : CLinFrame) (responseType : BitVec 8)
  | linFrameHeaderRequest (header : Nat) (id : BitVec 8)
  | linWakeupPulse (header : Nat) (timestamp : Nat)
  | linControllerConfig (header : Nat) (controllerMode : BitVec 8) (baudRate : BitVec 32) (frames : Vec CLinFrame) (numFrameResponses : Nat)
      (frameResponses : List CResponse) (simulationMode : BitVec 8)
  | linFrameResponseUpdate (header : Nat) (frames : Vec CLinFrame) (numFrameResponses : Nat) (frameResponses : List CResponse)
  | linControllerStatusUpdate (header : Nat) (status : BitVec 32) (timestamp : Nat)

/-- How packing and unpacking end: with a result, with undefined behaviour, or not at all (the loop counters have 32 bits). -/
inductive End (α : Type)
  | given (a : α)
  | undefined
  | endless
deriving Repr, DecidableEq

def End.bind : End α → (α → End β) → End β
  | .given a, f => f a
  | .undefined, _ => .undefined
  | .endless, _ => .endless

/-- The assignment `*pointer = x`. -/
def write (v : Vec α) (p : Pointer) (x : α) : Option (Vec α) :=
  if p.1 = v.buffer ∧ p.2 < v.elements.length then some { v with elements := v.elements.set p.2 x } else none

/-- `SilKit_Struct_Init(SilKit_LinFrame, …)`: zeroes and the identifier, InterfaceIdentifiers.h:61-66. -/
def zeroLinFrame : CLinFrame := { header := some (structId .linFrame), id := 0, checksumModel := 0, dataLength := 0, data := Vector.replicate 8 0 }

/-- One round of the loop in `OnControllerConfig` and `OnFrameResponseUpdate`, CapiNetworkSimulator.cpp:267-277, 294-304. -/
def addCell (s : Vec CLinFrame × List CResponse) : Vec CLinFrame × List CResponse :=
  let frames := s.1.push zeroLinFrame
  (frames, s.2 ++ [{ header := structId .linFrameResponse, frame := frames.back, responseMode := 0 }])

/-- CapiNetworkSimulator.cpp:262-277, 289-304: the storage for `n` responses. -/
def storage (n : Nat) : Vec CLinFrame × List CResponse := (List.range n).foldl (fun s _ => addCell s) (Vec.reserve {} n, [])

/-- The loop over the responses, HourglassConversions.hpp:410-414, 422-426, with 369-373: the frame behind the pointer of each prepared response is overwritten. -/
def fillResponses (v : Vec CLinFrame) : List LinFrameResponse → List CResponse → Option (Vec CLinFrame × List CResponse)
  | [], cs => some (v, cs)
  | _ :: _, [] => none
  | r :: rs, c :: cs =>
    match write v c.frame (toCLinFrame r.frame) with
    | none => none
    | some v' =>
      match fillResponses v' rs cs with
      | none => none
      | some (v'', cs') => some (v'', { c with responseMode := r.responseMode } :: cs')

/-- The loop `for (uint32_t idx = 0; idx < size; idx++)` ends if the size has 32 bits. -/
def packResponses (l : List LinFrameResponse) : End (Vec CLinFrame × List CResponse) :=
  if l.length < 2 ^ 32 then
    match fillResponses (storage l.length).1 l (storage l.length).2 with
    | some x => .given x
    | none => .undefined
  else .endless

/-- HourglassConversions.hpp:770-774. -/
def readResponse (v : Vec CLinFrame) (c : CResponse) : Option LinFrameResponse :=
  match v.deref c.frame with
  | some f => some { frame := ofCLinFrame f, responseMode := c.responseMode }
  | none => none

/-- HourglassConversions.hpp:825-830, 839-844: as many responses as are announced, in their order; reading beyond the array is undefined behaviour. -/
def readResponses (v : Vec CLinFrame) : Nat → List CResponse → Option (List LinFrameResponse)
  | 0, _ => some []
  | _ + 1, [] => none
  | n + 1, c :: cs =>
    match readResponse v c, readResponses v n cs with
    | some r, some rs => some (r :: rs)
    | _, _ => none

/-- `SilKit_Struct_Init(SilKit_FlexrayTxBufferConfig, …)`. -/
def zeroTxBufferConfig : CFlexrayTxBufferConfig :=
  { header := structId .flexrayTxBufferConfig, channels := 0, slotId := 0, offset := 0, repetition := 0, hasPayloadPreambleIndicator := 0, headerCrc := 0
    transmissionMode := 0 }

/-- `cOut.bufferConfigs[i++] = …` for all configurations, HourglassConversions.hpp:256-261, in an array prepared at CapiNetworkSimulator.cpp:119-126. -/
def fillConfigs : List FlexrayTxBufferConfig → List CFlexrayTxBufferConfig → Option (List CFlexrayTxBufferConfig)
  | [], cs => some cs
  | _ :: _, [] => none
  | x :: xs, _ :: cs => (fillConfigs xs cs).map (toCTxBufferConfig x :: ·)

/-- HourglassConversions.hpp:676-681. -/
def readConfigs : Nat → List CFlexrayTxBufferConfig → Option (List FlexrayTxBufferConfig)
  | 0, _ => some []
  | _ + 1, [] => none
  | n + 1, c :: cs => (readConfigs n cs).map (ofCTxBufferConfig c :: ·)

/-- The simulated controllers of the C interface with the functions they use: CAN CapiNetworkSimulator.cpp:45-75 (HourglassConversions.hpp:78-98), FlexRay
100-156 (244-277), Ethernet 182-202 (283-287, 326-337), LIN 228-318 (386-434). The status update leaves the timestamp zero. -/
def pack : Message → End CMessage
  | .canFrameRequest f u => .given (.canFrameRequest (netSimId 9) (toCCanFrame f) u)
  | .canConfigureBaudrate b f x => .given (.canConfigureBaudrate (netSimId 7) b f x)
  | .canControllerMode f s => .given (.canControllerMode (netSimId 8) f s)
  | .frHostCommand c => .given (.frHostCommand (netSimId 11) c)
  | .frControllerConfig c =>
    if c.bufferConfigs.length < 2 ^ 32 then
      match fillConfigs c.bufferConfigs (List.replicate c.bufferConfigs.length zeroTxBufferConfig) with
      | some l => .given (.frControllerConfig (netSimId 10) (toCCluster c.clusterParams) (toCNode c.nodeParams) (c.bufferConfigs.length % 2 ^ 32) l)
      | none => .undefined
    else .endless
  | .frTxBufferConfigUpdate i c => .given (.frTxBufferConfigUpdate (netSimId 12) i (toCTxBufferConfig c))
  | .frTxBufferUpdate u => .given (.frTxBufferUpdate (netSimId 13) u.txBufferIndex (ofBool u.payloadDataValid) (toByteVector u.payload))
  | .ethFrameRequest r u => .given (.ethFrameRequest (netSimId 14) (structId .ethernetFrame) (toByteVector r) u)
  | .ethControllerMode m => .given (.ethControllerMode (netSimId 15) m)
  | .linFrameRequest f r => .given (.linFrameRequest (netSimId 16) (toCLinFrame f) r)
  | .linFrameHeaderRequest i => .given (.linFrameHeaderRequest (netSimId 17) i)
  | .linWakeupPulse t => .given (.linWakeupPulse (netSimId 18) (toCount t))
  | .linControllerConfig m b r s =>
    (packResponses r).bind fun p => .given (.linControllerConfig (netSimId 19) m b p.1 r.length p.2 s)
  | .linFrameResponseUpdate r => (packResponses r).bind fun p => .given (.linFrameResponseUpdate (netSimId 20) p.1 r.length p.2)
  | .linControllerStatusUpdate _ s => .given (.linControllerStatusUpdate (netSimId 21) s 0)

def ofOption : Option α → End α
  | some a => .given a
  | none => .undefined

/-- The functions that the C++ API gives to the library, NetworkSimulator.hpp:28-200, with HourglassConversions.hpp:499-519 (CAN), 664-700 (FlexRay), 745-756
(Ethernet), 801-852 (LIN). -/
def unpack : CMessage → End Message
  | .canFrameRequest _ f u => .given (.canFrameRequest (ofCCanFrame f) u)
  | .canConfigureBaudrate _ b f x => .given (.canConfigureBaudrate b f x)
  | .canControllerMode _ f s => .given (.canControllerMode f s)
  | .frHostCommand _ c => .given (.frHostCommand c)
  | .frControllerConfig _ c n k l =>
    (ofOption (readConfigs k l)).bind fun b =>
      .given (.frControllerConfig { clusterParams := ofCCluster c, nodeParams := ofCNode n, bufferConfigs := b })
  | .frTxBufferConfigUpdate _ i c => .given (.frTxBufferConfigUpdate i (ofCTxBufferConfig c))
  | .frTxBufferUpdate _ i v p =>
    .given (.frTxBufferUpdate { txBufferIndex := i, payloadDataValid := v == 1, payload := if v ≠ 0 then toSpan p else [] })
  | .ethFrameRequest _ _ r u => .given (.ethFrameRequest (toSpan r) u)
  | .ethControllerMode _ m => .given (.ethControllerMode m)
  | .linFrameRequest _ f r => .given (.linFrameRequest (ofCLinFrame f) r)
  | .linFrameHeaderRequest _ i => .given (.linFrameHeaderRequest i)
  | .linWakeupPulse _ t => .given (.linWakeupPulse (toNanoseconds t))
  | .linControllerConfig _ m b v k l s => (ofOption (readResponses v k l)).bind fun r => .given (.linControllerConfig m b r s)
  | .linFrameResponseUpdate _ v k l => (ofOption (readResponses v k l)).bind fun r => .given (.linFrameResponseUpdate r)
  | .linControllerStatusUpdate _ s t => .given (.linControllerStatusUpdate (toNanoseconds t) s)

/-- From the message that has arrived at the router to the call of the user's simulated controller. -/
def deliver (memory : BitVec 8) (w : Wire) : End Message := (pack (route memory w)).bind unpack

/-! ## From the simulator to the controllers -/

/-- The buses. -/
inductive Bus
  | can | flexray | ethernet | lin
deriving Repr, DecidableEq

/-- The events that the producers of the C++ API accept: include/silkit/experimental/netsim/INetworkSimulator.hpp, netsim/EventProducer.hpp:26-148. -/
inductive Event
  | canFrame (timestamp : Int) (frame : CanFrame) (direction : BitVec 8) (userContext : Nat)
  | canFrameTransmit (canId : BitVec 32) (timestamp : Int) (status : BitVec 32) (userContext : Nat)
  | canStateChange (timestamp : Int) (state : BitVec 32)
  | canErrorStateChange (timestamp : Int) (errorState : BitVec 32)
  | frFrame (timestamp : Int) (channel : BitVec 32) (frame : FlexrayFrame)
  | frFrameTransmit (timestamp : Int) (txBufferIndex : BitVec 16) (channel : BitVec 32) (frame : FlexrayFrame)
  | frSymbol (timestamp : Int) (channel : BitVec 32) (pattern : BitVec 8)
  | frSymbolTransmit (timestamp : Int) (channel : BitVec 32) (pattern : BitVec 8)
  | frCycleStart (timestamp : Int) (cycleCounter : BitVec 8)
  | frPocStatus (timestamp : Int) (status : PocStatus)
  | ethFrame (timestamp : Int) (raw : Bytes) (direction : BitVec 8) (userContext : Nat)
  | ethFrameTransmit (timestamp : Int) (status : BitVec 32) (userContext : Nat)
  | ethStateChange (timestamp : Int) (state : BitVec 32)
  | ethBitrateChange (timestamp : Int) (bitrate : BitVec 32)
  | linFrameStatus (timestamp : Int) (frame : LinFrame) (status : BitVec 8)
  | linSendFrameHeaderRequest (timestamp : Int) (id : BitVec 8)
  | linWakeup (timestamp : Int) (direction : BitVec 8)
deriving Repr, DecidableEq

/-- Which producer accepts the event. -/
def Event.bus : Event → Bus
  | .canFrame .. | .canFrameTransmit .. | .canStateChange .. | .canErrorStateChange .. => .can
  | .frFrame .. | .frFrameTransmit .. | .frSymbol .. | .frSymbolTransmit .. | .frCycleStart .. | .frPocStatus .. => .flexray
  | .ethFrame .. | .ethFrameTransmit .. | .ethStateChange .. | .ethBitrateChange .. => .ethernet
  | .linFrameStatus .. | .linSendFrameHeaderRequest .. | .linWakeup .. => .lin

/-- HourglassConversions.hpp:104-118: the size of the payload is cast to `uint32_t`. -/
def toCFlexrayFrame (x : FlexrayFrame) : CFlexrayFrame :=
  { header := structId .flexrayFrame
    frameHeader := { header := structId .flexrayHeader, flags := x.header.flags, frameId := x.header.frameId, payloadLength := x.header.payloadLength
                     headerCrc := x.header.headerCrc, cycleCount := x.header.cycleCount }
    payload := toByteVector32 x.payload }

/-- HourglassConversions.hpp:525-538. -/
def ofCFlexrayFrame (x : CFlexrayFrame) : FlexrayFrame :=
  { header := { flags := x.frameHeader.flags, frameId := x.frameHeader.frameId, payloadLength := x.frameHeader.payloadLength
                headerCrc := x.frameHeader.headerCrc, cycleCount := x.frameHeader.cycleCount }
    payload := toSpan x.payload }

/-- HourglassConversions.hpp:158-171. -/
def toCPocStatus (x : PocStatus) : CPocStatus :=
  { state := x.state, chiHaltRequest := ofBool x.chiHaltRequest, coldstartNoise := ofBool x.coldstartNoise, freeze := ofBool x.freeze
    chiReadyRequest := ofBool x.chiReadyRequest, errorMode := x.errorMode, slotMode := x.slotMode, startupState := x.startupState
    wakeupStatus := x.wakeupStatus }

/-- HourglassConversions.hpp:578-591. -/
def ofCPocStatus (x : CPocStatus) : PocStatus :=
  { state := x.state, chiHaltRequest := toBool x.chiHaltRequest, coldstartNoise := toBool x.coldstartNoise, freeze := toBool x.freeze
    chiReadyRequest := toBool x.chiReadyRequest, errorMode := x.errorMode, slotMode := x.slotMode, startupState := x.startupState
    wakeupStatus := x.wakeupStatus }

/-- The `Produce` functions of the C++ API with the structures they give to the C functions: CAN netsim/EventProducer.hpp:167-230
(HourglassConversions.hpp:45-72), FlexRay 239-341 (120-171), Ethernet 350-412 (289-319), LIN 421-471 (351-380). The C structures are those of
`HourglassValues.CEvent`; a LIN header request has the fields of a LIN frame header event. -/
def packEvent : Event → CEvent
  | .canFrame t f d u => .canFrame (structId .canFrameEvent) (toCount t) (toCCanFrame f) d u
  | .canFrameTransmit i t s u => .canFrameTransmit (structId .canFrameTransmitEvent) u (toCount t) s i
  | .canStateChange t s => .canStateChange (structId .canStateChangeEvent) (toCount t) s
  | .canErrorStateChange t s => .canErrorStateChange (structId .canErrorStateChangeEvent) (toCount t) s
  | .frFrame t c f => .frFrame (structId .flexrayFrameEvent) (toCount t) c (toCFlexrayFrame f)
  | .frFrameTransmit t b c f => .frFrameTransmit (structId .flexrayFrameTransmitEvent) (toCount t) b c (toCFlexrayFrame f)
  | .frSymbol t c p => .frSymbol (structId .flexraySymbolEvent) (toCount t) c p
  | .frSymbolTransmit t c p => .frSymbolTransmit (structId .flexraySymbolTransmitEvent) (toCount t) c p
  | .frCycleStart t c => .frCycleStart (structId .flexrayCycleStartEvent) (toCount t) c
  | .frPocStatus t s => .frPocStatus (structId .flexrayPocStatusEvent) (toCount t) (toCPocStatus s)
  | .ethFrame t r d u => .ethFrame (structId .ethernetFrameEvent) (toCount t) (structId .ethernetFrame) (toByteVector r) d u
  | .ethFrameTransmit t s u => .ethFrameTransmit (structId .ethernetFrameTransmitEvent) u (toCount t) s
  | .ethStateChange t s => .ethStateChange (structId .ethernetStateChangeEvent) (toCount t) s
  | .ethBitrateChange t b => .ethBitrateChange (structId .ethernetBitrateChangeEvent) (toCount t) b
  | .linFrameStatus t f s => .linFrameStatus (structId .linFrameStatusEvent) (toCount t) (toCLinFrame f) s
  | .linSendFrameHeaderRequest t i => .linFrameHeader (structId .linSendFrameHeaderRequest) (toCount t) i
  | .linWakeup t d => .linWakeup (structId .linWakeupEvent) (toCount t) d

/-- The identifier at the beginning of the structure, as far as the structure is one of those above. -/
def headerOf : CEvent → Nat
  | .canFrame h .. | .canFrameTransmit h .. | .canStateChange h .. | .canErrorStateChange h .. | .frFrame h .. | .frFrameTransmit h .. | .frSymbol h ..
  | .frSymbolTransmit h .. | .frCycleStart h .. | .frPocStatus h .. | .ethFrame h .. | .ethFrameTransmit h .. | .ethStateChange h ..
  | .ethBitrateChange h .. | .linFrameStatus h .. | .linFrameHeader h .. | .linWakeup h .. => h
  | _ => 0

/-- What a call of a `Produce` function of the C interface does: it gives an event to the event producer of the library, drops it and returns success, returns
an error code, or reads a structure as another one. -/
inductive Produced
  | event (e : Event)
  | dropped
  | refused
  | misread
deriving Repr, DecidableEq

/-- `SilKit_Experimental_CanEventProducer_Produce`, CapiNetworkSimulator.cpp:474-522, with HourglassConversions.hpp:456-493. `memory`: the uninitialised
`cxxEvent.canId`, which is set from structures of version 2 and later only. -/
def canCase (memory : BitVec 32) (datatype : Nat) (c : CEvent) : Produced :=
  match datatype, c with
  | 3, .canFrame _ t f d u => .event (.canFrame (toNanoseconds t) (ofCCanFrame f) d u)
  | 2, .canFrameTransmit h u t s i => .event (.canFrameTransmit (if idVersion h ≥ 2 then i else memory) (toNanoseconds t) s u)
  | 4, .canStateChange _ t s => .event (.canStateChange (toNanoseconds t) s)
  | 5, .canErrorStateChange _ t s => .event (.canErrorStateChange (toNanoseconds t) s)
  | n, _ => if n = 3 ∨ n = 2 ∨ n = 4 ∨ n = 5 then .misread else .dropped

/-- `SilKit_Experimental_FlexRayEventProducer_Produce`, CapiNetworkSimulator.cpp:539-601, with HourglassConversions.hpp:540-591. -/
def flexrayCase (datatype : Nat) (c : CEvent) : Produced :=
  match datatype, c with
  | 1, .frFrame _ t ch f => .event (.frFrame (toNanoseconds t) ch (ofCFlexrayFrame f))
  | 2, .frFrameTransmit _ t b ch f => .event (.frFrameTransmit (toNanoseconds t) b ch (ofCFlexrayFrame f))
  | 3, .frSymbol _ t ch p => .event (.frSymbol (toNanoseconds t) ch p)
  | 5, .frSymbolTransmit _ t ch p => .event (.frSymbolTransmit (toNanoseconds t) ch p)
  | 6, .frCycleStart _ t n => .event (.frCycleStart (toNanoseconds t) n)
  | 7, .frPocStatus _ t s => .event (.frPocStatus (toNanoseconds t) (ofCPocStatus s))
  | n, _ => if n = 1 ∨ n = 2 ∨ n = 3 ∨ n = 5 ∨ n = 6 ∨ n = 7 then .misread else .dropped

/-- `SilKit_Experimental_EthernetEventProducer_Produce`, CapiNetworkSimulator.cpp:618-666, with HourglassConversions.hpp:711-739. -/
def ethernetCase (datatype : Nat) (c : CEvent) : Produced :=
  match datatype, c with
  | 1, .ethFrame _ t _ r d u => .event (.ethFrame (toNanoseconds t) (toSpan r) d u)
  | 2, .ethFrameTransmit _ u t s => .event (.ethFrameTransmit (toNanoseconds t) s u)
  | 3, .ethStateChange _ t s => .event (.ethStateChange (toNanoseconds t) s)
  | 4, .ethBitrateChange _ t b => .event (.ethBitrateChange (toNanoseconds t) b)
  | n, _ => if n = 1 ∨ n = 2 ∨ n = 3 ∨ n = 4 then .misread else .dropped

/-- `SilKit_Experimental_LinEventProducer_Produce`, CapiNetworkSimulator.cpp:683-726, with HourglassConversions.hpp:776-794. -/
def linCase (datatype : Nat) (c : CEvent) : Produced :=
  match datatype, c with
  | 4, .linFrameStatus _ t f s => .event (.linFrameStatus (toNanoseconds t) (ofCLinFrame f) s)
  | 11, .linFrameHeader _ t i => .event (.linSendFrameHeaderRequest (toNanoseconds t) i)
  | 6, .linWakeup _ t d => .event (.linWakeup (toNanoseconds t) d)
  | n, _ => if n = 4 ∨ n = 11 ∨ n = 6 then .misread else .dropped

/-- The four C functions. The structure header must be valid; the data type in it decides. -/
def cProduce (memory : BitVec 32) (b : Bus) (c : CEvent) : Produced :=
  if validId (headerOf c) then
    match b with
    | .can => canCase memory (idDatatype (headerOf c)) c
    | .flexray => flexrayCase (idDatatype (headerOf c)) c
    | .ethernet => ethernetCase (idDatatype (headerOf c)) c
    | .lin => linCase (idDatatype (headerOf c)) c
  else .refused

/-- The messages that the event producers of the library send to the controllers. -/
inductive Sent
  | canFrame (timestamp : Int) (frame : CanFrame) (direction : BitVec 8) (userContext : Nat)
  | canFrameTransmit (canId : BitVec 32) (timestamp : Int) (status : BitVec 32) (userContext : Nat)
  | canStatus (timestamp : Int) (controllerState errorState : BitVec 32)
  | frFrame (timestamp : Int) (channel : BitVec 32) (frame : FlexrayFrame)
  | frFrameTransmit (timestamp : Int) (txBufferIndex : BitVec 16) (channel : BitVec 32) (frame : FlexrayFrame)
  | frSymbol (timestamp : Int) (channel : BitVec 32) (pattern : BitVec 8)
  | frSymbolTransmit (timestamp : Int) (channel : BitVec 32) (pattern : BitVec 8)
  | frCycleStart (timestamp : Int) (cycleCounter : BitVec 8)
  | frPocStatus (timestamp : Int) (status : PocStatus)
  | ethFrame (timestamp : Int) (raw : Bytes) (direction : BitVec 8) (userContext : Nat)
  | ethFrameTransmit (timestamp : Int) (status : BitVec 32) (userContext : Nat)
  | ethStatus (timestamp : Int) (state bitrate : BitVec 32)
  | linTransmission (timestamp : Int) (frame : LinFrame) (status : BitVec 8)
  | linSendFrameHeaderRequest (timestamp : Int) (id : BitVec 8)
  | linWakeupPulse (timestamp : Int) (direction : BitVec 8)
deriving Repr, DecidableEq

/-- The members of the event producers of one network: CanEventProducer.hpp:36-37, EthernetEventProducer.hpp:36-37. -/
structure Producer where
  controllerState : BitVec 32 := 0
  errorState : BitVec 32 := 0
  ethernetState : BitVec 32 := 0
  ethernetBitrate : BitVec 32 := 0
deriving Repr, DecidableEq

/-- `MakeWireEthernetFrame`, WireEthernetMessages.hpp:79-83: frames are filled up to 60 bytes. -/
def padded (raw : Bytes) : Bytes := raw ++ List.replicate (60 - raw.length) 0

/-- The event producers of the library: CanEventProducer.cpp:17-54 (WireCanMessages.hpp:108-123), FlexRayEventProducer.cpp:17-52
(WireFlexrayMessages.hpp:117-150), EthernetEventProducer.cpp:17-54, LinEventProducer.cpp:18-40. -/
def send (p : Producer) : Event → Producer × Sent
  | .canFrame t f d u => (p, .canFrame t f d u)
  | .canFrameTransmit i t s u => (p, .canFrameTransmit i t s u)
  | .canStateChange t s => ({ p with controllerState := s }, .canStatus t s p.errorState)
  | .canErrorStateChange t s => ({ p with errorState := s }, .canStatus t p.controllerState s)
  | .frFrame t c f => (p, .frFrame t c f)
  | .frFrameTransmit t b c f => (p, .frFrameTransmit t b c f)
  | .frSymbol t c q => (p, .frSymbol t c q)
  | .frSymbolTransmit t c q => (p, .frSymbolTransmit t c q)
  | .frCycleStart t c => (p, .frCycleStart t c)
  | .frPocStatus t s => (p, .frPocStatus t s)
  | .ethFrame t r d u => (p, .ethFrame t (padded r) d u)
  | .ethFrameTransmit t s u => (p, .ethFrameTransmit t s u)
  | .ethStateChange t s => ({ p with ethernetState := s }, .ethStatus t s p.ethernetBitrate)
  | .ethBitrateChange t b => ({ p with ethernetBitrate := b }, .ethStatus t p.ethernetState b)
  | .linFrameStatus t f s => (p, .linTransmission t f s)
  | .linSendFrameHeaderRequest t i => (p, .linSendFrameHeaderRequest t i)
  | .linWakeup t d => (p, .linWakeupPulse t d)

/-- `Produce` of the C++ API: the receivers are given as an array and its size (netsim/EventProducer.hpp:148-157) and read as they are
(CapiNetworkSimulator.cpp:464-472); the message is sent to each of them in turn (SimulatedNetworkRouter.hpp:73-91). Simplified: all receivers
are controllers of the network; the others are skipped, see `Model/NetSim.lean`. The result: the messages with their receivers,
or `none` if an exception is thrown or a structure is misread. -/
def produce (memory : BitVec 32) (p : Producer) (e : Event) (receivers : List Nat) : Option (Producer × List (Nat × Sent)) :=
  match cProduce memory e.bus (packEvent e) with
  | .event e' => some ((send p e').1, receivers.map fun r => (r, (send p e').2))
  | .dropped => some (p, [])
  | .refused => none
  | .misread => none

/-- Events produced one after the other on one network. -/
def produceAll (memory : BitVec 32) (p : Producer) : List (Event × List Nat) → Option (List (Nat × Sent))
  | [] => some []
  | (e, rs) :: rest =>
    match produce memory p e rs with
    | none => none
    | some (p', sent) => (produceAll memory p' rest).map (sent ++ ·)

/-! ## The networks -/

/-- `MakeSimulatedNetworkFunctions`, NetworkSimulator.hpp:202-295: the functions for the controllers of a network, and the bus of the event producer. -/
def tableOf : BitVec 32 → Option Bus
  | 1 => some .can
  | 2 => some .lin
  | 3 => some .ethernet
  | 4 => some .flexray
  | _ => none

/-- `CApiSimulatedNetwork::ProvideSimulatedController`, CapiNetworkSimulator.cpp:346-381: the simulated controller of the C interface that calls the functions. -/
def wrapperOf : BitVec 32 → Option Bus
  | 1 => some .can
  | 4 => some .flexray
  | 3 => some .ethernet
  | 2 => some .lin
  | _ => none

/-- The networks that the C++ API has recorded (`_simulatedNetworks`, NetworkSimulator.hpp:305-331), those that the library simulates, and whether the simulator
has been started. -/
structure Networks where
  recorded : List (BitVec 32 × Bytes) := []
  simulated : List (BitVec 32 × Bytes) := []
  started : Bool := false
deriving Repr, DecidableEq

inductive Op
  /-- `SimulateNetwork`; `given`: the network is not a null pointer. -/
  | simulate (type : BitVec 32) (name : Bytes) (given : Bool)
  | start
deriving Repr, DecidableEq

/-- `NetworkSimulator::SimulateNetwork`, netsim/NetworkSimulator.hpp:339-402, `SilKit_Experimental_NetworkSimulator_SimulateNetwork`,
CapiNetworkSimulator.cpp:418-443 (the name ends at the first zero byte), `NetworkSimulatorInternal::SimulateNetwork` and `CreateSimulatedNetwork`,
NetworkSimulatorInternal.cpp:28-44, 107-123; `Start`, 46-56. The result says whether the call returns normally. Simplified: the rest of `Start`. -/
def call (s : Networks) : Op → Networks × Bool
  | .start => ({ s with started := true }, true)
  | .simulate type name given =>
    if given = false then (s, false)
    else if (type, name) ∈ s.recorded then (s, false)
    else
      let s := { s with recorded := (type, name) :: s.recorded }
      if tableOf type = none then (s, true)
      else if s.started then (s, true)
      else if (type, cString name) ∈ s.simulated then (s, false)
      else ({ s with simulated := (type, cString name) :: s.simulated }, true)

def callAll (s : Networks) : List Op → Networks × List Bool
  | [] => (s, [])
  | o :: os => ((callAll (call s o).1 os).1, (call s o).2 :: (callAll (call s o).1 os).2)

end SilKit.NetSimValues
