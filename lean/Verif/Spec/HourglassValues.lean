import Verif.Model.HourglassValues
/-!
# What the C interface can carry

The values that the C++ types can hold and the C types as well: timestamps of 64 bits, texts without zero bytes, payloads below 4 GiB.
-/
namespace SilKit.HourglassValues.Spec

/-- A value of `std::chrono::nanoseconds` on the supported platforms. -/
def Nanoseconds (t : Int) : Prop := -(2 ^ 63) ≤ t ∧ t < 2 ^ 63

/-- A text without zero bytes. -/
def Text (s : Bytes) : Prop := (0 : BitVec 8) ∉ s

def SpecText (s : HourglassValues.Spec) : Prop :=
  Text s.name ∧ Text s.mediaType ∧ ∀ l ∈ s.labels, Text l.key ∧ Text l.value

def StatusFits (s : ParticipantStatus) : Prop :=
  Text s.participantName ∧ Text s.enterReason ∧ Nanoseconds s.enterTime ∧ Nanoseconds s.refreshTime

/-- The values of the event fit into the types of the C interface. -/
def EventFits : Event → Prop
  | .canFrame t _ _ _ | .canFrameTransmit _ t _ _ | .canStateChange t _ | .canErrorStateChange t _ | .ethFrame t _ _ _ | .ethFrameTransmit t _ _
  | .ethStateChange t _ | .ethBitrateChange t _ | .linFrameStatus t _ _ | .linGoToSleep t | .linWakeup t _ | .linSlaveConfiguration t
  | .linFrameHeader t _ | .frWakeup t _ _ | .frSymbol t _ _ | .frSymbolTransmit t _ _ | .frPocStatus t _ | .frCycleStart t _
  | .dataMessage t _ | .rpcCall t _ _ | .rpcCallResult t _ _ _ => Nanoseconds t
  | .frFrame t _ f | .frFrameTransmit t _ _ f => Nanoseconds t ∧ f.payload.length < 2 ^ 32
  | .participantStatus s => StatusFits s
  | .systemState _ => True
  | .simulationStep n d => Nanoseconds n ∧ Nanoseconds d

/-- The values of the call fit into the types of the C interface; call handles are those given to the user, not null. -/
def CommandFits : Command → Prop
  | .frConfigure c => c.bufferConfigs.length < 2 ^ 32
  | .createDataPublisher n s _ | .createDataSubscriber n s | .createRpcClient n s | .createRpcServer n s => Text n ∧ SpecText s
  | .rpcCallWithTimeout _ t _ | .setSimulationStepHandler t => Nanoseconds t
  | .rpcSubmitResult h _ => h ≠ 0
  | .setWorkflowConfiguration l => ∀ n ∈ l, Text n
  | _ => True

/-- The exception classes of the C++ API (include/silkit/participant/exception.hpp). -/
def Declared (e : Exn) : Prop :=
  e ∈ [Exn.silkit, .typeConversion, .configuration, .state, .protocol, .assertion, .extension, .logic, .length, .outOfRange]

/-- The headers of the structures of an event, each with the structure it should name. -/
def headers : CEvent → List (Option Nat × Struct)
  | .canFrame h _ f _ _ => [(some h, .canFrameEvent), (some f.header, .canFrame)]
  | .canFrameTransmit h _ _ _ _ => [(some h, .canFrameTransmitEvent)]
  | .canStateChange h _ _ => [(some h, .canStateChangeEvent)]
  | .canErrorStateChange h _ _ => [(some h, .canErrorStateChangeEvent)]
  | .ethFrame h _ g _ _ _ => [(some h, .ethernetFrameEvent), (some g, .ethernetFrame)]
  | .ethFrameTransmit h _ _ _ => [(some h, .ethernetFrameTransmitEvent)]
  | .ethStateChange h _ _ => [(some h, .ethernetStateChangeEvent)]
  | .ethBitrateChange h _ _ => [(some h, .ethernetBitrateChangeEvent)]
  | .linFrameStatus h _ f _ => [(some h, .linFrameStatusEvent), (f.header, .linFrame)]
  | .linGoToSleep h _ => [(some h, .linGoToSleepEvent)]
  | .linWakeup h _ _ => [(some h, .linWakeupEvent)]
  | .linSlaveConfiguration h _ => [(some h, .linSlaveConfigurationEvent)]
  | .linFrameHeader h _ _ => [(some h, .linFrameHeaderEvent)]
  | .frFrame h _ _ f => [(some h, .flexrayFrameEvent), (some f.header, .flexrayFrame), (some f.frameHeader.header, .flexrayHeader)]
  | .frFrameTransmit h _ _ _ f => [(some h, .flexrayFrameTransmitEvent), (some f.header, .flexrayFrame), (some f.frameHeader.header, .flexrayHeader)]
  | .frWakeup h _ _ _ => [(some h, .flexrayWakeupEvent)]
  | .frSymbol h _ _ _ => [(some h, .flexraySymbolEvent)]
  | .frSymbolTransmit h _ _ _ => [(some h, .flexraySymbolTransmitEvent)]
  | .frPocStatus h _ _ => [(some h, .flexrayPocStatusEvent)]
  | .frCycleStart h _ _ => [(some h, .flexrayCycleStartEvent)]
  | .dataMessage h _ _ => [(some h, .dataMessageEvent)]
  | .rpcCall h _ _ _ => [(some h, .rpcCallEvent)]
  | .rpcCallResult h _ _ _ _ => [(some h, .rpcCallResultEvent)]
  | .participantStatus h _ _ _ _ _ => [(some h, .participantStatus)]
  | .systemState _ => []
  | .simulationStep _ _ => []

end SilKit.HourglassValues.Spec
