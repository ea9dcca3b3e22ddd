import Verif.Model.Basic
/-!
# Reading and writing configurations (config/YamlReader.cpp, config/YamlWriter.cpp)

A document is the tree that the YAML library builds from a text, or emits as a text. The library itself is not part of the repository and not
modelled: emitting a tree as YAML or JSON and parsing the text again is taken to give the same tree. A scalar is its text. Not modelled are null
values, tags, anchors, documents that begin with `---`, and scalars that the library understands in other notations (hexadecimal numbers, and numbers
as boolean values other than 0 and 1). A floating-point number is the text it is written as. Enumerations have no values besides their enumerators.
-/
namespace SilKit.ConfigText

/-- A node of a document. `none` is a node that was appended but has no type and no value yet. -/
inductive Yaml
  | none
  | val (text : String)
  | seq (items : List Yaml)
  | map (entries : List (String × Yaml))
deriving Repr, Inhabited

/-! ## The configuration, ParticipantConfiguration.hpp and Configuration.hpp -/

/-- Services::Logging::Level, LoggingDatatypes.hpp. -/
inductive Level | trace | debug | info | warn | error | critical | off
deriving Repr, DecidableEq, Inhabited

/-- Services::Logging::Topic without `Invalid`, which is not a value of a configuration, LoggingTopics.hpp:15-40. -/
inductive Topic
  | none | user | lifeCycle | systemState | messageTracing | serviceDiscovery | asio | timeSync | participant | timeConfig | requestReply
  | systemMonitor | can | ethernet | flexray | lin | metrics | pubsub | rpc | tracing | dashboard | netSim | extension
deriving Repr, DecidableEq, Inhabited

/-- Configuration.hpp:68-73. -/
inductive SinkType | remote | stdout | file
deriving Repr, DecidableEq, Inhabited

/-- Configuration.hpp:76-80. -/
inductive SinkFormat | simple | json
deriving Repr, DecidableEq, Inhabited

/-- Configuration.hpp:66-89. -/
structure Sink where
  format : SinkFormat := .simple
  type : SinkType := .remote
  level : Level := .info
  logName : String := ""
  disabledTopics : List Topic := []
  enabledTopics : List Topic := []
deriving Repr, DecidableEq

instance : Inhabited Sink := ⟨{}⟩

/-- Configuration.hpp:92-97. -/
structure Logging where
  logFromRemotes : Bool := false
  flushLevel : Level := .off
  sinks : List Sink := []
deriving Repr, DecidableEq

instance : Inhabited Logging := ⟨{}⟩

/-- Configuration.hpp:105-111. -/
inductive TraceSinkType | undefined | pcapFile | pcapPipe | mdf4File
deriving Repr, DecidableEq, Inhabited

/-- Configuration.hpp:103-116. -/
structure TraceSink where
  type : TraceSinkType := .undefined
  name : String := ""
  outputPath : String := ""
deriving Repr, DecidableEq

instance : Inhabited TraceSink := ⟨{}⟩

/-- Configuration.hpp:120-125. -/
inductive TraceSourceType | undefined | pcapFile | mdf4File
deriving Repr, DecidableEq, Inhabited

/-- Configuration.hpp:118-130. -/
structure TraceSource where
  type : TraceSourceType := .undefined
  name : String := ""
  inputPath : String := ""
deriving Repr, DecidableEq

instance : Inhabited TraceSource := ⟨{}⟩

/-- Configuration.hpp:133-143. -/
structure MdfChannel where
  channelName : Option String := none
  channelSource : Option String := none
  channelPath : Option String := none
  groupName : Option String := none
  groupSource : Option String := none
  groupPath : Option String := none
deriving Repr, DecidableEq

instance : Inhabited MdfChannel := ⟨{}⟩

/-- Configuration.hpp:149-155. -/
inductive Direction | undefined | send | receive | both
deriving Repr, DecidableEq, Inhabited

/-- Configuration.hpp:145-158. -/
structure Replay where
  useTraceSource : String := ""
  direction : Direction := .undefined
  mdfChannel : MdfChannel := {}
deriving Repr, DecidableEq

instance : Inhabited Replay := ⟨{}⟩

/-- CAN, LIN and Ethernet controllers have the same members, ParticipantConfiguration.hpp:49-99. -/
structure Controller where
  name : String := ""
  network : Option String := none
  useTraceSinks : List String := []
  replay : Replay := {}
deriving Repr, DecidableEq

instance : Inhabited Controller := ⟨{}⟩

/-- silkit/services/flexray/FlexrayDatatypes.hpp:46-125. -/
structure ClusterParameters where
  gColdstartAttempts : UInt8 := 0
  gCycleCountMax : UInt8 := 0
  gdActionPointOffset : UInt16 := 0
  gdDynamicSlotIdlePhase : UInt16 := 0
  gdMiniSlot : UInt16 := 0
  gdMiniSlotActionPointOffset : UInt16 := 0
  gdStaticSlot : UInt16 := 0
  gdSymbolWindow : UInt16 := 0
  gdSymbolWindowActionPointOffset : UInt16 := 0
  gdTSSTransmitter : UInt16 := 0
  gdWakeupTxActive : UInt16 := 0
  gdWakeupTxIdle : UInt16 := 0
  gListenNoise : UInt8 := 0
  gMacroPerCycle : UInt16 := 0
  gMaxWithoutClockCorrectionFatal : UInt8 := 0
  gMaxWithoutClockCorrectionPassive : UInt8 := 0
  gNumberOfMiniSlots : UInt16 := 0
  gNumberOfStaticSlots : UInt16 := 0
  gPayloadLengthStatic : UInt16 := 0
  gSyncFrameIDCountMax : UInt8 := 0
deriving Repr, DecidableEq

instance : Inhabited ClusterParameters := ⟨{}⟩

/-- FlexrayDatatypes.hpp:25-31. -/
inductive Channel | none | a | b | ab
deriving Repr, DecidableEq, Inhabited

/-- FlexrayDatatypes.hpp:34-39. -/
inductive ClockPeriod | t12_5ns | t25ns | t50ns
deriving Repr, DecidableEq, Inhabited

/-- FlexrayDatatypes.hpp:246-250. -/
inductive TransmissionMode | singleShot | continuous
deriving Repr, DecidableEq, Inhabited

/-- FlexrayDatatypes.hpp:132-243. -/
structure NodeParameters where
  pAllowHaltDueToClock : UInt8 := 0
  pAllowPassiveToActive : UInt8 := 0
  pChannels : Channel := .none
  pClusterDriftDamping : UInt8 := 0
  pdAcceptedStartupRange : Int32 := 0
  pdListenTimeout : Int32 := 0
  pKeySlotId : UInt16 := 0
  pKeySlotOnlyEnabled : UInt8 := 0
  pKeySlotUsedForStartup : UInt8 := 0
  pKeySlotUsedForSync : UInt8 := 0
  pLatestTx : UInt16 := 0
  pMacroInitialOffsetA : UInt8 := 0
  pMacroInitialOffsetB : UInt8 := 0
  pMicroInitialOffsetA : Int32 := 0
  pMicroInitialOffsetB : Int32 := 0
  pMicroPerCycle : Int32 := 0
  pOffsetCorrectionOut : Int32 := 0
  pOffsetCorrectionStart : UInt16 := 0
  pRateCorrectionOut : Int32 := 0
  pWakeupChannel : Channel := .none
  pWakeupPattern : UInt8 := 0
  pdMicrotick : ClockPeriod := .t12_5ns
  pSamplesPerMicrotick : UInt8 := 0
  pSecondKeySlotId : UInt16 := 0
  pTwoKeySlotMode : UInt8 := 0
deriving Repr, DecidableEq

instance : Inhabited NodeParameters := ⟨{}⟩

/-- FlexrayDatatypes.hpp:253-275. -/
structure TxBufferConfig where
  channels : Channel := .none
  slotId : UInt16 := 0
  offset : UInt8 := 0
  repetition : UInt8 := 0
  hasPayloadPreambleIndicator : Bool := false
  headerCrc : UInt16 := 0
  transmissionMode : TransmissionMode := .singleShot
deriving Repr, DecidableEq

instance : Inhabited TxBufferConfig := ⟨{}⟩

/-- ParticipantConfiguration.hpp:106-122. -/
structure FlexrayController where
  name : String := ""
  network : Option String := none
  clusterParameters : Option ClusterParameters := none
  nodeParameters : Option NodeParameters := none
  txBufferConfigurations : List TxBufferConfig := []
  useTraceSinks : List String := []
  replay : Replay := {}
deriving Repr, DecidableEq

instance : Inhabited FlexrayController := ⟨{}⟩

/-- ParticipantConfiguration.hpp:130-134. -/
inductive LabelKind | optional | mandatory
deriving Repr, DecidableEq, Inhabited

/-- ParticipantConfiguration.hpp:128-143. -/
structure Label where
  key : String := ""
  value : String := ""
  kind : LabelKind := .optional
deriving Repr, DecidableEq

instance : Inhabited Label := ⟨{}⟩

/-- ParticipantConfiguration.hpp:150-166. -/
structure DataPublisher where
  name : String := ""
  topic : Option String := none
  labels : Option (List Label) := none
  history : Option UInt64 := none
  useTraceSinks : List String := []
  replay : Replay := {}
deriving Repr, DecidableEq

instance : Inhabited DataPublisher := ⟨{}⟩

/-- ParticipantConfiguration.hpp:169-182. -/
structure DataSubscriber where
  name : String := ""
  topic : Option String := none
  labels : Option (List Label) := none
  useTraceSinks : List String := []
  replay : Replay := {}
deriving Repr, DecidableEq

instance : Inhabited DataSubscriber := ⟨{}⟩

/-- RpcServer and RpcClient have the same members, ParticipantConfiguration.hpp:189-218. -/
structure RpcEnd where
  name : String := ""
  functionName : Option String := none
  labels : Option (List Label) := none
  useTraceSinks : List String := []
  replay : Replay := {}
deriving Repr, DecidableEq

instance : Inhabited RpcEnd := ⟨{}⟩

/-- ParticipantConfiguration.hpp:225-229. -/
structure HealthCheck where
  softResponseTimeout : Option Int64 := none
  hardResponseTimeout : Option Int64 := none
deriving Repr, DecidableEq

instance : Inhabited HealthCheck := ⟨{}⟩

/-- ParticipantConfiguration.hpp:236-240. -/
structure Tracing where
  traceSinks : List TraceSink := []
  traceSources : List TraceSource := []
deriving Repr, DecidableEq

instance : Inhabited Tracing := ⟨{}⟩

/-- ParticipantConfiguration.hpp:248-253. -/
inductive MetricsSinkType | undefined | jsonFile | remote
deriving Repr, DecidableEq, Inhabited

/-- ParticipantConfiguration.hpp:246-257. -/
structure MetricsSink where
  type : MetricsSinkType := .undefined
  name : String := ""
deriving Repr, DecidableEq

instance : Inhabited MetricsSink := ⟨{}⟩

/-- ParticipantConfiguration.hpp:260-265. -/
structure Metrics where
  sinks : List MetricsSink := []
  collectFromRemote : Option Bool := none
  updateInterval : Int64 := 1
deriving Repr, DecidableEq

instance : Inhabited Metrics := ⟨{}⟩

/-- ParticipantConfiguration.hpp:272-276. -/
structure Extensions where
  searchPathHints : List String := []
deriving Repr, DecidableEq

instance : Inhabited Extensions := ⟨{}⟩

/-- ParticipantConfiguration.hpp:282-300. -/
structure Middleware where
  registryUri : String := ""
  connectAttempts : Int32 := 1
  tcpReceiveBufferSize : Int32 := -1
  tcpSendBufferSize : Int32 := -1
  tcpNoDelay : Bool := true
  tcpQuickAck : Bool := false
  enableDomainSockets : Bool := true
  acceptorUris : List String := []
  registryAsFallbackProxy : Bool := true
  experimentalRemoteParticipantConnection : Bool := true
  connectTimeoutSeconds : String := "5"
deriving Repr, DecidableEq

instance : Inhabited Middleware := ⟨{}⟩

/-- Configuration.hpp:51-56. -/
inductive Aggregation | off | on | auto
deriving Repr, DecidableEq, Inhabited

/-- ParticipantConfiguration.hpp:308-318. -/
structure TimeSynchronization where
  animationFactor : String := "0"
  enableMessageAggregation : Aggregation := .off
  dynamicSimulationStep : Option Bool := none
deriving Repr, DecidableEq

instance : Inhabited TimeSynchronization := ⟨{}⟩

/-- ParticipantConfiguration.hpp:325-329. -/
structure Experimental where
  timeSynchronization : TimeSynchronization := {}
  metrics : Metrics := {}
deriving Repr, DecidableEq

instance : Inhabited Experimental := ⟨{}⟩

/-- ParticipantConfiguration.hpp:336-340. -/
structure Includes where
  searchPathHints : List String := []
  files : List String := []
deriving Repr, DecidableEq

instance : Inhabited Includes := ⟨{}⟩

/-- ParticipantConfiguration.hpp:353-388. -/
structure Participant where
  schemaVersion : String := ""
  description : String := ""
  configurationFilePath : String := ""
  participantName : String := ""
  canControllers : List Controller := []
  linControllers : List Controller := []
  ethernetControllers : List Controller := []
  flexrayControllers : List FlexrayController := []
  dataPublishers : List DataPublisher := []
  dataSubscribers : List DataSubscriber := []
  rpcServers : List RpcEnd := []
  rpcClients : List RpcEnd := []
  logging : Logging := {}
  healthCheck : HealthCheck := {}
  tracing : Tracing := {}
  extensions : Extensions := {}
  includes : Includes := {}
  middleware : Middleware := {}
  experimental : Experimental := {}
deriving Repr, DecidableEq

instance : Inhabited Participant := ⟨{}⟩

/-- SilKitRegistry::Config::V1::Experimental and RegistryConfiguration, ParticipantConfiguration.hpp:430-444. -/
structure Registry where
  description : String := ""
  schemaVersion : String := ""
  listenUri : Option String := none
  enableDomainSockets : Option Bool := none
  dashboardUri : Option String := none
  logging : Logging := {}
  metrics : Metrics := {}
deriving Repr, DecidableEq

instance : Inhabited Registry := ⟨{}⟩

/-- GetSchemaVersion, ParticipantConfiguration.hpp:347-350. -/
def schemaVersion : String := "1"

/-! ## Texts of scalars, by the YAML library -/

/-- An integer in decimal notation (`operator<<` of the YAML library, std::to_string). -/
def natText (n : Nat) : String := String.ofList (Nat.toDigits 10 n)

def intText (i : Int) : String := if i < 0 then String.ofList ('-' :: Nat.toDigits 10 i.natAbs) else natText i.natAbs

/-- Both notations of a boolean value that the library may write, `true` and `1`, are read in the same way. -/
def boolText (b : Bool) : String := if b then "true" else "false"

def digitsVal (l : List Char) : Option Nat := if l ≠ [] ∧ l.all Char.isDigit then some (Nat.ofDigitChars 10 l 0) else none

/-- `operator>>` of the YAML library for integers; only decimal notation is modelled. -/
def textNat (s : String) : Option Nat := digitsVal s.toList

def textInt (s : String) : Option Int :=
  match s.toList with
  | '-' :: l => (digitsVal l).map (fun (n : Nat) => -(n : Int))
  | l => (digitsVal l).map (fun (n : Nat) => (n : Int))

def textBool (s : String) : Option Bool :=
  if s = "true" ∨ s = "True" ∨ s = "TRUE" ∨ s = "1" then some true
  else if s = "false" ∨ s = "False" ∨ s = "FALSE" ∨ s = "0" then some false
  else none

/-! ## The writer, YamlWriter.hpp and YamlWriter.cpp -/

/-- A function of the writer; it works on a node. -/
abbrev W := Yaml → Res Yaml

/-- Calls one after the other. -/
def block (ws : List W) : W := fun n => ws.foldlM (fun n w => w n) n

/-- MakeMap, YamlWriter.hpp:96-99. A node that has a value already is not written again by the code. -/
def makeMap : W := fun n =>
  match n with
  | .map l => .ok (.map l)
  | _ => .ok (.map [])

/-- WriteKeyValue, YamlWriter.hpp:66-76. -/
def writeKey (name : String) (w : W) : W := fun n =>
  match n with
  | .map l => do
    let child ← w .none
    pure (.map (l ++ [(name, child)]))
  | _ => .throw "Parse error: trying to access child of something not a map"

def skip : W := fun n => .ok n

/-- Write of a scalar, YamlWriter.hpp:78-82. -/
def scalar (s : String) : W := fun _ => .ok (.val s)

def writeAll {T : Type} (w : T → W) : List T → Res (List Yaml)
  | [] => .ok []
  | x :: l => do
    let y ← w x .none
    let ys ← writeAll w l
    pure (y :: ys)

/-- Write of a vector, YamlWriter.hpp:84-93. -/
def writeVec {T : Type} (w : T → W) (l : List T) : W := fun _ => do
  let items ← writeAll w l
  pure (.seq items)

/-- OptionalWrite of std::optional, YamlWriter.hpp:31-38. -/
def optWrite {T : Type} (v : Option T) (name : String) (w : T → W) : W :=
  match v with
  | some x => writeKey name (w x)
  | none => skip

/-- OptionalWrite of a vector, YamlWriter.hpp:40-47. -/
def optWriteVec {T : Type} (v : List T) (name : String) (w : T → W) : W := if v.isEmpty then skip else writeKey name (writeVec w v)

/-- OptionalWrite of a string, YamlWriter.hpp:49-55. -/
def optWriteStr (v : String) (name : String) : W := if v = "" then skip else writeKey name (scalar v)

/-- NonDefaultWrite, YamlWriter.hpp:57-64; `same` is the result of the comparison with the default value. -/
def nonDefault (same : Bool) (name : String) (w : W) : W := if same then skip else writeKey name w

/-- Write of a size_t. -/
def writeSize (n : UInt64) : W := scalar (natText n.toNat)

/-- Write of a duration, YamlWriter.cpp:9-18. -/
def writeDuration (i : Int64) : W := scalar (intText i.toInt)

/-- YamlWriter.cpp:44-70. -/
def writeLevel (l : Level) : W :=
  scalar (match l with
    | .critical => "Critical" | .error => "Error" | .warn => "Warn" | .info => "Info" | .debug => "Debug" | .trace => "Trace" | .off => "Off")

/-- YamlWriter.cpp:73-97. -/
def writeCluster (o : ClusterParameters) : W :=
  block [makeMap,
    writeKey "gColdstartAttempts" (scalar (natText o.gColdstartAttempts.toNat)),
    writeKey "gCycleCountMax" (scalar (natText o.gCycleCountMax.toNat)),
    writeKey "gdActionPointOffset" (scalar (natText o.gdActionPointOffset.toNat)),
    writeKey "gdDynamicSlotIdlePhase" (scalar (natText o.gdDynamicSlotIdlePhase.toNat)),
    writeKey "gdMiniSlot" (scalar (natText o.gdMiniSlot.toNat)),
    writeKey "gdMiniSlotActionPointOffset" (scalar (natText o.gdMiniSlotActionPointOffset.toNat)),
    writeKey "gdStaticSlot" (scalar (natText o.gdStaticSlot.toNat)),
    writeKey "gdSymbolWindow" (scalar (natText o.gdSymbolWindow.toNat)),
    writeKey "gdSymbolWindowActionPointOffset" (scalar (natText o.gdSymbolWindowActionPointOffset.toNat)),
    writeKey "gdTSSTransmitter" (scalar (natText o.gdTSSTransmitter.toNat)),
    writeKey "gdWakeupTxActive" (scalar (natText o.gdWakeupTxActive.toNat)),
    writeKey "gdWakeupTxIdle" (scalar (natText o.gdWakeupTxIdle.toNat)),
    writeKey "gListenNoise" (scalar (natText o.gListenNoise.toNat)),
    writeKey "gMacroPerCycle" (scalar (natText o.gMacroPerCycle.toNat)),
    writeKey "gMaxWithoutClockCorrectionFatal" (scalar (natText o.gMaxWithoutClockCorrectionFatal.toNat)),
    writeKey "gMaxWithoutClockCorrectionPassive" (scalar (natText o.gMaxWithoutClockCorrectionPassive.toNat)),
    writeKey "gNumberOfMiniSlots" (scalar (natText o.gNumberOfMiniSlots.toNat)),
    writeKey "gNumberOfStaticSlots" (scalar (natText o.gNumberOfStaticSlots.toNat)),
    writeKey "gPayloadLengthStatic" (scalar (natText o.gPayloadLengthStatic.toNat)),
    writeKey "gSyncFrameIDCountMax" (scalar (natText o.gSyncFrameIDCountMax.toNat))]

/-- YamlWriter.cpp:145-162. -/
def writeChannel (c : Channel) : W := scalar (match c with | .a => "A" | .b => "B" | .ab => "AB" | .none => "None")

/-- YamlWriter.cpp:165-181. -/
def writeClockPeriod (c : ClockPeriod) : W := scalar (match c with | .t12_5ns => "12.5ns" | .t25ns => "25ns" | .t50ns => "50ns")

/-- YamlWriter.cpp:184-197. -/
def writeTransmissionMode (m : TransmissionMode) : W := scalar (match m with | .continuous => "Continuous" | .singleShot => "SingleShot")

/-- YamlWriter.cpp:100-129. -/
def writeNode (o : NodeParameters) : W :=
  block [makeMap,
    writeKey "pAllowHaltDueToClock" (scalar (natText o.pAllowHaltDueToClock.toNat)),
    writeKey "pAllowPassiveToActive" (scalar (natText o.pAllowPassiveToActive.toNat)),
    writeKey "pClusterDriftDamping" (scalar (natText o.pClusterDriftDamping.toNat)),
    writeKey "pdAcceptedStartupRange" (scalar (intText o.pdAcceptedStartupRange.toInt)),
    writeKey "pdListenTimeout" (scalar (intText o.pdListenTimeout.toInt)),
    writeKey "pKeySlotId" (scalar (natText o.pKeySlotId.toNat)),
    writeKey "pKeySlotOnlyEnabled" (scalar (natText o.pKeySlotOnlyEnabled.toNat)),
    writeKey "pKeySlotUsedForStartup" (scalar (natText o.pKeySlotUsedForStartup.toNat)),
    writeKey "pKeySlotUsedForSync" (scalar (natText o.pKeySlotUsedForSync.toNat)),
    writeKey "pLatestTx" (scalar (natText o.pLatestTx.toNat)),
    writeKey "pMacroInitialOffsetA" (scalar (natText o.pMacroInitialOffsetA.toNat)),
    writeKey "pMacroInitialOffsetB" (scalar (natText o.pMacroInitialOffsetB.toNat)),
    writeKey "pMicroInitialOffsetA" (scalar (intText o.pMicroInitialOffsetA.toInt)),
    writeKey "pMicroInitialOffsetB" (scalar (intText o.pMicroInitialOffsetB.toInt)),
    writeKey "pMicroPerCycle" (scalar (intText o.pMicroPerCycle.toInt)),
    writeKey "pOffsetCorrectionOut" (scalar (intText o.pOffsetCorrectionOut.toInt)),
    writeKey "pOffsetCorrectionStart" (scalar (natText o.pOffsetCorrectionStart.toNat)),
    writeKey "pRateCorrectionOut" (scalar (intText o.pRateCorrectionOut.toInt)),
    writeKey "pWakeupPattern" (scalar (natText o.pWakeupPattern.toNat)),
    writeKey "pSamplesPerMicrotick" (scalar (natText o.pSamplesPerMicrotick.toNat)),
    writeKey "pWakeupChannel" (writeChannel o.pWakeupChannel),
    writeKey "pdMicrotick" (writeClockPeriod o.pdMicrotick),
    writeKey "pChannels" (writeChannel o.pChannels),
    nonDefault (decide (o.pSecondKeySlotId = ({} : NodeParameters).pSecondKeySlotId)) "pSecondKeySlotId" (scalar (natText o.pSecondKeySlotId.toNat)),
    nonDefault (decide (o.pTwoKeySlotMode = ({} : NodeParameters).pTwoKeySlotMode)) "pTwoKeySlotMode" (scalar (natText o.pTwoKeySlotMode.toNat))]

/-- YamlWriter.cpp:132-142. -/
def writeTxBuffer (o : TxBufferConfig) : W :=
  block [makeMap,
    writeKey "channels" (writeChannel o.channels),
    writeKey "slotId" (scalar (natText o.slotId.toNat)),
    writeKey "offset" (scalar (natText o.offset.toNat)),
    writeKey "repetition" (scalar (natText o.repetition.toNat)),
    writeKey "PPindicator" (scalar (boolText o.hasPayloadPreambleIndicator)),
    writeKey "headerCrc" (scalar (natText o.headerCrc.toNat)),
    writeKey "transmissionMode" (writeTransmissionMode o.transmissionMode)]

/-- YamlWriter.cpp:200-214. -/
def writeSinkType (t : SinkType) : W := scalar (match t with | .remote => "Remote" | .stdout => "Stdout" | .file => "File")

/-- YamlWriter.cpp:231-239. -/
def writeSink (o : Sink) : W :=
  block [makeMap,
    writeKey "Type" (writeSinkType o.type),
    nonDefault (decide (o.level = ({} : Sink).level)) "Level" (writeLevel o.level),
    nonDefault (decide (o.logName = ({} : Sink).logName)) "LogName" (scalar o.logName)]

/-- YamlWriter.cpp:242-250. -/
def writeLogging (o : Logging) : W :=
  block [makeMap,
    nonDefault (decide (o.logFromRemotes = ({} : Logging).logFromRemotes)) "LogFromRemotes" (scalar (boolText o.logFromRemotes)),
    nonDefault (decide (o.flushLevel = ({} : Logging).flushLevel)) "FlushLevel" (writeLevel o.flushLevel),
    writeKey "Sinks" (writeVec writeSink o.sinks)]

/-- YamlWriter.cpp:254-270. -/
def writeMetricsSinkType (t : MetricsSinkType) : W := scalar (match t with | .undefined => "Undefined" | .jsonFile => "JsonFile" | .remote => "Remote")

/-- YamlWriter.cpp:273-281. -/
def writeMetricsSink (o : MetricsSink) : W :=
  block [makeMap,
    writeKey "Type" (writeMetricsSinkType o.type),
    optWriteStr o.name "Name"]

/-- YamlWriter.cpp:284-295. -/
def writeMetrics (o : Metrics) : W :=
  block [makeMap,
    optWriteVec o.sinks "Sinks" writeMetricsSink,
    optWrite o.collectFromRemote "CollectFromRemote" (fun b => scalar (boolText b)),
    nonDefault (decide (o.updateInterval = ({} : Metrics).updateInterval)) "UpdateInterval" (scalar (intText o.updateInterval.toInt))]

/-- YamlWriter.cpp:298-307. -/
def writeMdfChannel (o : MdfChannel) : W :=
  block [makeMap,
    optWrite o.channelName "ChannelName" scalar,
    optWrite o.channelPath "ChannelPath" scalar,
    optWrite o.channelSource "ChannelSource" scalar,
    optWrite o.groupName "GroupName" scalar,
    optWrite o.groupPath "GroupPath" scalar,
    optWrite o.groupSource "GroupSource" scalar]

/-- YamlWriter.cpp:320-337. -/
def writeDirection (d : Direction) : W := scalar (match d with | .send => "Send" | .receive => "Receive" | .both => "Both" | .undefined => "Undefined")

/-- YamlWriter.cpp:310-317. -/
def writeReplay (o : Replay) : W :=
  block [makeMap,
    writeKey "UseTraceSource" (scalar o.useTraceSource),
    nonDefault (decide (o.direction = ({} : Replay).direction)) "Direction" (writeDirection o.direction),
    nonDefault (decide (o.mdfChannel = ({} : Replay).mdfChannel)) "MdfChannel" (writeMdfChannel o.mdfChannel)]

/-- OptionalWrite of a Replay, YamlWriter.hpp:135-141. -/
def optWriteReplay (o : Replay) (name : String) : W := if o.useTraceSource.length > 0 then writeKey name (writeReplay o) else skip

/-- The three functions for CAN, LIN and Ethernet controllers are alike, YamlWriter.cpp:340-367. -/
def writeController (o : Controller) : W :=
  block [makeMap,
    writeKey "Name" (scalar o.name),
    optWrite o.network "Network" scalar,
    optWriteVec o.useTraceSinks "UseTraceSinks" scalar,
    optWriteReplay o.replay "Replay"]

/-- YamlWriter.cpp:370-380. -/
def writeFlexrayController (o : FlexrayController) : W :=
  block [makeMap,
    writeKey "Name" (scalar o.name),
    optWrite o.network "Network" scalar,
    optWrite o.clusterParameters "ClusterParameters" writeCluster,
    optWrite o.nodeParameters "NodeParameters" writeNode,
    optWriteVec o.txBufferConfigurations "TxBufferConfigurations" writeTxBuffer,
    optWriteVec o.useTraceSinks "UseTraceSinks" scalar,
    optWriteReplay o.replay "Replay"]

/-- YamlWriter.cpp:382-395. -/
def writeLabelKind (k : LabelKind) : W := scalar (match k with | .mandatory => "Mandatory" | .optional => "Optional")

/-- YamlWriter.cpp:398-404. -/
def writeLabel (o : Label) : W :=
  block [makeMap,
    writeKey "Key" (scalar o.key),
    writeKey "Value" (scalar o.value),
    writeKey "Kind" (writeLabelKind o.kind)]

/-- YamlWriter.cpp:406-415. -/
def writeDataPublisher (o : DataPublisher) : W :=
  block [makeMap,
    writeKey "Name" (scalar o.name),
    optWrite o.topic "Topic" scalar,
    optWrite o.labels "Labels" (writeVec writeLabel),
    optWrite o.history "History" writeSize,
    optWriteVec o.useTraceSinks "UseTraceSinks" scalar,
    optWriteReplay o.replay "Replay"]

/-- YamlWriter.cpp:418-426. -/
def writeDataSubscriber (o : DataSubscriber) : W :=
  block [makeMap,
    writeKey "Name" (scalar o.name),
    optWrite o.topic "Topic" scalar,
    optWrite o.labels "Labels" (writeVec writeLabel),
    optWriteVec o.useTraceSinks "UseTraceSinks" scalar,
    optWriteReplay o.replay "Replay"]

/-- YamlWriter.cpp:428-447 and 437-445: `function` is the key for the name of the function. -/
def writeRpcEnd (function : String) (o : RpcEnd) : W :=
  block [makeMap,
    writeKey "Name" (scalar o.name),
    optWrite o.functionName function scalar,
    optWrite o.labels "Labels" (writeVec writeLabel),
    optWriteVec o.useTraceSinks "UseTraceSinks" scalar,
    optWriteReplay o.replay "Replay"]

/-- YamlWriter.cpp:428-436. -/
def writeRpcServer : RpcEnd → W := writeRpcEnd "FunctionName"

/-- YamlWriter.cpp:439-447. -/
def writeRpcClient : RpcEnd → W := writeRpcEnd "Channel"

/-- YamlWriter.cpp:465-484. -/
def writeTraceSinkType (t : TraceSinkType) : W :=
  scalar (match t with | .undefined => "Undefined" | .mdf4File => "Mdf4File" | .pcapFile => "PcapFile" | .pcapPipe => "PcapPipe")

/-- YamlWriter.cpp:456-462. -/
def writeTraceSink (o : TraceSink) : W :=
  block [makeMap,
    writeKey "Name" (scalar o.name),
    writeKey "Type" (writeTraceSinkType o.type),
    writeKey "OutputPath" (scalar o.outputPath)]

/-- YamlWriter.cpp:496-512. -/
def writeTraceSourceType (t : TraceSourceType) : W :=
  scalar (match t with | .undefined => "Undefined" | .mdf4File => "Mdf4File" | .pcapFile => "PcapFile")

/-- YamlWriter.cpp:487-493. -/
def writeTraceSource (o : TraceSource) : W :=
  block [makeMap,
    writeKey "Name" (scalar o.name),
    writeKey "Type" (writeTraceSourceType o.type),
    writeKey "InputPath" (scalar o.inputPath)]

/-- YamlWriter.cpp:449-454. -/
def writeTracing (o : Tracing) : W :=
  block [makeMap,
    optWriteVec o.traceSinks "TraceSinks" writeTraceSink,
    optWriteVec o.traceSources "TraceSources" writeTraceSource]

/-- YamlWriter.cpp:515-520. -/
def writeExtensions (o : Extensions) : W :=
  block [makeMap,
    nonDefault (decide (o.searchPathHints = ({} : Extensions).searchPathHints)) "SearchPathHints" (writeVec scalar o.searchPathHints)]

/-- YamlWriter.cpp:523-539. -/
def writeMiddleware (o : Middleware) : W :=
  block [makeMap,
    nonDefault (decide (o.registryUri = ({} : Middleware).registryUri)) "RegistryUri" (scalar o.registryUri),
    nonDefault (decide (o.connectAttempts = ({} : Middleware).connectAttempts)) "ConnectAttempts" (scalar (intText o.connectAttempts.toInt)),
    nonDefault (decide (o.tcpNoDelay = ({} : Middleware).tcpNoDelay)) "TcpNoDelay" (scalar (boolText o.tcpNoDelay)),
    nonDefault (decide (o.tcpQuickAck = ({} : Middleware).tcpQuickAck)) "TcpQuickAck" (scalar (boolText o.tcpQuickAck)),
    nonDefault (decide (o.tcpReceiveBufferSize = ({} : Middleware).tcpReceiveBufferSize)) "TcpReceiveBufferSize"
      (scalar (intText o.tcpReceiveBufferSize.toInt)),
    nonDefault (decide (o.tcpSendBufferSize = ({} : Middleware).tcpSendBufferSize)) "TcpSendBufferSize" (scalar (intText o.tcpSendBufferSize.toInt)),
    nonDefault (decide (o.enableDomainSockets = ({} : Middleware).enableDomainSockets)) "EnableDomainSockets" (scalar (boolText o.enableDomainSockets)),
    nonDefault (decide (o.acceptorUris = ({} : Middleware).acceptorUris)) "AcceptorUris" (writeVec scalar o.acceptorUris),
    nonDefault (decide (o.registryAsFallbackProxy = ({} : Middleware).registryAsFallbackProxy)) "RegistryAsFallbackProxy"
      (scalar (boolText o.registryAsFallbackProxy)),
    nonDefault (decide (o.experimentalRemoteParticipantConnection = ({} : Middleware).experimentalRemoteParticipantConnection))
      "ExperimentalRemoteParticipantConnection" (scalar (boolText o.experimentalRemoteParticipantConnection)),
    nonDefault (decide (o.connectTimeoutSeconds = ({} : Middleware).connectTimeoutSeconds)) "ConnectTimeoutSeconds" (scalar o.connectTimeoutSeconds)]

/-- YamlWriter.cpp:542-547. -/
def writeIncludes (o : Includes) : W :=
  block [makeMap,
    optWriteVec o.files "Files" scalar,
    optWriteVec o.searchPathHints "SearchPathHints" scalar]

/-- YamlWriter.cpp:549-565. -/
def writeAggregation (a : Aggregation) : W := scalar (match a with | .off => "Off" | .on => "On" | .auto => "Auto")

/-- YamlWriter.cpp:567-577. -/
def writeTimeSynchronization (o : TimeSynchronization) : W :=
  block [makeMap,
    nonDefault (decide (o.animationFactor = ({} : TimeSynchronization).animationFactor)) "AnimationFactor" (scalar o.animationFactor),
    nonDefault (decide (o.enableMessageAggregation = ({} : TimeSynchronization).enableMessageAggregation)) "EnableMessageAggregation"
      (writeAggregation o.enableMessageAggregation),
    optWrite o.dynamicSimulationStep "DynamicSimulationStep" (fun b => scalar (boolText b))]

/-- `operator==` of Metrics, ParticipantConfiguration.cpp:133-136. -/
def sameMetrics (a b : Metrics) : Bool := decide (a.sinks = b.sinks) && decide (a.collectFromRemote = b.collectFromRemote)

/-- `operator==` of Experimental, ParticipantConfiguration.cpp:177-180. -/
def sameExperimental (a b : Experimental) : Bool := decide (a.timeSynchronization = b.timeSynchronization) && sameMetrics a.metrics b.metrics

/-- YamlWriter.cpp:580-587. -/
def writeExperimental (o : Experimental) : W :=
  block [makeMap,
    nonDefault (decide (o.timeSynchronization = ({} : Experimental).timeSynchronization)) "TimeSynchronization"
      (writeTimeSynchronization o.timeSynchronization),
    nonDefault (sameMetrics o.metrics ({} : Experimental).metrics) "Metrics" (writeMetrics o.metrics)]

/-- YamlWriter.cpp:615-620. -/
def writeHealthCheck (o : HealthCheck) : W :=
  block [makeMap,
    optWrite o.softResponseTimeout "SoftResponseTimeout" writeDuration,
    optWrite o.hardResponseTimeout "HardResponseTimeout" writeDuration]

/-- YamlWriter.cpp:590-613. The comparisons of the other members, ParticipantConfiguration.cpp:118-158, 171-175 and Configuration.hpp:231-274, compare
all their members. -/
def writeParticipant (o : Participant) : W :=
  block [makeMap,
    writeKey "SchemaVersion" (scalar schemaVersion),
    optWriteStr o.description "Description",
    optWriteStr o.participantName "ParticipantName",
    optWriteVec o.canControllers "CanControllers" writeController,
    optWriteVec o.linControllers "LinControllers" writeController,
    optWriteVec o.ethernetControllers "EthernetControllers" writeController,
    optWriteVec o.flexrayControllers "FlexrayControllers" writeFlexrayController,
    optWriteVec o.dataPublishers "DataPublishers" writeDataPublisher,
    optWriteVec o.dataSubscribers "DataSubscribers" writeDataSubscriber,
    optWriteVec o.rpcServers "RpcServers" writeRpcServer,
    optWriteVec o.rpcClients "RpcClients" writeRpcClient,
    nonDefault (decide (o.logging = ({} : Participant).logging)) "Logging" (writeLogging o.logging),
    nonDefault (decide (o.healthCheck = ({} : Participant).healthCheck)) "HealthCheck" (writeHealthCheck o.healthCheck),
    nonDefault (decide (o.tracing = ({} : Participant).tracing)) "Tracing" (writeTracing o.tracing),
    nonDefault (decide (o.extensions = ({} : Participant).extensions)) "Extensions" (writeExtensions o.extensions),
    nonDefault (decide (o.middleware = ({} : Participant).middleware)) "Middleware" (writeMiddleware o.middleware),
    nonDefault (decide (o.includes = ({} : Participant).includes)) "Includes" (writeIncludes o.includes),
    nonDefault (sameExperimental o.experimental ({} : Participant).experimental) "Experimental" (writeExperimental o.experimental)]

/-- YamlWriter.cpp:623-627; unlike the other functions, it does not call MakeMap. -/
def writeRegistryExperimental (m : Metrics) : W :=
  block [nonDefault (sameMetrics m ({} : Registry).metrics) "Metrics" (writeMetrics m)]

/-- YamlWriter.cpp:630-641. -/
def writeRegistry (o : Registry) : W :=
  block [makeMap,
    writeKey "SchemaVersion" (scalar schemaVersion),
    nonDefault (decide (o.description = ({} : Registry).description)) "Description" (scalar o.description),
    optWrite o.listenUri "ListenUri" scalar,
    optWrite o.enableDomainSockets "EnableDomainSockets" (fun b => scalar (boolText b)),
    optWrite o.dashboardUri "DashboardUri" scalar,
    nonDefault (decide (o.logging = ({} : Registry).logging)) "Logging" (writeLogging o.logging),
    nonDefault (sameMetrics o.metrics ({} : Registry).metrics) "Experimental" (writeRegistryExperimental o.metrics)]

/-- Serialize and SerializeAsJson up to the tree, YamlParser.hpp:67-83. -/
def serialize (o : Participant) : Res Yaml := writeParticipant o .none

def serializeRegistry (o : Registry) : Res Yaml := writeRegistry o .none

/-! ## The reader, YamlReader.hpp and YamlReader.cpp -/

/-- A function of the reader: the old value of the object and a node. -/
abbrev Rd (T : Type) := T → Yaml → Res T

/-- GetChildSafe, YamlReader.hpp:228-264: the first entry with this key. -/
def child (n : Yaml) (name : String) : Res (Option Yaml) :=
  match n with
  | .map l => .ok (l.lookup name)
  | .seq _ => .throw "expected a mapping, but got a sequence"
  | _ => .ok none

/-- HasKey, YamlReader.hpp:212-220. -/
def hasKey (n : Yaml) (name : String) : Bool :=
  match n with
  | .map l => (l.lookup name).isSome
  | _ => false

/-- OptionalRead, YamlReader.hpp:36-53. -/
def optRead {T : Type} (r : Rd T) (old : T) (n : Yaml) (name : String) : Res T := do
  match ← child n name with
  | some c => r old c
  | none => pure old

/-- OptionalRead of std::optional, YamlReader.hpp:55-65. -/
def optReadOpt {T : Type} [Inhabited T] (r : Rd T) (old : Option T) (n : Yaml) (name : String) : Res (Option T) := do
  match ← child n name with
  | some c => do
    let v ← r default c
    pure (some v)
  | none => pure old

/-- OptionalRead of integers, YamlReader.hpp:68-73. A node that is no map has no such entry. -/
def optReadInt {T : Type} (r : Rd T) (old : T) (n : Yaml) (name : String) : Res T :=
  match n with
  | .map l =>
    match l.lookup name with
    | some c => r old c
    | none => .ok old
  | _ => .ok old

/-- ReadKeyValue, YamlReader.hpp:125-138. -/
def readKey {T : Type} (r : Rd T) (old : T) (n : Yaml) (name : String) : Res T := do
  match ← child n name with
  | some c => r old c
  | none => .throw "missing key"

def readAll {T : Type} [Inhabited T] (r : Rd T) : List Yaml → Res (List T)
  | [] => .ok []
  | c :: l => do
    let v ← r default c
    let vs ← readAll r l
    pure (v :: vs)

/-- Read of a vector, YamlReader.hpp:156-170; the elements are appended. -/
def readVec {T : Type} [Inhabited T] (r : Rd T) : Rd (List T) := fun old n =>
  match n with
  | .seq l => do
    let vs ← readAll r l
    pure (old ++ vs)
  | _ => .throw "Expected a sequence."

def readStr : Rd String := fun _ n =>
  match n with
  | .val s => .ok s
  | _ => .throw "could not deserialize value"

def readBool : Rd Bool := fun _ n =>
  match n with
  | .val s => match textBool s with | some b => .ok b | none => .throw "could not deserialize value"
  | _ => .throw "could not deserialize value"

/-- `operator>>` for unsigned integers does not check for an overflow, YamlReader.hpp:141-145. -/
def readNat {T : Type} (ofNat : Nat → T) : Rd T := fun _ n =>
  match n with
  | .val s => match textNat s with | some v => .ok (ofNat v) | none => .throw "could not deserialize value"
  | _ => .throw "could not deserialize value"

def readU8 : Rd UInt8 := readNat UInt8.ofNat
def readU16 : Rd UInt16 := readNat UInt16.ofNat
def readU64 : Rd UInt64 := readNat UInt64.ofNat

def readI32 : Rd Int32 := fun _ n =>
  match n with
  | .val s => match textInt s with | some v => .ok (Int32.ofInt v) | none => .throw "could not deserialize value"
  | _ => .throw "could not deserialize value"

/-- With a check for overflows, YamlReader.hpp:68-73 and 147-154. -/
def readNatChecked {T : Type} (size : Nat) (ofNat : Nat → T) : Rd T := fun _ n =>
  match n with
  | .val s =>
    match textNat s with
    | some v => if v < size then .ok (ofNat v) else .throw "could not deserialize value"
    | none => .throw "could not deserialize value"
  | _ => .throw "could not deserialize value"

def readU8Checked : Rd UInt8 := readNatChecked UInt8.size UInt8.ofNat
def readU16Checked : Rd UInt16 := readNatChecked UInt16.size UInt16.ofNat

def readI32Checked : Rd Int32 := fun _ n =>
  match n with
  | .val s =>
    match textInt s with
    | some v => if Int32.minValue.toInt ≤ v ∧ v ≤ Int32.maxValue.toInt then .ok (Int32.ofInt v) else .throw "could not deserialize value"
    | none => .throw "could not deserialize value"
  | _ => .throw "could not deserialize value"

/-- Also of durations, YamlReader.hpp:147-154. -/
def readI64Checked : Rd Int64 := fun _ n =>
  match n with
  | .val s =>
    match textInt s with
    | some v => if Int64.minValue.toInt ≤ v ∧ v ≤ Int64.maxValue.toInt then .ok (Int64.ofInt v) else .throw "could not deserialize value"
    | none => .throw "could not deserialize value"
  | _ => .throw "could not deserialize value"

/-- An enumeration by its texts: the first that is equal, IsString, YamlReader.hpp:207-210. -/
def readEnum {T : Type} (texts : List (String × T)) (error : String) : Rd T := fun _ n =>
  match n with
  | .val s => match texts.lookup s with | some v => .ok v | none => .throw error
  | _ => .throw error

/-- YamlReader.cpp:30-50. -/
def readLevel : Rd Level :=
  readEnum [("Critical", .critical), ("Error", .error), ("Warn", .warn), ("Info", .info), ("Debug", .debug), ("Trace", .trace), ("Off", .off)]
    "Unknown SilKit::Services::Logging::Level."

/-- from_topic_string, string_utils_internal.hpp:152-202. -/
def topicTexts : List (String × Topic) :=
  [("none", .none), ("user", .user), ("timesync", .timeSync), ("lifecycle", .lifeCycle), ("systemstate", .systemState),
    ("messagetracing", .messageTracing), ("servicediscovery", .serviceDiscovery), ("participant", .participant), ("timeconfig", .timeConfig),
    ("asio", .asio), ("requestreply", .requestReply), ("systemmonitor", .systemMonitor), ("can", .can), ("ethernet", .ethernet),
    ("flexray", .flexray), ("lin", .lin), ("metrics", .metrics), ("pubsub", .pubsub), ("rpc", .rpc), ("tracing", .tracing),
    ("dashboard", .dashboard), ("netsim", .netSim), ("extension", .extension)]

/-- YamlReader.cpp:52-69. -/
def readTopic : Rd Topic := fun _ n =>
  match n with
  | .val s =>
    match topicTexts.lookup (String.ofList (s.toList.map Char.toLower)) with
    | some t => .ok t
    | none => .throw "Unknown SilKit::Services::Logging::Topic"
  | _ => .throw "Topic should be a string."

/-- YamlReader.cpp:71-94. -/
def readCluster : Rd ClusterParameters := fun o n => do
  let gColdstartAttempts ← readKey readU8 o.gColdstartAttempts n "gColdstartAttempts"
  let gCycleCountMax ← readKey readU8 o.gCycleCountMax n "gCycleCountMax"
  let gdActionPointOffset ← readKey readU16 o.gdActionPointOffset n "gdActionPointOffset"
  let gdDynamicSlotIdlePhase ← readKey readU16 o.gdDynamicSlotIdlePhase n "gdDynamicSlotIdlePhase"
  let gdMiniSlot ← readKey readU16 o.gdMiniSlot n "gdMiniSlot"
  let gdMiniSlotActionPointOffset ← readKey readU16 o.gdMiniSlotActionPointOffset n "gdMiniSlotActionPointOffset"
  let gdStaticSlot ← readKey readU16 o.gdStaticSlot n "gdStaticSlot"
  let gdSymbolWindow ← readKey readU16 o.gdSymbolWindow n "gdSymbolWindow"
  let gdSymbolWindowActionPointOffset ← readKey readU16 o.gdSymbolWindowActionPointOffset n "gdSymbolWindowActionPointOffset"
  let gdTSSTransmitter ← readKey readU16 o.gdTSSTransmitter n "gdTSSTransmitter"
  let gdWakeupTxActive ← readKey readU16 o.gdWakeupTxActive n "gdWakeupTxActive"
  let gdWakeupTxIdle ← readKey readU16 o.gdWakeupTxIdle n "gdWakeupTxIdle"
  let gListenNoise ← readKey readU8 o.gListenNoise n "gListenNoise"
  let gMacroPerCycle ← readKey readU16 o.gMacroPerCycle n "gMacroPerCycle"
  let gMaxWithoutClockCorrectionFatal ← readKey readU8 o.gMaxWithoutClockCorrectionFatal n "gMaxWithoutClockCorrectionFatal"
  let gMaxWithoutClockCorrectionPassive ← readKey readU8 o.gMaxWithoutClockCorrectionPassive n "gMaxWithoutClockCorrectionPassive"
  let gNumberOfMiniSlots ← readKey readU16 o.gNumberOfMiniSlots n "gNumberOfMiniSlots"
  let gNumberOfStaticSlots ← readKey readU16 o.gNumberOfStaticSlots n "gNumberOfStaticSlots"
  let gPayloadLengthStatic ← readKey readU16 o.gPayloadLengthStatic n "gPayloadLengthStatic"
  let gSyncFrameIDCountMax ← readKey readU8 o.gSyncFrameIDCountMax n "gSyncFrameIDCountMax"
  pure { gColdstartAttempts, gCycleCountMax, gdActionPointOffset, gdDynamicSlotIdlePhase, gdMiniSlot, gdMiniSlotActionPointOffset, gdStaticSlot, gdSymbolWindow, gdSymbolWindowActionPointOffset, gdTSSTransmitter, gdWakeupTxActive, gdWakeupTxIdle, gListenNoise, gMacroPerCycle, gMaxWithoutClockCorrectionFatal, gMaxWithoutClockCorrectionPassive, gNumberOfMiniSlots, gNumberOfStaticSlots, gPayloadLengthStatic, gSyncFrameIDCountMax }

/-- YamlReader.cpp:136-150. -/
def readChannel : Rd Channel :=
  readEnum [("A", .a), ("B", .b), ("AB", .ab), ("None", .none), ("", .none)] "Unknown Services::Flexray::FlexrayChannel"

/-- YamlReader.cpp:152-164. -/
def readClockPeriod : Rd ClockPeriod :=
  readEnum [("12.5ns", .t12_5ns), ("25ns", .t25ns), ("50ns", .t50ns)] "Unknown Services::Flexray::FlexrayClockPeriod"

/-- YamlReader.cpp:166-176. -/
def readTransmissionMode : Rd TransmissionMode :=
  readEnum [("Continuous", .continuous), ("SingleShot", .singleShot)] "Unknown Services::Flexray::FlexrayTransmissionMode."

/-- YamlReader.cpp:96-123. -/
def readNode : Rd NodeParameters := fun o n => do
  let pAllowHaltDueToClock ← readKey readU8 o.pAllowHaltDueToClock n "pAllowHaltDueToClock"
  let pAllowPassiveToActive ← readKey readU8 o.pAllowPassiveToActive n "pAllowPassiveToActive"
  let pClusterDriftDamping ← readKey readU8 o.pClusterDriftDamping n "pClusterDriftDamping"
  let pdAcceptedStartupRange ← readKey readI32 o.pdAcceptedStartupRange n "pdAcceptedStartupRange"
  let pdListenTimeout ← readKey readI32 o.pdListenTimeout n "pdListenTimeout"
  let pKeySlotId ← readKey readU16 o.pKeySlotId n "pKeySlotId"
  let pKeySlotOnlyEnabled ← readKey readU8 o.pKeySlotOnlyEnabled n "pKeySlotOnlyEnabled"
  let pKeySlotUsedForStartup ← readKey readU8 o.pKeySlotUsedForStartup n "pKeySlotUsedForStartup"
  let pKeySlotUsedForSync ← readKey readU8 o.pKeySlotUsedForSync n "pKeySlotUsedForSync"
  let pLatestTx ← readKey readU16 o.pLatestTx n "pLatestTx"
  let pMacroInitialOffsetA ← readKey readU8 o.pMacroInitialOffsetA n "pMacroInitialOffsetA"
  let pMacroInitialOffsetB ← readKey readU8 o.pMacroInitialOffsetB n "pMacroInitialOffsetB"
  let pMicroInitialOffsetA ← readKey readI32 o.pMicroInitialOffsetA n "pMicroInitialOffsetA"
  let pMicroInitialOffsetB ← readKey readI32 o.pMicroInitialOffsetB n "pMicroInitialOffsetB"
  let pMicroPerCycle ← readKey readI32 o.pMicroPerCycle n "pMicroPerCycle"
  let pOffsetCorrectionOut ← readKey readI32 o.pOffsetCorrectionOut n "pOffsetCorrectionOut"
  let pOffsetCorrectionStart ← readKey readU16 o.pOffsetCorrectionStart n "pOffsetCorrectionStart"
  let pRateCorrectionOut ← readKey readI32 o.pRateCorrectionOut n "pRateCorrectionOut"
  let pWakeupPattern ← readKey readU8 o.pWakeupPattern n "pWakeupPattern"
  let pSamplesPerMicrotick ← readKey readU8 o.pSamplesPerMicrotick n "pSamplesPerMicrotick"
  let pWakeupChannel ← readKey readChannel o.pWakeupChannel n "pWakeupChannel"
  let pdMicrotick ← readKey readClockPeriod o.pdMicrotick n "pdMicrotick"
  let pChannels ← readKey readChannel o.pChannels n "pChannels"
  let pSecondKeySlotId ← optReadInt readU16Checked o.pSecondKeySlotId n "pSecondKeySlotId"
  let pTwoKeySlotMode ← optReadInt readU8Checked o.pTwoKeySlotMode n "pTwoKeySlotMode"
  pure { pAllowHaltDueToClock, pAllowPassiveToActive, pChannels, pClusterDriftDamping, pdAcceptedStartupRange, pdListenTimeout, pKeySlotId, pKeySlotOnlyEnabled, pKeySlotUsedForStartup, pKeySlotUsedForSync, pLatestTx, pMacroInitialOffsetA, pMacroInitialOffsetB, pMicroInitialOffsetA, pMicroInitialOffsetB, pMicroPerCycle, pOffsetCorrectionOut, pOffsetCorrectionStart, pRateCorrectionOut, pWakeupChannel, pWakeupPattern, pdMicrotick, pSamplesPerMicrotick, pSecondKeySlotId, pTwoKeySlotMode }

/-- YamlReader.cpp:125-134. -/
def readTxBuffer : Rd TxBufferConfig := fun o n => do
  let channels ← readKey readChannel o.channels n "channels"
  let slotId ← readKey readU16 o.slotId n "slotId"
  let offset ← readKey readU8 o.offset n "offset"
  let repetition ← readKey readU8 o.repetition n "repetition"
  let hasPayloadPreambleIndicator ← readKey readBool o.hasPayloadPreambleIndicator n "PPindicator"
  let headerCrc ← readKey readU16 o.headerCrc n "headerCrc"
  let transmissionMode ← readKey readTransmissionMode o.transmissionMode n "transmissionMode"
  pure { channels, slotId, offset, repetition, hasPayloadPreambleIndicator, headerCrc, transmissionMode }

/-- YamlReader.cpp:178-196. -/
def readSinkType : Rd SinkType := readEnum [("Remote", .remote), ("", .remote), ("Stdout", .stdout), ("File", .file)] "Unknown Sink::Type"

/-- YamlReader.cpp:198-212. -/
def readSinkFormat : Rd SinkFormat := readEnum [("Simple", .simple), ("", .simple), ("Json", .json)] "Unknown Sink::Format:"

/-- The topics of a sink, YamlReader.cpp:226-231. -/
def readSinkTopics (o : Sink) (n : Yaml) : Res (List Topic × List Topic) := do
  match ← child n "Experimental" with
  | some c => do
    let disabled ← optRead (readVec readTopic) o.disabledTopics c "DisabledTopics"
    let enabled ← optRead (readVec readTopic) o.enabledTopics c "EnabledTopics"
    pure (disabled, enabled)
  | none => pure (o.disabledTopics, o.enabledTopics)

/-- The name of the log file, YamlReader.cpp:233-241. -/
def readLogName (type : SinkType) (old : String) (n : Yaml) : Res String :=
  if type = .file then
    if hasKey n "LogName" then readKey readStr old n "LogName" else .throw "Sink of type Sink::Type::File requires a LogName"
  else .ok old

/-- YamlReader.cpp:214-242. -/
def readSink : Rd Sink := fun o n => do
  let type ← optRead readSinkType o.type n "Type"
  let level ← optRead readLevel o.level n "Level"
  let format ← optRead readSinkFormat (if type = .file then .json else o.format) n "Format"
  let (disabledTopics, enabledTopics) ← readSinkTopics o n
  let logName ← readLogName type o.logName n
  pure { format, type, level, logName, disabledTopics, enabledTopics }

/-- YamlReader.cpp:244-249. -/
def readLogging : Rd Logging := fun o n => do
  let logFromRemotes ← optRead readBool o.logFromRemotes n "LogFromRemotes"
  let flushLevel ← optRead readLevel o.flushLevel n "FlushLevel"
  let sinks ← optRead (readVec readSink) o.sinks n "Sinks"
  pure { logFromRemotes, flushLevel, sinks }

/-- YamlReader.cpp:251-269. -/
def readMetricsSinkType : Rd MetricsSinkType :=
  readEnum [("Undefined", .undefined), ("", .undefined), ("JsonFile", .jsonFile), ("Remote", .remote)] "Unknown MetricsSink::Type"

/-- YamlReader.cpp:271-275. -/
def readMetricsSink : Rd MetricsSink := fun o n => do
  let type ← readKey readMetricsSinkType o.type n "Type"
  let name ← optRead readStr o.name n "Name"
  pure { type, name }

/-- YamlReader.cpp:277-286. -/
def readMetrics : Rd Metrics := fun o n => do
  let sinks ← optRead (readVec readMetricsSink) o.sinks n "Sinks"
  let collectFromRemote ← optReadOpt readBool o.collectFromRemote n "CollectFromRemote"
  let updateInterval ← optReadInt readI64Checked o.updateInterval n "UpdateInterval"
  pure { sinks, collectFromRemote, updateInterval }

def isMap : Yaml → Bool
  | .map _ => true
  | _ => false

/-- YamlReader.cpp:288-300. -/
def readMdfChannel : Rd MdfChannel := fun o n =>
  if isMap n then do
    let channelName ← optReadOpt readStr o.channelName n "ChannelName"
    let channelPath ← optReadOpt readStr o.channelPath n "ChannelPath"
    let channelSource ← optReadOpt readStr o.channelSource n "ChannelSource"
    let groupName ← optReadOpt readStr o.groupName n "GroupName"
    let groupPath ← optReadOpt readStr o.groupPath n "GroupPath"
    let groupSource ← optReadOpt readStr o.groupSource n "GroupSource"
    pure { channelName, channelSource, channelPath, groupName, groupSource, groupPath }
  else .throw "MdfChannel should be a Map"

/-- YamlReader.cpp:309-323. -/
def readDirection : Rd Direction :=
  readEnum [("Undefined", .undefined), ("", .undefined), ("Send", .send), ("Receive", .receive), ("Both", .both)] "Unknown Replay::Direction"

/-- YamlReader.cpp:302-307. -/
def readReplay : Rd Replay := fun o n => do
  let useTraceSource ← readKey readStr o.useTraceSource n "UseTraceSource"
  let direction ← optRead readDirection o.direction n "Direction"
  let mdfChannel ← optRead readMdfChannel o.mdfChannel n "MdfChannel"
  pure { useTraceSource, direction, mdfChannel }

/-- ReadController, YamlReader.hpp:296-303. -/
def readController : Rd Controller := fun o n => do
  let name ← readKey readStr o.name n "Name"
  let network ← optReadOpt readStr o.network n "Network"
  let useTraceSinks ← optRead (readVec readStr) o.useTraceSinks n "UseTraceSinks"
  let replay ← optRead readReplay o.replay n "Replay"
  pure { name, network, useTraceSinks, replay }

/-- YamlReader.cpp:339-345. -/
def readFlexrayController : Rd FlexrayController := fun o n => do
  let name ← readKey readStr o.name n "Name"
  let network ← optReadOpt readStr o.network n "Network"
  let useTraceSinks ← optRead (readVec readStr) o.useTraceSinks n "UseTraceSinks"
  let replay ← optRead readReplay o.replay n "Replay"
  let clusterParameters ← optReadOpt readCluster o.clusterParameters n "ClusterParameters"
  let nodeParameters ← optReadOpt readNode o.nodeParameters n "NodeParameters"
  let txBufferConfigurations ← optRead (readVec readTxBuffer) o.txBufferConfigurations n "TxBufferConfigurations"
  pure { name, network, clusterParameters, nodeParameters, txBufferConfigurations, useTraceSinks, replay }

/-- YamlReader.cpp:347-357. -/
def readLabelKind : Rd LabelKind := readEnum [("Mandatory", .mandatory), ("Optional", .optional)] "Unknown Label::Kind"

/-- YamlReader.cpp:359-364. -/
def readLabel : Rd Label := fun o n => do
  let key ← optRead readStr o.key n "Key"
  let value ← optRead readStr o.value n "Value"
  let kind ← optRead readLabelKind o.kind n "Kind"
  pure { key, value, kind }

/-- YamlReader.cpp:366-374. -/
def readDataPublisher : Rd DataPublisher := fun o n => do
  let name ← readKey readStr o.name n "Name"
  let topic ← optReadOpt readStr o.topic n "Topic"
  let labels ← optReadOpt (readVec readLabel) o.labels n "Labels"
  let history ← optReadOpt readU64 o.history n "History"
  let useTraceSinks ← optRead (readVec readStr) o.useTraceSinks n "UseTraceSinks"
  let replay ← optRead readReplay o.replay n "Replay"
  pure { name, topic, labels, history, useTraceSinks, replay }

/-- YamlReader.cpp:376-383. -/
def readDataSubscriber : Rd DataSubscriber := fun o n => do
  let name ← readKey readStr o.name n "Name"
  let topic ← optReadOpt readStr o.topic n "Topic"
  let labels ← optReadOpt (readVec readLabel) o.labels n "Labels"
  let useTraceSinks ← optRead (readVec readStr) o.useTraceSinks n "UseTraceSinks"
  let replay ← optRead readReplay o.replay n "Replay"
  pure { name, topic, labels, useTraceSinks, replay }

/-- Does any of the deprecated keys occur, and with which other key? YamlReader.hpp:86-114. -/
def deprecatedConflict (n : Yaml) (name : String) (deprecated : List String) : Bool :=
  let present := deprecated.filter (hasKey n)
  (hasKey n name && decide (1 ≤ present.length)) || decide (2 ≤ present.length)

/-- The reads at the end of OptionalRead_deprecated_alternative, YamlReader.hpp:116-120; `read` is OptionalRead. -/
def readEach {T : Type} (read : T → Yaml → String → Res T) (n : Yaml) : T → List String → Res T
  | old, [] => .ok old
  | old, name :: names => do
    let v ← read old n name
    readEach read n v names

/-- OptionalRead_deprecated_alternative, YamlReader.hpp:75-121; it looks for children of sequences, which throws if there are deprecated names. -/
def optReadDeprecated {T : Type} (read : T → Yaml → String → Res T) (old : T) (n : Yaml) (name : String) (deprecated : List String) : Res T :=
  match n with
  | .map _ =>
    if deprecatedConflict n name deprecated then .throw "The key and the deprecated alternatives are present."
    else readEach read n old (name :: deprecated)
  | .seq _ => .throw "expected a mapping, but got a sequence"
  | _ => .ok old

/-- YamlReader.cpp:384-401. -/
def readRpcEnd : Rd RpcEnd := fun o n => do
  let name ← readKey readStr o.name n "Name"
  let functionName ← optReadDeprecated (optReadOpt readStr) o.functionName n "FunctionName" ["Channel", "RpcChannel"]
  let labels ← optReadOpt (readVec readLabel) o.labels n "Labels"
  let useTraceSinks ← optRead (readVec readStr) o.useTraceSinks n "UseTraceSinks"
  let replay ← optRead readReplay o.replay n "Replay"
  pure { name, functionName, labels, useTraceSinks, replay }

/-- YamlReader.cpp:417-431. -/
def readTraceSinkType : Rd TraceSinkType :=
  readEnum [("Undefined", .undefined), ("", .undefined), ("Mdf4File", .mdf4File), ("PcapFile", .pcapFile), ("PcapPipe", .pcapPipe)]
    "Unknown TraceSink::Type"

/-- YamlReader.cpp:409-414. -/
def readTraceSink : Rd TraceSink := fun o n => do
  let name ← readKey readStr o.name n "Name"
  let type ← readKey readTraceSinkType o.type n "Type"
  let outputPath ← readKey readStr o.outputPath n "OutputPath"
  pure { type, name, outputPath }

/-- YamlReader.cpp:439-451. -/
def readTraceSourceType : Rd TraceSourceType :=
  readEnum [("Undefined", .undefined), ("", .undefined), ("Mdf4File", .mdf4File), ("PcapFile", .pcapFile)] "Unknown TraceSource::Type:"

/-- YamlReader.cpp:432-437. -/
def readTraceSource : Rd TraceSource := fun o n => do
  let name ← readKey readStr o.name n "Name"
  let type ← readKey readTraceSourceType o.type n "Type"
  let inputPath ← readKey readStr o.inputPath n "InputPath"
  pure { type, name, inputPath }

/-- YamlReader.cpp:403-407. -/
def readTracing : Rd Tracing := fun o n => do
  let traceSinks ← optRead (readVec readTraceSink) o.traceSinks n "TraceSinks"
  let traceSources ← optRead (readVec readTraceSource) o.traceSources n "TraceSources"
  pure { traceSinks, traceSources }

/-- YamlReader.cpp:453-456. -/
def readExtensions : Rd Extensions := fun o n => do
  let searchPathHints ← optRead (readVec readStr) o.searchPathHints n "SearchPathHints"
  pure { searchPathHints }

/-- YamlReader.cpp:458-471. The text of a floating-point number is not checked. -/
def readMiddleware : Rd Middleware := fun o n => do
  let registryUri ← optRead readStr o.registryUri n "RegistryUri"
  let connectAttempts ← optReadInt readI32Checked o.connectAttempts n "ConnectAttempts"
  let tcpNoDelay ← optRead readBool o.tcpNoDelay n "TcpNoDelay"
  let tcpQuickAck ← optRead readBool o.tcpQuickAck n "TcpQuickAck"
  let tcpReceiveBufferSize ← optReadInt readI32Checked o.tcpReceiveBufferSize n "TcpReceiveBufferSize"
  let tcpSendBufferSize ← optReadInt readI32Checked o.tcpSendBufferSize n "TcpSendBufferSize"
  let enableDomainSockets ← optRead readBool o.enableDomainSockets n "EnableDomainSockets"
  let acceptorUris ← optRead (readVec readStr) o.acceptorUris n "AcceptorUris"
  let registryAsFallbackProxy ← optRead readBool o.registryAsFallbackProxy n "RegistryAsFallbackProxy"
  let experimentalRemoteParticipantConnection ← optRead readBool o.experimentalRemoteParticipantConnection n "ExperimentalRemoteParticipantConnection"
  let connectTimeoutSeconds ← optRead readStr o.connectTimeoutSeconds n "ConnectTimeoutSeconds"
  pure { registryUri, connectAttempts, tcpReceiveBufferSize, tcpSendBufferSize, tcpNoDelay, tcpQuickAck, enableDomainSockets, acceptorUris, registryAsFallbackProxy, experimentalRemoteParticipantConnection, connectTimeoutSeconds }

/-- YamlReader.cpp:473-477. -/
def readIncludes : Rd Includes := fun o n => do
  let files ← optRead (readVec readStr) o.files n "Files"
  let searchPathHints ← optRead (readVec readStr) o.searchPathHints n "SearchPathHints"
  pure { searchPathHints, files }

/-- YamlReader.cpp:479-491. -/
def readAggregation : Rd Aggregation := readEnum [("Off", .off), ("", .off), ("On", .on), ("Auto", .auto)] "Unknown Aggregation"

/-- YamlReader.cpp:493-498. -/
def readTimeSynchronization : Rd TimeSynchronization := fun o n => do
  let animationFactor ← optRead readStr o.animationFactor n "AnimationFactor"
  let enableMessageAggregation ← optRead readAggregation o.enableMessageAggregation n "EnableMessageAggregation"
  let dynamicSimulationStep ← optReadOpt readBool o.dynamicSimulationStep n "DynamicSimulationStep"
  pure { animationFactor, enableMessageAggregation, dynamicSimulationStep }

/-- YamlReader.cpp:500-504. -/
def readExperimental : Rd Experimental := fun o n => do
  let timeSynchronization ← optRead readTimeSynchronization o.timeSynchronization n "TimeSynchronization"
  let metrics ← optRead readMetrics o.metrics n "Metrics"
  pure { timeSynchronization, metrics }

/-- YamlReader.cpp:531-535. -/
def readHealthCheck : Rd HealthCheck := fun o n => do
  let softResponseTimeout ← optReadOpt readI64Checked o.softResponseTimeout n "SoftResponseTimeout"
  let hardResponseTimeout ← optReadOpt readI64Checked o.hardResponseTimeout n "HardResponseTimeout"
  pure { softResponseTimeout, hardResponseTimeout }

/-- YamlReader.cpp:506-529. -/
def readParticipant : Rd Participant := fun o n => do
  let schemaVersionOld ← optRead readStr o.schemaVersion n "schemaVersion"
  let schemaVersion ← optRead readStr schemaVersionOld n "SchemaVersion"
  let description ← optRead readStr o.description n "Description"
  let participantName ← optRead readStr o.participantName n "ParticipantName"
  let canControllers ← optRead (readVec readController) o.canControllers n "CanControllers"
  let linControllers ← optRead (readVec readController) o.linControllers n "LinControllers"
  let ethernetControllers ← optRead (readVec readController) o.ethernetControllers n "EthernetControllers"
  let flexrayControllers ← optReadDeprecated (optRead (readVec readFlexrayController)) o.flexrayControllers n "FlexrayControllers" ["FlexRayControllers"]
  let dataPublishers ← optRead (readVec readDataPublisher) o.dataPublishers n "DataPublishers"
  let dataSubscribers ← optRead (readVec readDataSubscriber) o.dataSubscribers n "DataSubscribers"
  let rpcServers ← optRead (readVec readRpcEnd) o.rpcServers n "RpcServers"
  let rpcClients ← optRead (readVec readRpcEnd) o.rpcClients n "RpcClients"
  let logging ← optRead readLogging o.logging n "Logging"
  let healthCheck ← optRead readHealthCheck o.healthCheck n "HealthCheck"
  let tracing ← optRead readTracing o.tracing n "Tracing"
  let extensions ← optRead readExtensions o.extensions n "Extensions"
  let middleware ← optRead readMiddleware o.middleware n "Middleware"
  let includes ← optRead readIncludes o.includes n "Includes"
  let experimental ← optRead readExperimental o.experimental n "Experimental"
  pure { o with schemaVersion, description, participantName, canControllers, linControllers, ethernetControllers, flexrayControllers, dataPublishers, dataSubscribers, rpcServers, rpcClients, logging, healthCheck, tracing, extensions, includes, middleware, experimental }

/-- YamlReader.cpp:537-548; `Experimental` has only one member. -/
def readRegistryExperimental : Rd Metrics := fun o n => do
  let metrics ← optRead readMetrics o n "Metrics"
  if metrics.sinks.any (fun s => decide (s.type = .remote)) then .throw "SIL Kit Registry does not support remote metrics sinks" else pure metrics

/-- The checks at the end of reading a registry's configuration, YamlReader.cpp:560-571. -/
def checkRegistry (o : Registry) : Res Registry :=
  if o.logging.logFromRemotes then .throw "SIL Kit Registry does not support receiving logs from remotes"
  else if o.logging.sinks.any (fun s => decide (s.type = .remote)) then .throw "SIL Kit Registry does not support remote logging"
  else .ok o

/-- YamlReader.cpp:550-572. -/
def readRegistry : Rd Registry := fun o n => do
  let schemaVersion ← optRead readStr o.schemaVersion n "SchemaVersion"
  let description ← optRead readStr o.description n "Description"
  let listenUri ← optReadOpt readStr o.listenUri n "ListenUri"
  let enableDomainSockets ← optReadOpt readBool o.enableDomainSockets n "EnableDomainSockets"
  let dashboardUri ← optReadOpt readStr o.dashboardUri n "DashboardUri"
  let logging ← optRead readLogging o.logging n "Logging"
  let metrics ← optRead readRegistryExperimental o.metrics n "Experimental"
  checkRegistry { description, schemaVersion, listenUri, enableDomainSockets, dashboardUri, logging, metrics }

/-- Deserialize from the tree on, YamlParser.hpp:46-54. -/
def deserialize (n : Yaml) : Res Participant := readParticipant {} n

def deserializeRegistry (n : Yaml) : Res Registry := readRegistry {} n

end SilKit.ConfigText
