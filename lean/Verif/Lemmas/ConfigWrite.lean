import Verif.Lemmas.ConfigText
/-! # Lemmas: the documents that are written -/
namespace SilKit.ConfigText

theorem str_ok (x : String) : scalar x .none = .ok (.val x) := rfl

def ySize (n : UInt64) : Yaml := .val (natText n.toNat)
def yDuration (i : Int64) : Yaml := .val (intText i.toInt)
theorem w_Size (n : UInt64) : writeSize n .none = .ok (ySize n) := rfl
theorem w_Duration (i : Int64) : writeDuration i .none = .ok (yDuration i) := rfl
@[simp] theorem rd_size (o v : UInt64) : readU64 o (ySize v) = .ok v := rd_u64 o v
@[simp] theorem rd_duration (o v : Int64) : readI64Checked o (yDuration v) = .ok v := rd_i64c o v

def yLevel (x : Level) : Yaml := .val (match x with | .critical => "Critical" | .error => "Error" | .warn => "Warn" | .info => "Info" | .debug => "Debug" | .trace => "Trace" | .off => "Off")
@[simp] theorem rd_level (o x : Level) : readLevel o (yLevel x) = .ok x := by cases x <;> simp [readLevel, readEnum, yLevel, List.lookup]

def yChannel (x : Channel) : Yaml := .val (match x with | .a => "A" | .b => "B" | .ab => "AB" | .none => "None")
@[simp] theorem rd_channel (o x : Channel) : readChannel o (yChannel x) = .ok x := by cases x <;> simp [readChannel, readEnum, yChannel, List.lookup]

def yClockPeriod (x : ClockPeriod) : Yaml := .val (match x with | .t12_5ns => "12.5ns" | .t25ns => "25ns" | .t50ns => "50ns")
@[simp] theorem rd_clockPeriod (o x : ClockPeriod) : readClockPeriod o (yClockPeriod x) = .ok x := by cases x <;> simp [readClockPeriod, readEnum, yClockPeriod, List.lookup]

def yTransmissionMode (x : TransmissionMode) : Yaml := .val (match x with | .continuous => "Continuous" | .singleShot => "SingleShot")
@[simp] theorem rd_transmissionMode (o x : TransmissionMode) : readTransmissionMode o (yTransmissionMode x) = .ok x := by cases x <;> simp [readTransmissionMode, readEnum, yTransmissionMode, List.lookup]

def ySinkType (x : SinkType) : Yaml := .val (match x with | .remote => "Remote" | .stdout => "Stdout" | .file => "File")
@[simp] theorem rd_sinkType (o x : SinkType) : readSinkType o (ySinkType x) = .ok x := by cases x <;> simp [readSinkType, readEnum, ySinkType, List.lookup]

def yMetricsSinkType (x : MetricsSinkType) : Yaml := .val (match x with | .undefined => "Undefined" | .jsonFile => "JsonFile" | .remote => "Remote")
@[simp] theorem rd_metricsSinkType (o x : MetricsSinkType) : readMetricsSinkType o (yMetricsSinkType x) = .ok x := by cases x <;> simp [readMetricsSinkType, readEnum, yMetricsSinkType, List.lookup]

def yDirection (x : Direction) : Yaml := .val (match x with | .send => "Send" | .receive => "Receive" | .both => "Both" | .undefined => "Undefined")
@[simp] theorem rd_direction (o x : Direction) : readDirection o (yDirection x) = .ok x := by cases x <;> simp [readDirection, readEnum, yDirection, List.lookup]

def yLabelKind (x : LabelKind) : Yaml := .val (match x with | .mandatory => "Mandatory" | .optional => "Optional")
@[simp] theorem rd_labelKind (o x : LabelKind) : readLabelKind o (yLabelKind x) = .ok x := by cases x <;> simp [readLabelKind, readEnum, yLabelKind, List.lookup]

def yTraceSinkType (x : TraceSinkType) : Yaml := .val (match x with | .undefined => "Undefined" | .mdf4File => "Mdf4File" | .pcapFile => "PcapFile" | .pcapPipe => "PcapPipe")
@[simp] theorem rd_traceSinkType (o x : TraceSinkType) : readTraceSinkType o (yTraceSinkType x) = .ok x := by cases x <;> simp [readTraceSinkType, readEnum, yTraceSinkType, List.lookup]

def yTraceSourceType (x : TraceSourceType) : Yaml := .val (match x with | .undefined => "Undefined" | .mdf4File => "Mdf4File" | .pcapFile => "PcapFile")
@[simp] theorem rd_traceSourceType (o x : TraceSourceType) : readTraceSourceType o (yTraceSourceType x) = .ok x := by cases x <;> simp [readTraceSourceType, readEnum, yTraceSourceType, List.lookup]

def yAggregation (x : Aggregation) : Yaml := .val (match x with | .off => "Off" | .on => "On" | .auto => "Auto")
@[simp] theorem rd_aggregation (o x : Aggregation) : readAggregation o (yAggregation x) = .ok x := by cases x <;> simp [readAggregation, readEnum, yAggregation, List.lookup]

def fCluster (o : ClusterParameters) : Fields :=
  [("gColdstartAttempts", some (.val (natText o.gColdstartAttempts.toNat))),
    ("gCycleCountMax", some (.val (natText o.gCycleCountMax.toNat))),
    ("gdActionPointOffset", some (.val (natText o.gdActionPointOffset.toNat))),
    ("gdDynamicSlotIdlePhase", some (.val (natText o.gdDynamicSlotIdlePhase.toNat))),
    ("gdMiniSlot", some (.val (natText o.gdMiniSlot.toNat))),
    ("gdMiniSlotActionPointOffset", some (.val (natText o.gdMiniSlotActionPointOffset.toNat))),
    ("gdStaticSlot", some (.val (natText o.gdStaticSlot.toNat))),
    ("gdSymbolWindow", some (.val (natText o.gdSymbolWindow.toNat))),
    ("gdSymbolWindowActionPointOffset", some (.val (natText o.gdSymbolWindowActionPointOffset.toNat))),
    ("gdTSSTransmitter", some (.val (natText o.gdTSSTransmitter.toNat))),
    ("gdWakeupTxActive", some (.val (natText o.gdWakeupTxActive.toNat))),
    ("gdWakeupTxIdle", some (.val (natText o.gdWakeupTxIdle.toNat))),
    ("gListenNoise", some (.val (natText o.gListenNoise.toNat))),
    ("gMacroPerCycle", some (.val (natText o.gMacroPerCycle.toNat))),
    ("gMaxWithoutClockCorrectionFatal", some (.val (natText o.gMaxWithoutClockCorrectionFatal.toNat))),
    ("gMaxWithoutClockCorrectionPassive", some (.val (natText o.gMaxWithoutClockCorrectionPassive.toNat))),
    ("gNumberOfMiniSlots", some (.val (natText o.gNumberOfMiniSlots.toNat))),
    ("gNumberOfStaticSlots", some (.val (natText o.gNumberOfStaticSlots.toNat))),
    ("gPayloadLengthStatic", some (.val (natText o.gPayloadLengthStatic.toNat))),
    ("gSyncFrameIDCountMax", some (.val (natText o.gSyncFrameIDCountMax.toNat)))]

def yCluster (o : ClusterParameters) : Yaml := .map (entries (fCluster o))

theorem w_Cluster (o : ClusterParameters) : writeCluster o .none = .ok (yCluster o) :=
  block_map ⟨emits_key rfl, emits_key rfl, emits_key rfl, emits_key rfl, emits_key rfl, emits_key rfl, emits_key rfl, emits_key rfl, emits_key rfl, emits_key rfl, emits_key rfl, emits_key rfl, emits_key rfl, emits_key rfl, emits_key rfl, emits_key rfl, emits_key rfl, emits_key rfl, emits_key rfl, emits_key rfl, trivial⟩

theorem nd_Cluster (o : ClusterParameters) : ((fCluster o).map Prod.fst).Nodup := by
  exact (by decide +kernel : ["gColdstartAttempts", "gCycleCountMax", "gdActionPointOffset", "gdDynamicSlotIdlePhase", "gdMiniSlot", "gdMiniSlotActionPointOffset", "gdStaticSlot", "gdSymbolWindow", "gdSymbolWindowActionPointOffset", "gdTSSTransmitter", "gdWakeupTxActive", "gdWakeupTxIdle", "gListenNoise", "gMacroPerCycle", "gMaxWithoutClockCorrectionFatal", "gMaxWithoutClockCorrectionPassive", "gNumberOfMiniSlots", "gNumberOfStaticSlots", "gPayloadLengthStatic", "gSyncFrameIDCountMax"].Nodup)

def fNode (o : NodeParameters) : Fields :=
  [("pAllowHaltDueToClock", some (.val (natText o.pAllowHaltDueToClock.toNat))),
    ("pAllowPassiveToActive", some (.val (natText o.pAllowPassiveToActive.toNat))),
    ("pClusterDriftDamping", some (.val (natText o.pClusterDriftDamping.toNat))),
    ("pdAcceptedStartupRange", some (.val (intText o.pdAcceptedStartupRange.toInt))),
    ("pdListenTimeout", some (.val (intText o.pdListenTimeout.toInt))),
    ("pKeySlotId", some (.val (natText o.pKeySlotId.toNat))),
    ("pKeySlotOnlyEnabled", some (.val (natText o.pKeySlotOnlyEnabled.toNat))),
    ("pKeySlotUsedForStartup", some (.val (natText o.pKeySlotUsedForStartup.toNat))),
    ("pKeySlotUsedForSync", some (.val (natText o.pKeySlotUsedForSync.toNat))),
    ("pLatestTx", some (.val (natText o.pLatestTx.toNat))),
    ("pMacroInitialOffsetA", some (.val (natText o.pMacroInitialOffsetA.toNat))),
    ("pMacroInitialOffsetB", some (.val (natText o.pMacroInitialOffsetB.toNat))),
    ("pMicroInitialOffsetA", some (.val (intText o.pMicroInitialOffsetA.toInt))),
    ("pMicroInitialOffsetB", some (.val (intText o.pMicroInitialOffsetB.toInt))),
    ("pMicroPerCycle", some (.val (intText o.pMicroPerCycle.toInt))),
    ("pOffsetCorrectionOut", some (.val (intText o.pOffsetCorrectionOut.toInt))),
    ("pOffsetCorrectionStart", some (.val (natText o.pOffsetCorrectionStart.toNat))),
    ("pRateCorrectionOut", some (.val (intText o.pRateCorrectionOut.toInt))),
    ("pWakeupPattern", some (.val (natText o.pWakeupPattern.toNat))),
    ("pSamplesPerMicrotick", some (.val (natText o.pSamplesPerMicrotick.toNat))),
    ("pWakeupChannel", some (yChannel o.pWakeupChannel)),
    ("pdMicrotick", some (yClockPeriod o.pdMicrotick)),
    ("pChannels", some (yChannel o.pChannels)),
    ("pSecondKeySlotId", if decide (o.pSecondKeySlotId = ({} : NodeParameters).pSecondKeySlotId) then none else some (.val (natText o.pSecondKeySlotId.toNat))),
    ("pTwoKeySlotMode", if decide (o.pTwoKeySlotMode = ({} : NodeParameters).pTwoKeySlotMode) then none else some (.val (natText o.pTwoKeySlotMode.toNat)))]

def yNode (o : NodeParameters) : Yaml := .map (entries (fNode o))

theorem w_Node (o : NodeParameters) : writeNode o .none = .ok (yNode o) :=
  block_map ⟨emits_key rfl, emits_key rfl, emits_key rfl, emits_key rfl, emits_key rfl, emits_key rfl, emits_key rfl, emits_key rfl, emits_key rfl, emits_key rfl, emits_key rfl, emits_key rfl, emits_key rfl, emits_key rfl, emits_key rfl, emits_key rfl, emits_key rfl, emits_key rfl, emits_key rfl, emits_key rfl, emits_key rfl, emits_key rfl, emits_key rfl, emits_nonDefault _ rfl, emits_nonDefault _ rfl, trivial⟩

theorem nd_Node (o : NodeParameters) : ((fNode o).map Prod.fst).Nodup := by
  exact (by decide +kernel : ["pAllowHaltDueToClock", "pAllowPassiveToActive", "pClusterDriftDamping", "pdAcceptedStartupRange", "pdListenTimeout", "pKeySlotId", "pKeySlotOnlyEnabled", "pKeySlotUsedForStartup", "pKeySlotUsedForSync", "pLatestTx", "pMacroInitialOffsetA", "pMacroInitialOffsetB", "pMicroInitialOffsetA", "pMicroInitialOffsetB", "pMicroPerCycle", "pOffsetCorrectionOut", "pOffsetCorrectionStart", "pRateCorrectionOut", "pWakeupPattern", "pSamplesPerMicrotick", "pWakeupChannel", "pdMicrotick", "pChannels", "pSecondKeySlotId", "pTwoKeySlotMode"].Nodup)

def fTxBuffer (o : TxBufferConfig) : Fields :=
  [("channels", some (yChannel o.channels)),
    ("slotId", some (.val (natText o.slotId.toNat))),
    ("offset", some (.val (natText o.offset.toNat))),
    ("repetition", some (.val (natText o.repetition.toNat))),
    ("PPindicator", some (.val (boolText o.hasPayloadPreambleIndicator))),
    ("headerCrc", some (.val (natText o.headerCrc.toNat))),
    ("transmissionMode", some (yTransmissionMode o.transmissionMode))]

def yTxBuffer (o : TxBufferConfig) : Yaml := .map (entries (fTxBuffer o))

theorem w_TxBuffer (o : TxBufferConfig) : writeTxBuffer o .none = .ok (yTxBuffer o) :=
  block_map ⟨emits_key rfl, emits_key rfl, emits_key rfl, emits_key rfl, emits_key rfl, emits_key rfl, emits_key rfl, trivial⟩

theorem nd_TxBuffer (o : TxBufferConfig) : ((fTxBuffer o).map Prod.fst).Nodup := by
  exact (by decide +kernel : ["channels", "slotId", "offset", "repetition", "PPindicator", "headerCrc", "transmissionMode"].Nodup)

def fSink (o : Sink) : Fields :=
  [("Type", some (ySinkType o.type)),
    ("Level", if decide (o.level = ({} : Sink).level) then none else some (yLevel o.level)),
    ("LogName", if decide (o.logName = ({} : Sink).logName) then none else some (.val o.logName))]

def ySink (o : Sink) : Yaml := .map (entries (fSink o))

theorem w_Sink (o : Sink) : writeSink o .none = .ok (ySink o) :=
  block_map ⟨emits_key rfl, emits_nonDefault _ rfl, emits_nonDefault _ rfl, trivial⟩

theorem nd_Sink (o : Sink) : ((fSink o).map Prod.fst).Nodup := by
  exact (by decide +kernel : ["Type", "Level", "LogName"].Nodup)

def fLogging (o : Logging) : Fields :=
  [("LogFromRemotes", if decide (o.logFromRemotes = ({} : Logging).logFromRemotes) then none else some (.val (boolText o.logFromRemotes))),
    ("FlushLevel", if decide (o.flushLevel = ({} : Logging).flushLevel) then none else some (yLevel o.flushLevel)),
    ("Sinks", some (.seq (o.sinks.map ySink)))]

def yLogging (o : Logging) : Yaml := .map (entries (fLogging o))

theorem w_Logging (o : Logging) : writeLogging o .none = .ok (yLogging o) :=
  block_map ⟨emits_nonDefault _ rfl, emits_nonDefault _ rfl, emits_key (writeVec_ok w_Sink _ _), trivial⟩

theorem nd_Logging (o : Logging) : ((fLogging o).map Prod.fst).Nodup := by
  exact (by decide +kernel : ["LogFromRemotes", "FlushLevel", "Sinks"].Nodup)

def fMetricsSink (o : MetricsSink) : Fields :=
  [("Type", some (yMetricsSinkType o.type)),
    ("Name", if o.name = "" then none else some (.val o.name))]

def yMetricsSink (o : MetricsSink) : Yaml := .map (entries (fMetricsSink o))

theorem w_MetricsSink (o : MetricsSink) : writeMetricsSink o .none = .ok (yMetricsSink o) :=
  block_map ⟨emits_key rfl, emits_str _, trivial⟩

theorem nd_MetricsSink (o : MetricsSink) : ((fMetricsSink o).map Prod.fst).Nodup := by
  exact (by decide +kernel : ["Type", "Name"].Nodup)

def fMetrics (o : Metrics) : Fields :=
  [("Sinks", if o.sinks.isEmpty then none else some (.seq (o.sinks.map yMetricsSink))),
    ("CollectFromRemote", o.collectFromRemote.map (fun b => .val (boolText b))),
    ("UpdateInterval", if decide (o.updateInterval = ({} : Metrics).updateInterval) then none else some (.val (intText o.updateInterval.toInt)))]

def yMetrics (o : Metrics) : Yaml := .map (entries (fMetrics o))

theorem w_Metrics (o : Metrics) : writeMetrics o .none = .ok (yMetrics o) :=
  block_map ⟨emits_vec w_MetricsSink _, emits_opt (fun b => str_ok (boolText b)) _, emits_nonDefault _ rfl, trivial⟩

theorem nd_Metrics (o : Metrics) : ((fMetrics o).map Prod.fst).Nodup := by
  exact (by decide +kernel : ["Sinks", "CollectFromRemote", "UpdateInterval"].Nodup)

def fMdfChannel (o : MdfChannel) : Fields :=
  [("ChannelName", o.channelName.map Yaml.val),
    ("ChannelPath", o.channelPath.map Yaml.val),
    ("ChannelSource", o.channelSource.map Yaml.val),
    ("GroupName", o.groupName.map Yaml.val),
    ("GroupPath", o.groupPath.map Yaml.val),
    ("GroupSource", o.groupSource.map Yaml.val)]

def yMdfChannel (o : MdfChannel) : Yaml := .map (entries (fMdfChannel o))

theorem w_MdfChannel (o : MdfChannel) : writeMdfChannel o .none = .ok (yMdfChannel o) :=
  block_map ⟨emits_opt str_ok _, emits_opt str_ok _, emits_opt str_ok _, emits_opt str_ok _, emits_opt str_ok _, emits_opt str_ok _, trivial⟩

theorem nd_MdfChannel (o : MdfChannel) : ((fMdfChannel o).map Prod.fst).Nodup := by
  exact (by decide +kernel : ["ChannelName", "ChannelPath", "ChannelSource", "GroupName", "GroupPath", "GroupSource"].Nodup)

def fReplay (o : Replay) : Fields :=
  [("UseTraceSource", some (.val o.useTraceSource)),
    ("Direction", if decide (o.direction = ({} : Replay).direction) then none else some (yDirection o.direction)),
    ("MdfChannel", if decide (o.mdfChannel = ({} : Replay).mdfChannel) then none else some (yMdfChannel o.mdfChannel))]

def yReplay (o : Replay) : Yaml := .map (entries (fReplay o))

theorem w_Replay (o : Replay) : writeReplay o .none = .ok (yReplay o) :=
  block_map ⟨emits_key rfl, emits_nonDefault _ rfl, emits_nonDefault _ (w_MdfChannel _), trivial⟩

theorem emits_replay {name : String} (o : Replay) : Emits (optWriteReplay o name) (name, if o.useTraceSource.length > 0 then some (yReplay o) else none) := by
  unfold optWriteReplay
  split
  · exact emits_key (w_Replay o)
  · exact emits_skip

theorem nd_Replay (o : Replay) : ((fReplay o).map Prod.fst).Nodup := by
  exact (by decide +kernel : ["UseTraceSource", "Direction", "MdfChannel"].Nodup)

def fController (o : Controller) : Fields :=
  [("Name", some (.val o.name)),
    ("Network", o.network.map Yaml.val),
    ("UseTraceSinks", if o.useTraceSinks.isEmpty then none else some (.seq (o.useTraceSinks.map Yaml.val))),
    ("Replay", if o.replay.useTraceSource.length > 0 then some (yReplay o.replay) else none)]

def yController (o : Controller) : Yaml := .map (entries (fController o))

theorem w_Controller (o : Controller) : writeController o .none = .ok (yController o) :=
  block_map ⟨emits_key rfl, emits_opt str_ok _, emits_vec str_ok _, emits_replay _, trivial⟩

theorem nd_Controller (o : Controller) : ((fController o).map Prod.fst).Nodup := by
  exact (by decide +kernel : ["Name", "Network", "UseTraceSinks", "Replay"].Nodup)

def fFlexrayController (o : FlexrayController) : Fields :=
  [("Name", some (.val o.name)),
    ("Network", o.network.map Yaml.val),
    ("ClusterParameters", o.clusterParameters.map yCluster),
    ("NodeParameters", o.nodeParameters.map yNode),
    ("TxBufferConfigurations", if o.txBufferConfigurations.isEmpty then none else some (.seq (o.txBufferConfigurations.map yTxBuffer))),
    ("UseTraceSinks", if o.useTraceSinks.isEmpty then none else some (.seq (o.useTraceSinks.map Yaml.val))),
    ("Replay", if o.replay.useTraceSource.length > 0 then some (yReplay o.replay) else none)]

def yFlexrayController (o : FlexrayController) : Yaml := .map (entries (fFlexrayController o))

theorem w_FlexrayController (o : FlexrayController) : writeFlexrayController o .none = .ok (yFlexrayController o) :=
  block_map ⟨emits_key rfl, emits_opt str_ok _, emits_opt w_Cluster _, emits_opt w_Node _, emits_vec w_TxBuffer _, emits_vec str_ok _, emits_replay _, trivial⟩

theorem nd_FlexrayController (o : FlexrayController) : ((fFlexrayController o).map Prod.fst).Nodup := by
  exact (by decide +kernel : ["Name", "Network", "ClusterParameters", "NodeParameters", "TxBufferConfigurations", "UseTraceSinks", "Replay"].Nodup)

def fLabel (o : Label) : Fields :=
  [("Key", some (.val o.key)),
    ("Value", some (.val o.value)),
    ("Kind", some (yLabelKind o.kind))]

def yLabel (o : Label) : Yaml := .map (entries (fLabel o))

theorem w_Label (o : Label) : writeLabel o .none = .ok (yLabel o) :=
  block_map ⟨emits_key rfl, emits_key rfl, emits_key rfl, trivial⟩

theorem nd_Label (o : Label) : ((fLabel o).map Prod.fst).Nodup := by
  exact (by decide +kernel : ["Key", "Value", "Kind"].Nodup)

def fDataPublisher (o : DataPublisher) : Fields :=
  [("Name", some (.val o.name)),
    ("Topic", o.topic.map Yaml.val),
    ("Labels", o.labels.map (fun l => .seq (l.map yLabel))),
    ("History", o.history.map ySize),
    ("UseTraceSinks", if o.useTraceSinks.isEmpty then none else some (.seq (o.useTraceSinks.map Yaml.val))),
    ("Replay", if o.replay.useTraceSource.length > 0 then some (yReplay o.replay) else none)]

def yDataPublisher (o : DataPublisher) : Yaml := .map (entries (fDataPublisher o))

theorem w_DataPublisher (o : DataPublisher) : writeDataPublisher o .none = .ok (yDataPublisher o) :=
  block_map ⟨emits_key rfl, emits_opt str_ok _, emits_opt (fun l => writeVec_ok w_Label l _) _, emits_opt w_Size _, emits_vec str_ok _, emits_replay _, trivial⟩

theorem nd_DataPublisher (o : DataPublisher) : ((fDataPublisher o).map Prod.fst).Nodup := by
  exact (by decide +kernel : ["Name", "Topic", "Labels", "History", "UseTraceSinks", "Replay"].Nodup)

def fDataSubscriber (o : DataSubscriber) : Fields :=
  [("Name", some (.val o.name)),
    ("Topic", o.topic.map Yaml.val),
    ("Labels", o.labels.map (fun l => .seq (l.map yLabel))),
    ("UseTraceSinks", if o.useTraceSinks.isEmpty then none else some (.seq (o.useTraceSinks.map Yaml.val))),
    ("Replay", if o.replay.useTraceSource.length > 0 then some (yReplay o.replay) else none)]

def yDataSubscriber (o : DataSubscriber) : Yaml := .map (entries (fDataSubscriber o))

theorem w_DataSubscriber (o : DataSubscriber) : writeDataSubscriber o .none = .ok (yDataSubscriber o) :=
  block_map ⟨emits_key rfl, emits_opt str_ok _, emits_opt (fun l => writeVec_ok w_Label l _) _, emits_vec str_ok _, emits_replay _, trivial⟩

theorem nd_DataSubscriber (o : DataSubscriber) : ((fDataSubscriber o).map Prod.fst).Nodup := by
  exact (by decide +kernel : ["Name", "Topic", "Labels", "UseTraceSinks", "Replay"].Nodup)

def fRpcEnd (function : String) (o : RpcEnd) : Fields :=
  [("Name", some (.val o.name)),
    (function, o.functionName.map Yaml.val),
    ("Labels", o.labels.map (fun l => .seq (l.map yLabel))),
    ("UseTraceSinks", if o.useTraceSinks.isEmpty then none else some (.seq (o.useTraceSinks.map Yaml.val))),
    ("Replay", if o.replay.useTraceSource.length > 0 then some (yReplay o.replay) else none)]

def yRpcEnd (function : String) (o : RpcEnd) : Yaml := .map (entries (fRpcEnd function o))

theorem w_RpcEnd (function : String) (o : RpcEnd) : writeRpcEnd function o .none = .ok (yRpcEnd function o) :=
  block_map ⟨emits_key rfl, emits_opt str_ok _, emits_opt (fun l => writeVec_ok w_Label l _) _, emits_vec str_ok _, emits_replay _, trivial⟩

theorem nd_RpcEnd {function : String} (o : RpcEnd) (h : function = "FunctionName" ∨ function = "Channel") : ((fRpcEnd function o).map Prod.fst).Nodup := by
  rcases h with rfl | rfl <;> simp [fRpcEnd]

def fTraceSink (o : TraceSink) : Fields :=
  [("Name", some (.val o.name)),
    ("Type", some (yTraceSinkType o.type)),
    ("OutputPath", some (.val o.outputPath))]

def yTraceSink (o : TraceSink) : Yaml := .map (entries (fTraceSink o))

theorem w_TraceSink (o : TraceSink) : writeTraceSink o .none = .ok (yTraceSink o) :=
  block_map ⟨emits_key rfl, emits_key rfl, emits_key rfl, trivial⟩

theorem nd_TraceSink (o : TraceSink) : ((fTraceSink o).map Prod.fst).Nodup := by
  exact (by decide +kernel : ["Name", "Type", "OutputPath"].Nodup)

def fTraceSource (o : TraceSource) : Fields :=
  [("Name", some (.val o.name)),
    ("Type", some (yTraceSourceType o.type)),
    ("InputPath", some (.val o.inputPath))]

def yTraceSource (o : TraceSource) : Yaml := .map (entries (fTraceSource o))

theorem w_TraceSource (o : TraceSource) : writeTraceSource o .none = .ok (yTraceSource o) :=
  block_map ⟨emits_key rfl, emits_key rfl, emits_key rfl, trivial⟩

theorem nd_TraceSource (o : TraceSource) : ((fTraceSource o).map Prod.fst).Nodup := by
  exact (by decide +kernel : ["Name", "Type", "InputPath"].Nodup)

def fTracing (o : Tracing) : Fields :=
  [("TraceSinks", if o.traceSinks.isEmpty then none else some (.seq (o.traceSinks.map yTraceSink))),
    ("TraceSources", if o.traceSources.isEmpty then none else some (.seq (o.traceSources.map yTraceSource)))]

def yTracing (o : Tracing) : Yaml := .map (entries (fTracing o))

theorem w_Tracing (o : Tracing) : writeTracing o .none = .ok (yTracing o) :=
  block_map ⟨emits_vec w_TraceSink _, emits_vec w_TraceSource _, trivial⟩

theorem nd_Tracing (o : Tracing) : ((fTracing o).map Prod.fst).Nodup := by
  exact (by decide +kernel : ["TraceSinks", "TraceSources"].Nodup)

def fExtensions (o : Extensions) : Fields :=
  [("SearchPathHints", if decide (o.searchPathHints = ({} : Extensions).searchPathHints) then none else some (.seq (o.searchPathHints.map Yaml.val)))]

def yExtensions (o : Extensions) : Yaml := .map (entries (fExtensions o))

theorem w_Extensions (o : Extensions) : writeExtensions o .none = .ok (yExtensions o) :=
  block_map ⟨emits_nonDefault _ (writeVec_ok str_ok _ _), trivial⟩

theorem nd_Extensions (o : Extensions) : ((fExtensions o).map Prod.fst).Nodup := by
  exact (by decide +kernel : ["SearchPathHints"].Nodup)

def fMiddleware (o : Middleware) : Fields :=
  [("RegistryUri", if decide (o.registryUri = ({} : Middleware).registryUri) then none else some (.val o.registryUri)),
    ("ConnectAttempts", if decide (o.connectAttempts = ({} : Middleware).connectAttempts) then none else some (.val (intText o.connectAttempts.toInt))),
    ("TcpNoDelay", if decide (o.tcpNoDelay = ({} : Middleware).tcpNoDelay) then none else some (.val (boolText o.tcpNoDelay))),
    ("TcpQuickAck", if decide (o.tcpQuickAck = ({} : Middleware).tcpQuickAck) then none else some (.val (boolText o.tcpQuickAck))),
    ("TcpReceiveBufferSize", if decide (o.tcpReceiveBufferSize = ({} : Middleware).tcpReceiveBufferSize) then none else some (.val (intText o.tcpReceiveBufferSize.toInt))),
    ("TcpSendBufferSize", if decide (o.tcpSendBufferSize = ({} : Middleware).tcpSendBufferSize) then none else some (.val (intText o.tcpSendBufferSize.toInt))),
    ("EnableDomainSockets", if decide (o.enableDomainSockets = ({} : Middleware).enableDomainSockets) then none else some (.val (boolText o.enableDomainSockets))),
    ("AcceptorUris", if decide (o.acceptorUris = ({} : Middleware).acceptorUris) then none else some (.seq (o.acceptorUris.map Yaml.val))),
    ("RegistryAsFallbackProxy", if decide (o.registryAsFallbackProxy = ({} : Middleware).registryAsFallbackProxy) then none else some (.val (boolText o.registryAsFallbackProxy))),
    ("ExperimentalRemoteParticipantConnection", if decide (o.experimentalRemoteParticipantConnection = ({} : Middleware).experimentalRemoteParticipantConnection) then none else some (.val (boolText o.experimentalRemoteParticipantConnection))),
    ("ConnectTimeoutSeconds", if decide (o.connectTimeoutSeconds = ({} : Middleware).connectTimeoutSeconds) then none else some (.val o.connectTimeoutSeconds))]

def yMiddleware (o : Middleware) : Yaml := .map (entries (fMiddleware o))

theorem w_Middleware (o : Middleware) : writeMiddleware o .none = .ok (yMiddleware o) :=
  block_map ⟨emits_nonDefault _ rfl, emits_nonDefault _ rfl, emits_nonDefault _ rfl, emits_nonDefault _ rfl, emits_nonDefault _ rfl, emits_nonDefault _ rfl, emits_nonDefault _ rfl, emits_nonDefault _ (writeVec_ok str_ok _ _), emits_nonDefault _ rfl, emits_nonDefault _ rfl, emits_nonDefault _ rfl, trivial⟩

theorem nd_Middleware (o : Middleware) : ((fMiddleware o).map Prod.fst).Nodup := by
  exact (by decide +kernel : ["RegistryUri", "ConnectAttempts", "TcpNoDelay", "TcpQuickAck", "TcpReceiveBufferSize", "TcpSendBufferSize", "EnableDomainSockets", "AcceptorUris", "RegistryAsFallbackProxy", "ExperimentalRemoteParticipantConnection", "ConnectTimeoutSeconds"].Nodup)

def fIncludes (o : Includes) : Fields :=
  [("Files", if o.files.isEmpty then none else some (.seq (o.files.map Yaml.val))),
    ("SearchPathHints", if o.searchPathHints.isEmpty then none else some (.seq (o.searchPathHints.map Yaml.val)))]

def yIncludes (o : Includes) : Yaml := .map (entries (fIncludes o))

theorem w_Includes (o : Includes) : writeIncludes o .none = .ok (yIncludes o) :=
  block_map ⟨emits_vec str_ok _, emits_vec str_ok _, trivial⟩

theorem nd_Includes (o : Includes) : ((fIncludes o).map Prod.fst).Nodup := by
  exact (by decide +kernel : ["Files", "SearchPathHints"].Nodup)

def fTimeSynchronization (o : TimeSynchronization) : Fields :=
  [("AnimationFactor", if decide (o.animationFactor = ({} : TimeSynchronization).animationFactor) then none else some (.val o.animationFactor)),
    ("EnableMessageAggregation", if decide (o.enableMessageAggregation = ({} : TimeSynchronization).enableMessageAggregation) then none else some (yAggregation o.enableMessageAggregation)),
    ("DynamicSimulationStep", o.dynamicSimulationStep.map (fun b => .val (boolText b)))]

def yTimeSynchronization (o : TimeSynchronization) : Yaml := .map (entries (fTimeSynchronization o))

theorem w_TimeSynchronization (o : TimeSynchronization) : writeTimeSynchronization o .none = .ok (yTimeSynchronization o) :=
  block_map ⟨emits_nonDefault _ rfl, emits_nonDefault _ rfl, emits_opt (fun b => str_ok (boolText b)) _, trivial⟩

theorem nd_TimeSynchronization (o : TimeSynchronization) : ((fTimeSynchronization o).map Prod.fst).Nodup := by
  exact (by decide +kernel : ["AnimationFactor", "EnableMessageAggregation", "DynamicSimulationStep"].Nodup)

def fExperimental (o : Experimental) : Fields :=
  [("TimeSynchronization", if decide (o.timeSynchronization = ({} : Experimental).timeSynchronization) then none else some (yTimeSynchronization o.timeSynchronization)),
    ("Metrics", if sameMetrics o.metrics ({} : Experimental).metrics then none else some (yMetrics o.metrics))]

def yExperimental (o : Experimental) : Yaml := .map (entries (fExperimental o))

theorem w_Experimental (o : Experimental) : writeExperimental o .none = .ok (yExperimental o) :=
  block_map ⟨emits_nonDefault _ (w_TimeSynchronization _), emits_nonDefault _ (w_Metrics _), trivial⟩

theorem nd_Experimental (o : Experimental) : ((fExperimental o).map Prod.fst).Nodup := by
  exact (by decide +kernel : ["TimeSynchronization", "Metrics"].Nodup)

def fHealthCheck (o : HealthCheck) : Fields :=
  [("SoftResponseTimeout", o.softResponseTimeout.map yDuration),
    ("HardResponseTimeout", o.hardResponseTimeout.map yDuration)]

def yHealthCheck (o : HealthCheck) : Yaml := .map (entries (fHealthCheck o))

theorem w_HealthCheck (o : HealthCheck) : writeHealthCheck o .none = .ok (yHealthCheck o) :=
  block_map ⟨emits_opt w_Duration _, emits_opt w_Duration _, trivial⟩

theorem nd_HealthCheck (o : HealthCheck) : ((fHealthCheck o).map Prod.fst).Nodup := by
  exact (by decide +kernel : ["SoftResponseTimeout", "HardResponseTimeout"].Nodup)

def fParticipant (o : Participant) : Fields :=
  [("SchemaVersion", some (.val schemaVersion)),
    ("Description", if o.description = "" then none else some (.val o.description)),
    ("ParticipantName", if o.participantName = "" then none else some (.val o.participantName)),
    ("CanControllers", if o.canControllers.isEmpty then none else some (.seq (o.canControllers.map yController))),
    ("LinControllers", if o.linControllers.isEmpty then none else some (.seq (o.linControllers.map yController))),
    ("EthernetControllers", if o.ethernetControllers.isEmpty then none else some (.seq (o.ethernetControllers.map yController))),
    ("FlexrayControllers", if o.flexrayControllers.isEmpty then none else some (.seq (o.flexrayControllers.map yFlexrayController))),
    ("DataPublishers", if o.dataPublishers.isEmpty then none else some (.seq (o.dataPublishers.map yDataPublisher))),
    ("DataSubscribers", if o.dataSubscribers.isEmpty then none else some (.seq (o.dataSubscribers.map yDataSubscriber))),
    ("RpcServers", if o.rpcServers.isEmpty then none else some (.seq (o.rpcServers.map (yRpcEnd "FunctionName")))),
    ("RpcClients", if o.rpcClients.isEmpty then none else some (.seq (o.rpcClients.map (yRpcEnd "Channel")))),
    ("Logging", if decide (o.logging = ({} : Participant).logging) then none else some (yLogging o.logging)),
    ("HealthCheck", if decide (o.healthCheck = ({} : Participant).healthCheck) then none else some (yHealthCheck o.healthCheck)),
    ("Tracing", if decide (o.tracing = ({} : Participant).tracing) then none else some (yTracing o.tracing)),
    ("Extensions", if decide (o.extensions = ({} : Participant).extensions) then none else some (yExtensions o.extensions)),
    ("Middleware", if decide (o.middleware = ({} : Participant).middleware) then none else some (yMiddleware o.middleware)),
    ("Includes", if decide (o.includes = ({} : Participant).includes) then none else some (yIncludes o.includes)),
    ("Experimental", if sameExperimental o.experimental ({} : Participant).experimental then none else some (yExperimental o.experimental))]

def yParticipant (o : Participant) : Yaml := .map (entries (fParticipant o))

theorem w_Participant (o : Participant) : writeParticipant o .none = .ok (yParticipant o) :=
  block_map ⟨emits_key rfl, emits_str _, emits_str _, emits_vec w_Controller _, emits_vec w_Controller _, emits_vec w_Controller _, emits_vec w_FlexrayController _, emits_vec w_DataPublisher _, emits_vec w_DataSubscriber _, emits_vec (w_RpcEnd _) _, emits_vec (w_RpcEnd _) _, emits_nonDefault _ (w_Logging _), emits_nonDefault _ (w_HealthCheck _), emits_nonDefault _ (w_Tracing _), emits_nonDefault _ (w_Extensions _), emits_nonDefault _ (w_Middleware _), emits_nonDefault _ (w_Includes _), emits_nonDefault _ (w_Experimental _), trivial⟩

theorem nd_Participant (o : Participant) : ((fParticipant o).map Prod.fst).Nodup := by
  exact (by decide +kernel : ["SchemaVersion", "Description", "ParticipantName", "CanControllers", "LinControllers", "EthernetControllers", "FlexrayControllers", "DataPublishers", "DataSubscribers", "RpcServers", "RpcClients", "Logging", "HealthCheck", "Tracing", "Extensions", "Middleware", "Includes", "Experimental"].Nodup)

end SilKit.ConfigText
