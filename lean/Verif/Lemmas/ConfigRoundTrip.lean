import Verif.Lemmas.ConfigWrite
/-! # Lemmas: reading the documents that are written -/
namespace SilKit.ConfigText

theorem orOld_eq {T : Type} [DecidableEq T] {r : Rd T} {d v : T} {y : Yaml} (h : r d y = .ok v) :
    orOld r d (if v = d then none else some y) = .ok v := by
  by_cases e : v = d
  · subst e; simp [orOld]
  · simp [e, orOld, h]

theorem r_Cluster (o old : ClusterParameters) : readCluster old (yCluster o) = .ok o := by
  simp only [readCluster, yCluster, readKey_map, lookup_entries (nd_Cluster o)]
  simp [fCluster, get, orMissing_some]

theorem r_Node (o : NodeParameters) : readNode {} (yNode o) = .ok o := by
  simp only [readNode, yNode, readKey_map, optReadInt_map, lookup_entries (nd_Node o)]
  simp [fNode, get, orMissing_some, orOld_eq (rd_u8c _ _), orOld_eq (rd_u16c _ _)]

theorem r_TxBuffer (o old : TxBufferConfig) : readTxBuffer old (yTxBuffer o) = .ok o := by
  simp only [readTxBuffer, yTxBuffer, readKey_map, lookup_entries (nd_TxBuffer o)]
  simp [fTxBuffer, get, orMissing_some]

theorem sink_child (o : Sink) : child (ySink o) "Experimental" = .ok none := by
  simp only [child, ySink, lookup_entries (nd_Sink o)]
  simp [fSink, get]

theorem sink_hasName (o : Sink) : hasKey (ySink o) "LogName" = decide (o.logName ≠ "") := by
  simp only [hasKey, ySink, lookup_entries (nd_Sink o)]
  by_cases h : o.logName = "" <;> simp [fSink, get, h]

theorem sink_name (o : Sink) (h : o.logName ≠ "") : readKey readStr "" (ySink o) "LogName" = .ok o.logName := by
  simp only [ySink, readKey_map, lookup_entries (nd_Sink o)]
  simp [fSink, get, h, orMissing_some]

theorem sink_logName (o : Sink) (h : o.type = .file → o.logName ≠ "") :
    readLogName o.type "" (ySink o) = .ok (if o.type = .file then o.logName else "") := by
  unfold readLogName
  by_cases hf : o.type = .file
  · rw [if_pos hf, if_pos hf, sink_hasName, if_pos (by simpa using h hf), sink_name o (h hf)]
  · rw [if_neg hf, if_neg hf]

theorem sink_noName (o : Sink) (h : o.type = .file) (he : o.logName = "") :
    readLogName o.type "" (ySink o) = .throw "Sink of type Sink::Type::File requires a LogName" := by
  unfold readLogName
  rw [if_pos h, sink_hasName, he]
  rfl

theorem sink_type (o : Sink) (old : SinkType) : optRead readSinkType old (ySink o) "Type" = .ok o.type := by
  simp only [ySink, optRead_map, lookup_entries (nd_Sink o)]
  simp [fSink, get, orOld_some]

theorem sink_level (o : Sink) : optRead readLevel .info (ySink o) "Level" = .ok o.level := by
  simp only [ySink, optRead_map, lookup_entries (nd_Sink o)]
  simp [fSink, get, orOld_eq (rd_level _ _)]

theorem sink_format (o : Sink) (old : SinkFormat) : optRead readSinkFormat old (ySink o) "Format" = .ok old := by
  simp only [ySink, optRead_map, lookup_entries (nd_Sink o)]
  simp [fSink, get, orOld_none]

theorem readSink_eq (o : Sink) : readSink {} (ySink o) =
    (readLogName o.type "" (ySink o) >>= fun l =>
      .ok { format := if o.type = .file then .json else .simple, type := o.type, level := o.level, logName := l, disabledTopics := [], enabledTopics := [] }) := by
  unfold readSink
  simp only [sink_type, sink_level, sink_format, Res.bind_ok, readSinkTopics, sink_child, Res.pure_eq]

theorem r_Sink (o : Sink) (h : o.type = .file → o.logName ≠ "") : readSink {} (ySink o) = .ok (keptSink o) := by
  rw [readSink_eq, sink_logName o h]
  rfl

theorem r_Sink_throw (o : Sink) (h : o.type = .file) (he : o.logName = "") :
    readSink {} (ySink o) = .throw "Sink of type Sink::Type::File requires a LogName" := by
  rw [readSink_eq, sink_noName o h he]
  rfl

theorem r_Logging (o : Logging) (h : ∀ s ∈ o.sinks, s.type = .file → s.logName ≠ "") :
    readLogging {} (yLogging o) = .ok { o with sinks := o.sinks.map keptSink } := by
  simp only [readLogging, yLogging, optRead_map, lookup_entries (nd_Logging o)]
  simp [fLogging, get, orOld_some, orOld_eq (rd_level _ _), readVec_map (fun s hs => r_Sink s (h s hs))]
  cases hl : o.logFromRemotes <;> simp [orOld]

theorem r_MetricsSink (o : MetricsSink) : readMetricsSink {} (yMetricsSink o) = .ok o := by
  simp only [readMetricsSink, yMetricsSink, readKey_map, optRead_map, lookup_entries (nd_MetricsSink o)]
  simp [fMetricsSink, get, orMissing_some, orOld_eq (rd_str _ _)]

theorem r_Metrics (o : Metrics) : readMetrics {} (yMetrics o) = .ok o := by
  simp only [readMetrics, yMetrics, optRead_map, optReadOpt_map, optReadInt_map, lookup_entries (nd_Metrics o)]
  have h1 : orOld (readVec readMetricsSink) [] (if o.sinks.isEmpty then none else some (.seq (o.sinks.map yMetricsSink))) = .ok o.sinks :=
    orOld_vecId r_MetricsSink
  have h2 : orOldOpt readBool none (o.collectFromRemote.map (fun b => .val (boolText b))) = .ok o.collectFromRemote :=
    orOldOpt_map _ _ _ (fun x => rd_bool _ x)
  simp [fMetrics, get, -List.isEmpty_iff, h1, h2, orOld_eq (rd_i64c _ _)]

theorem strOpt (v : Option String) : orOldOpt readStr none (v.map Yaml.val) = .ok v := orOldOpt_map _ _ _ (fun x => rd_str _ x)

theorem r_MdfChannel (o : MdfChannel) : readMdfChannel {} (yMdfChannel o) = .ok o := by
  have : isMap (yMdfChannel o) = true := rfl
  simp only [readMdfChannel, this, if_true]
  simp only [yMdfChannel, optReadOpt_map, lookup_entries (nd_MdfChannel o)]
  simp [fMdfChannel, get, strOpt]

theorem r_Replay (o : Replay) : readReplay {} (yReplay o) = .ok o := by
  simp only [readReplay, yReplay, readKey_map, optRead_map, lookup_entries (nd_Replay o)]
  simp [fReplay, get, orMissing_some, orOld_eq (rd_direction _ _), orOld_eq (r_MdfChannel _)]

theorem length_pos_iff (s : String) : s.length > 0 ↔ s ≠ "" := by
  rw [gt_iff_lt, Nat.pos_iff_ne_zero, ne_eq, ne_eq, String.length_eq_zero_iff]

theorem orOld_replay (o : Replay) : orOld readReplay {} (if o.useTraceSource.length > 0 then some (yReplay o) else none) = .ok (keptReplay o) := by
  unfold keptReplay
  by_cases h : o.useTraceSource = ""
  · rw [if_neg (by rw [length_pos_iff]; simp [h]), if_pos h]; rfl
  · rw [if_pos ((length_pos_iff _).mpr h), if_neg h]; exact r_Replay o

theorem strVec (l : List String) : orOld (readVec readStr) [] (if l.isEmpty then none else some (.seq (l.map Yaml.val))) = .ok l :=
  orOld_vecId (fun x => rd_str _ x)

theorem r_Controller (o : Controller) : readController {} (yController o) = .ok (keptController o) := by
  simp only [readController, yController, readKey_map, optRead_map, optReadOpt_map, lookup_entries (nd_Controller o)]
  simp [fController, get, orMissing_some, strOpt, strVec, orOld_replay, -List.isEmpty_iff, -gt_iff_lt, keptController]

theorem r_FlexrayController (o : FlexrayController) : readFlexrayController {} (yFlexrayController o) = .ok (keptFlexray o) := by
  simp only [readFlexrayController, yFlexrayController, readKey_map, optRead_map, optReadOpt_map, lookup_entries (nd_FlexrayController o)]
  have h1 : orOldOpt readCluster none (o.clusterParameters.map yCluster) = .ok o.clusterParameters := orOldOpt_map _ _ _ (fun x => r_Cluster x _)
  have h2 : orOldOpt readNode none (o.nodeParameters.map yNode) = .ok o.nodeParameters := orOldOpt_map _ _ _ r_Node
  have h3 : orOld (readVec readTxBuffer) [] (if o.txBufferConfigurations.isEmpty then none else some (.seq (o.txBufferConfigurations.map yTxBuffer))) =
    .ok o.txBufferConfigurations := orOld_vecId (fun x => r_TxBuffer x _)
  simp [fFlexrayController, get, orMissing_some, strOpt, strVec, orOld_replay, h1, h2, h3, -List.isEmpty_iff, -gt_iff_lt, keptFlexray]

theorem r_Label (o : Label) : readLabel {} (yLabel o) = .ok o := by
  simp only [readLabel, yLabel, optRead_map, lookup_entries (nd_Label o)]
  simp [fLabel, get, orOld_some]

theorem labelsOpt (v : Option (List Label)) : orOldOpt (readVec readLabel) none (v.map (fun l => .seq (l.map yLabel))) = .ok v :=
  orOldOpt_map _ _ _ (fun _ => readVec_id r_Label)

theorem r_DataPublisher (o : DataPublisher) : readDataPublisher {} (yDataPublisher o) = .ok (keptPublisher o) := by
  simp only [readDataPublisher, yDataPublisher, readKey_map, optRead_map, optReadOpt_map, lookup_entries (nd_DataPublisher o)]
  have h1 : orOldOpt readU64 none (o.history.map ySize) = .ok o.history := orOldOpt_map _ _ _ (fun x => rd_size _ x)
  simp [fDataPublisher, get, orMissing_some, strOpt, strVec, orOld_replay, labelsOpt, h1, -List.isEmpty_iff, -gt_iff_lt, keptPublisher]

theorem r_DataSubscriber (o : DataSubscriber) : readDataSubscriber {} (yDataSubscriber o) = .ok (keptSubscriber o) := by
  simp only [readDataSubscriber, yDataSubscriber, readKey_map, optRead_map, optReadOpt_map, lookup_entries (nd_DataSubscriber o)]
  simp [fDataSubscriber, get, orMissing_some, strOpt, strVec, orOld_replay, labelsOpt, -List.isEmpty_iff, -gt_iff_lt, keptSubscriber]

theorem r_TraceSink (o old : TraceSink) : readTraceSink old (yTraceSink o) = .ok o := by
  simp only [readTraceSink, yTraceSink, readKey_map, lookup_entries (nd_TraceSink o)]
  simp [fTraceSink, get, orMissing_some]

theorem r_TraceSource (o old : TraceSource) : readTraceSource old (yTraceSource o) = .ok o := by
  simp only [readTraceSource, yTraceSource, readKey_map, lookup_entries (nd_TraceSource o)]
  simp [fTraceSource, get, orMissing_some]

theorem r_Tracing (o : Tracing) : readTracing {} (yTracing o) = .ok o := by
  simp only [readTracing, yTracing, optRead_map, lookup_entries (nd_Tracing o)]
  have h1 : orOld (readVec readTraceSink) [] (if o.traceSinks.isEmpty then none else some (.seq (o.traceSinks.map yTraceSink))) = .ok o.traceSinks :=
    orOld_vecId (fun x => r_TraceSink x _)
  have h2 : orOld (readVec readTraceSource) [] (if o.traceSources.isEmpty then none else some (.seq (o.traceSources.map yTraceSource))) =
    .ok o.traceSources := orOld_vecId (fun x => r_TraceSource x _)
  simp [fTracing, get, h1, h2, -List.isEmpty_iff]

theorem strVecEq (l : List String) : orOld (readVec readStr) [] (if l = [] then none else some (.seq (l.map Yaml.val))) = .ok l := by
  have := strVec l
  simpa using this

theorem r_Extensions (o : Extensions) : readExtensions {} (yExtensions o) = .ok o := by
  simp only [readExtensions, yExtensions, optRead_map, lookup_entries (nd_Extensions o)]
  simp [fExtensions, get, strVecEq]

theorem r_Includes (o : Includes) : readIncludes {} (yIncludes o) = .ok o := by
  simp only [readIncludes, yIncludes, optRead_map, lookup_entries (nd_Includes o)]
  simp [fIncludes, get, strVecEq]

theorem orOld_bool (d v : Bool) : orOld readBool d (if decide (v = d) then none else some (.val (boolText v))) = .ok v := orOld_nonDefault _ _ _ _ (rd_bool _ _)
theorem orOld_i32 (d v : Int32) : orOld readI32Checked d (if decide (v = d) then none else some (.val (intText v.toInt))) = .ok v :=
  orOld_nonDefault _ _ _ _ (rd_i32c _ _)
theorem orOld_str (d v : String) : orOld readStr d (if decide (v = d) then none else some (.val v)) = .ok v := orOld_nonDefault _ _ _ _ (rd_str _ _)

theorem r_Middleware (o : Middleware) : readMiddleware {} (yMiddleware o) = .ok o := by
  simp only [readMiddleware, yMiddleware, optRead_map, optReadInt_map, lookup_entries (nd_Middleware o)]
  simp [fMiddleware, get, orOld_eq (rd_str _ _), orOld_eq (rd_i32c _ _), orOld_eq (rd_bool _ _), strVecEq]

theorem boolOpt (v : Option Bool) : orOldOpt readBool none (v.map (fun b => .val (boolText b))) = .ok v :=
  orOldOpt_map _ _ _ (fun x => rd_bool _ x)

theorem r_TimeSynchronization (o : TimeSynchronization) : readTimeSynchronization {} (yTimeSynchronization o) = .ok o := by
  simp only [readTimeSynchronization, yTimeSynchronization, optRead_map, optReadOpt_map, lookup_entries (nd_TimeSynchronization o)]
  simp [fTimeSynchronization, get, orOld_eq (rd_str _ _), orOld_eq (rd_aggregation _ _), boolOpt]

theorem durOpt (v : Option Int64) : orOldOpt readI64Checked none (v.map yDuration) = .ok v := orOldOpt_map _ _ _ (fun x => rd_duration _ x)

theorem r_HealthCheck (o : HealthCheck) : readHealthCheck {} (yHealthCheck o) = .ok o := by
  simp only [readHealthCheck, yHealthCheck, optReadOpt_map, lookup_entries (nd_HealthCheck o)]
  simp [fHealthCheck, get, durOpt]

theorem sameMetrics_iff (m : Metrics) : sameMetrics m {} = true ↔ m.sinks = [] ∧ m.collectFromRemote = none := by
  simp [sameMetrics]

theorem orOld_metrics (m : Metrics) : orOld readMetrics {} (if sameMetrics m {} then none else some (yMetrics m)) = .ok (keptMetrics m) := by
  unfold keptMetrics
  by_cases h : m.sinks = [] ∧ m.collectFromRemote = none
  · rw [if_pos ((sameMetrics_iff m).mpr h), if_pos h]; rfl
  · rw [if_neg (fun e => h ((sameMetrics_iff m).mp e)), if_neg h]; exact r_Metrics m

theorem r_Experimental (o : Experimental) : readExperimental {} (yExperimental o) = .ok { o with metrics := keptMetrics o.metrics } := by
  simp only [readExperimental, yExperimental, optRead_map, lookup_entries (nd_Experimental o)]
  simp [fExperimental, get, orOld_eq (r_TimeSynchronization _), orOld_metrics]

theorem orOld_experimental (o : Experimental) :
    orOld readExperimental {} (if sameExperimental o {} then none else some (yExperimental o)) = .ok { o with metrics := keptMetrics o.metrics } := by
  by_cases h : sameExperimental o {} = true
  · rw [if_pos h]
    have h' := h
    simp only [sameExperimental, Bool.and_eq_true, decide_eq_true_eq] at h'
    obtain ⟨h1, h2⟩ := h'
    have h3 := (sameMetrics_iff o.metrics).mp h2
    obtain ⟨t, m⟩ := o
    simp only at h1 h3
    subst h1
    simp [orOld, keptMetrics, h3]
  · rw [if_neg h]; exact r_Experimental o

theorem orOld_logging (o : Logging) (h : ∀ s ∈ o.sinks, s.type = .file → s.logName ≠ "") :
    orOld readLogging {} (if decide (o = {}) then none else some (yLogging o)) = .ok { o with sinks := o.sinks.map keptSink } := by
  by_cases e : o = {}
  · subst e; rfl
  · rw [if_neg (by simpa using e)]; exact r_Logging o h

theorem readEach_rpc (l : List (String × Yaml)) (v : Option String) (h : deprecatedConflict (.map l) "FunctionName" ["Channel", "RpcChannel"] = false)
    (hr : readEach (optReadOpt readStr) (.map l) none ["FunctionName", "Channel", "RpcChannel"] = .ok v) :
    optReadDeprecated (optReadOpt readStr) none (.map l) "FunctionName" ["Channel", "RpcChannel"] = .ok v := by
  unfold optReadDeprecated
  simp only [h]
  exact hr

theorem orOldOpt_none {T : Type} [Inhabited T] (r : Rd T) (old : Option T) : orOldOpt r old none = .ok old := rfl

theorem rpc_function (function : String) (hf : function = "FunctionName" ∨ function = "Channel") (o : RpcEnd) :
    optReadDeprecated (optReadOpt readStr) none (yRpcEnd function o) "FunctionName" ["Channel", "RpcChannel"] = .ok o.functionName := by
  unfold yRpcEnd
  apply readEach_rpc
  · simp only [deprecatedConflict, hasKey, lookup_entries (nd_RpcEnd o hf), List.filter_cons, List.filter_nil]
    rcases hf with rfl | rfl <;> cases hn : o.functionName <;> simp [fRpcEnd, get, hn]
  · simp only [readEach, optReadOpt_map, lookup_entries (nd_RpcEnd o hf)]
    rcases hf with rfl | rfl <;> cases hn : o.functionName <;> simp [fRpcEnd, get, hn, orOldOpt]

theorem r_RpcEnd (function : String) (hf : function = "FunctionName" ∨ function = "Channel") (o : RpcEnd) :
    readRpcEnd {} (yRpcEnd function o) = .ok (keptRpc o) := by
  unfold readRpcEnd
  simp only [rpc_function function hf o]
  simp only [yRpcEnd, readKey_map, optRead_map, optReadOpt_map, lookup_entries (nd_RpcEnd o hf)]
  rcases hf with rfl | rfl <;>
  simp [fRpcEnd, get, orMissing_some, strVec, orOld_replay, labelsOpt, -List.isEmpty_iff, -gt_iff_lt, keptRpc]

theorem participant_flexray (o : Participant) :
    optReadDeprecated (optRead (readVec readFlexrayController)) [] (yParticipant o) "FlexrayControllers" ["FlexRayControllers"] =
      .ok (o.flexrayControllers.map keptFlexray) := by
  have h1 : hasKey (yParticipant o) "FlexRayControllers" = false := by
    simp only [hasKey, yParticipant, lookup_entries (nd_Participant o)]
    simp [fParticipant, get]
  have h2 : optRead (readVec readFlexrayController) [] (yParticipant o) "FlexrayControllers" = .ok (o.flexrayControllers.map keptFlexray) := by
    simp only [yParticipant, optRead_map, lookup_entries (nd_Participant o)]
    simp [fParticipant, get, orOld_vec (fun x _ => r_FlexrayController x), -List.isEmpty_iff]
  have h3 (old : List FlexrayController) : optRead (readVec readFlexrayController) old (yParticipant o) "FlexRayControllers" = .ok old := by
    simp only [yParticipant, optRead_map, lookup_entries (nd_Participant o)]
    simp [fParticipant, get, orOld]
  have h4 : deprecatedConflict (yParticipant o) "FlexrayControllers" ["FlexRayControllers"] = false := by
    simp [deprecatedConflict, h1]
  show (if deprecatedConflict (yParticipant o) "FlexrayControllers" ["FlexRayControllers"] then .throw _ else
    readEach (optRead (readVec readFlexrayController)) (yParticipant o) [] ["FlexrayControllers", "FlexRayControllers"]) = _
  rw [h4]
  simp [readEach, h2, h3]

theorem p_get (o : Participant) (name : String) : (entries (fParticipant o)).lookup name = get (fParticipant o) name := lookup_entries (nd_Participant o) name

theorem orOld_defStr (s : String) : orOld readStr "" (if s = "" then none else some (.val s)) = .ok s := orOld_eq (rd_str _ _)

theorem p_version0 (o : Participant) (d : String) : optRead readStr d (yParticipant o) "schemaVersion" = .ok d := by
  rw [yParticipant, optRead_map, p_get]; rfl
theorem p_version (o : Participant) (d : String) : optRead readStr d (yParticipant o) "SchemaVersion" = .ok "1" := by
  rw [yParticipant, optRead_map, p_get]; rfl
theorem p_description (o : Participant) : optRead readStr "" (yParticipant o) "Description" = .ok o.description := by
  rw [yParticipant, optRead_map, p_get]; exact orOld_defStr _
theorem p_participantName (o : Participant) : optRead readStr "" (yParticipant o) "ParticipantName" = .ok o.participantName := by
  rw [yParticipant, optRead_map, p_get]; exact orOld_defStr _
theorem p_can (o : Participant) : optRead (readVec readController) [] (yParticipant o) "CanControllers" = .ok (o.canControllers.map keptController) := by
  rw [yParticipant, optRead_map, p_get]; exact orOld_vec (fun x _ => r_Controller x)
theorem p_lin (o : Participant) : optRead (readVec readController) [] (yParticipant o) "LinControllers" = .ok (o.linControllers.map keptController) := by
  rw [yParticipant, optRead_map, p_get]; exact orOld_vec (fun x _ => r_Controller x)
theorem p_ethernet (o : Participant) : optRead (readVec readController) [] (yParticipant o) "EthernetControllers" = .ok (o.ethernetControllers.map keptController) := by
  rw [yParticipant, optRead_map, p_get]; exact orOld_vec (fun x _ => r_Controller x)
theorem p_publishers (o : Participant) : optRead (readVec readDataPublisher) [] (yParticipant o) "DataPublishers" = .ok (o.dataPublishers.map keptPublisher) := by
  rw [yParticipant, optRead_map, p_get]; exact orOld_vec (fun x _ => r_DataPublisher x)
theorem p_subscribers (o : Participant) : optRead (readVec readDataSubscriber) [] (yParticipant o) "DataSubscribers" = .ok (o.dataSubscribers.map keptSubscriber) := by
  rw [yParticipant, optRead_map, p_get]; exact orOld_vec (fun x _ => r_DataSubscriber x)
theorem p_servers (o : Participant) : optRead (readVec readRpcEnd) [] (yParticipant o) "RpcServers" = .ok (o.rpcServers.map keptRpc) := by
  rw [yParticipant, optRead_map, p_get]; exact orOld_vec (fun x _ => r_RpcEnd "FunctionName" (.inl rfl) x)
theorem p_clients (o : Participant) : optRead (readVec readRpcEnd) [] (yParticipant o) "RpcClients" = .ok (o.rpcClients.map keptRpc) := by
  rw [yParticipant, optRead_map, p_get]; exact orOld_vec (fun x _ => r_RpcEnd "Channel" (.inr rfl) x)
theorem p_healthCheck (o : Participant) : optRead readHealthCheck {} (yParticipant o) "HealthCheck" = .ok o.healthCheck := by
  rw [yParticipant, optRead_map, p_get]; exact orOld_nonDefault _ _ _ _ (r_HealthCheck _)
theorem p_tracing (o : Participant) : optRead readTracing {} (yParticipant o) "Tracing" = .ok o.tracing := by
  rw [yParticipant, optRead_map, p_get]; exact orOld_nonDefault _ _ _ _ (r_Tracing _)
theorem p_extensions (o : Participant) : optRead readExtensions {} (yParticipant o) "Extensions" = .ok o.extensions := by
  rw [yParticipant, optRead_map, p_get]; exact orOld_nonDefault _ _ _ _ (r_Extensions _)
theorem p_middleware (o : Participant) : optRead readMiddleware {} (yParticipant o) "Middleware" = .ok o.middleware := by
  rw [yParticipant, optRead_map, p_get]; exact orOld_nonDefault _ _ _ _ (r_Middleware _)
theorem p_includes (o : Participant) : optRead readIncludes {} (yParticipant o) "Includes" = .ok o.includes := by
  rw [yParticipant, optRead_map, p_get]; exact orOld_nonDefault _ _ _ _ (r_Includes _)
theorem p_experimental (o : Participant) : optRead readExperimental {} (yParticipant o) "Experimental" = .ok { o.experimental with metrics := keptMetrics o.experimental.metrics } := by
  rw [yParticipant, optRead_map, p_get]; exact orOld_experimental _
theorem p_logging (o : Participant) : optRead readLogging {} (yParticipant o) "Logging" =
    orOld readLogging {} (if decide (o.logging = {}) then none else some (yLogging o.logging)) := by
  rw [yParticipant, optRead_map, p_get]; rfl

theorem r_Participant (o : Participant) (h : FilesNamed o) : readParticipant {} (yParticipant o) = .ok (kept o) := by
  unfold readParticipant
  simp only [participant_flexray o, p_version0, p_version, p_description, p_participantName, p_can, p_lin, p_ethernet, p_publishers, p_subscribers, p_servers,
    p_clients, p_healthCheck, p_tracing, p_extensions, p_middleware, p_includes, p_experimental, p_logging, orOld_logging o.logging h, Res.bind_ok, Res.pure_eq]
  rfl

/-! ### When a sink has no name -/

theorem readAll_throw {T U : Type} [Inhabited T] {r : Rd T} {f : U → Yaml} {g : U → T} {l : List U} {m : String}
    (h : ∀ x ∈ l, r default (f x) = .ok (g x) ∨ r default (f x) = .throw m) (hx : ∃ x ∈ l, r default (f x) = .throw m) :
    readAll r (l.map f) = .throw m := by
  induction l with
  | nil => obtain ⟨x, hx, _⟩ := hx; cases hx
  | cons x l ih =>
    simp only [List.map_cons, readAll]
    rcases h x (.head _) with e | e
    · rw [e]
      obtain ⟨y, hy, ey⟩ := hx
      rcases List.mem_cons.mp hy with rfl | hy
      · rw [e] at ey; cases ey
      · simp [ih (fun x hx => h x (.tail _ hx)) ⟨y, hy, ey⟩]
    · rw [e]; rfl

theorem r_Logging_throw (o : Logging) (h : ∃ s ∈ o.sinks, s.type = .file ∧ s.logName = "") :
    readLogging {} (yLogging o) = .throw "Sink of type Sink::Type::File requires a LogName" := by
  have hv : readVec readSink [] (.seq (o.sinks.map ySink)) = .throw "Sink of type Sink::Type::File requires a LogName" := by
    suffices ha : readAll readSink (o.sinks.map ySink) = .throw "Sink of type Sink::Type::File requires a LogName" by simp [readVec, ha]
    refine readAll_throw (g := keptSink) (fun s _ => ?_) ?_
    · by_cases e : s.type = .file ∧ s.logName = ""
      · exact .inr (r_Sink_throw s e.1 e.2)
      · exact .inl (r_Sink s (fun ht hn => e ⟨ht, hn⟩))
    · obtain ⟨s, hs, ht, hn⟩ := h
      exact ⟨s, hs, r_Sink_throw s ht hn⟩
  simp only [readLogging, yLogging, optRead_map, lookup_entries (nd_Logging o)]
  simp [fLogging, get, orOld_some, orOld_eq (rd_level _ _), hv]
  try (cases hl : o.logFromRemotes <;> simp [orOld])

theorem r_Participant_throw (o : Participant) (h : ¬ FilesNamed o) :
    readParticipant {} (yParticipant o) = .throw "Sink of type Sink::Type::File requires a LogName" := by
  have hx : ∃ s ∈ o.logging.sinks, s.type = .file ∧ s.logName = "" := by
    refine Classical.byContradiction (fun hn => h (fun s hs ht he => hn ⟨s, hs, ht, he⟩))
  have hd : o.logging ≠ {} := fun e => by
    obtain ⟨s, hs, ht, _⟩ := hx
    rw [e] at hs
    revert s
    decide
  have hl := r_Logging_throw o.logging hx
  unfold readParticipant
  simp only [participant_flexray o, p_version0, p_version, p_description, p_participantName, p_can, p_lin, p_ethernet, p_publishers, p_subscribers, p_servers,
    p_clients, p_healthCheck, p_tracing, p_extensions, p_middleware, p_includes, p_experimental, p_logging, Res.bind_ok, hd, decide_false, Bool.false_eq_true, if_false, orOld, hl]
  rfl

/-! ### Which configurations survive -/

theorem map_self {T : Type} {f : T → T} {l : List T} : l.map f = l ↔ ∀ x ∈ l, f x = x := by
  induction l with
  | nil => simp
  | cons x l ih => simp [ih]

theorem reread_named {c : Participant} (h : FilesNamed c) : reread c = .ok (kept c) := by
  unfold reread serialize deserialize
  rw [w_Participant, Res.bind_ok, r_Participant c h]

theorem reread_unnamed {c : Participant} (h : ¬ FilesNamed c) : reread c = .throw "Sink of type Sink::Type::File requires a LogName" := by
  unfold reread serialize deserialize
  rw [w_Participant, Res.bind_ok, r_Participant_throw c h]

theorem keptSink_self (s : Sink) : (s.type = .file → s.logName ≠ "") ∧ keptSink s = s ↔
    ((s.type = .file → s.format = .json ∧ s.logName ≠ "") ∧ (s.type ≠ .file → s.format = .simple ∧ s.logName = "")) ∧
      (s.disabledTopics = [] ∧ s.enabledTopics = []) := by
  obtain ⟨f, t, l, n, d, e⟩ := s
  by_cases h : t = .file <;> simp [keptSink, h, eq_comm] <;> (constructor <;> (intro hh; simp_all))

theorem keptReplay_self (r : Replay) : keptReplay r = r ↔ (r.useTraceSource = "" → r.direction = .undefined ∧ r.mdfChannel = {}) := by
  obtain ⟨u, d, m⟩ := r
  by_cases h : u = "" <;> simp [keptReplay, h, eq_comm]

theorem keptMetrics_self (m : Metrics) : keptMetrics m = m ↔ (m.sinks = [] → m.collectFromRemote = none → m.updateInterval = 1) := by
  obtain ⟨s, c, u⟩ := m
  by_cases h : s = [] ∧ c = none
  · obtain ⟨rfl, rfl⟩ := h; simp [keptMetrics, eq_comm]
  · simp only [keptMetrics, if_neg h, true_iff]
    intro h1 h2; exact absurd ⟨h1, h2⟩ h

theorem keptController_self (c : Controller) : keptController c = c ↔ keptReplay c.replay = c.replay := by
  obtain ⟨_, _, _, _⟩ := c; simp [keptController]
theorem keptFlexray_self (c : FlexrayController) : keptFlexray c = c ↔ keptReplay c.replay = c.replay := by
  obtain ⟨_, _, _, _, _, _, _⟩ := c; simp [keptFlexray]
theorem keptPublisher_self (c : DataPublisher) : keptPublisher c = c ↔ keptReplay c.replay = c.replay := by
  obtain ⟨_, _, _, _, _, _⟩ := c; simp [keptPublisher]
theorem keptSubscriber_self (c : DataSubscriber) : keptSubscriber c = c ↔ keptReplay c.replay = c.replay := by
  obtain ⟨_, _, _, _, _⟩ := c; simp [keptSubscriber]
theorem keptRpc_self (c : RpcEnd) : keptRpc c = c ↔ keptReplay c.replay = c.replay := by
  obtain ⟨_, _, _, _, _⟩ := c; simp [keptRpc]

theorem forall_replay {T : Type} (l : List T) (g : T → Replay) (P : Replay → Prop) : (∀ r ∈ l.map g, P r) ↔ ∀ x ∈ l, P (g x) := by
  simp

theorem kept_self (c : Participant) : kept c = c ↔
    c.schemaVersion = "1" ∧ c.configurationFilePath = "" ∧ (∀ s ∈ c.logging.sinks, keptSink s = s) ∧ (∀ r ∈ replays c, keptReplay r = r) ∧
      keptMetrics c.experimental.metrics = c.experimental.metrics := by
  have e : kept c = c ↔ c.schemaVersion = "1" ∧ c.configurationFilePath = "" ∧ c.canControllers.map keptController = c.canControllers ∧
      c.linControllers.map keptController = c.linControllers ∧ c.ethernetControllers.map keptController = c.ethernetControllers ∧
      c.flexrayControllers.map keptFlexray = c.flexrayControllers ∧ c.dataPublishers.map keptPublisher = c.dataPublishers ∧
      c.dataSubscribers.map keptSubscriber = c.dataSubscribers ∧ c.rpcServers.map keptRpc = c.rpcServers ∧ c.rpcClients.map keptRpc = c.rpcClients ∧
      c.logging.sinks.map keptSink = c.logging.sinks ∧ keptMetrics c.experimental.metrics = c.experimental.metrics := by
    obtain ⟨_, _, _, _, _, _, _, _, _, _, _, _, ⟨_, _, _⟩, _, _, _, _, _, ⟨_, _⟩⟩ := c
    simp only [kept, Participant.mk.injEq, Logging.mk.injEq, Experimental.mk.injEq]
    constructor
    · intro h; simp_all
    · intro h; simp_all
  rw [e]
  simp only [map_self, keptController_self, keptFlexray_self, keptPublisher_self, keptSubscriber_self, keptRpc_self, replays, List.mem_append, or_imp,
    forall_and, List.forall_mem_map]
  constructor
  · rintro ⟨h1, h2, h3, h4, h5, h6, h7, h8, h9, h10, h11, h12⟩
    exact ⟨h1, h2, h11, ⟨⟨⟨⟨⟨⟨⟨h3, h4⟩, h5⟩, h6⟩, h7⟩, h8⟩, h9⟩, h10⟩, h12⟩
  · rintro ⟨h1, h2, h11, ⟨⟨⟨⟨⟨⟨⟨h3, h4⟩, h5⟩, h6⟩, h7⟩, h8⟩, h9⟩, h10⟩, h12⟩
    exact ⟨h1, h2, h3, h4, h5, h6, h7, h8, h9, h10, h11, h12⟩

theorem lossless_iff (c : Participant) : Lossless c ↔ FilesNamed c ∧ kept c = c := by
  rw [kept_self]
  constructor
  · rintro ⟨h1, h2, h3, h4, h5, h6⟩
    have hs := fun s hs => (keptSink_self s).mpr ⟨h3 s hs, h4 s hs⟩
    exact ⟨fun s h => (hs s h).1, h1, h2, fun s h => (hs s h).2, fun r hr => (keptReplay_self r).mpr (h5 r hr), (keptMetrics_self _).mpr h6⟩
  · rintro ⟨h0, h1, h2, h3, h5, h6⟩
    have hs := fun s hs => (keptSink_self s).mp ⟨h0 s hs, h3 s hs⟩
    exact ⟨h1, h2, fun s h => (hs s h).1, fun s h => (hs s h).2, fun r hr => (keptReplay_self r).mp (h5 r hr), (keptMetrics_self _).mp h6⟩

theorem keptReplay_idem (r : Replay) : keptReplay (keptReplay r) = keptReplay r := by
  unfold keptReplay; by_cases h : r.useTraceSource = "" <;> simp [h]

theorem keptSink_idem (s : Sink) : keptSink (keptSink s) = keptSink s := by
  unfold keptSink; by_cases h : s.type = .file <;> simp [h]

theorem keptMetrics_idem (m : Metrics) : keptMetrics (keptMetrics m) = keptMetrics m := by
  unfold keptMetrics; by_cases h : m.sinks = [] ∧ m.collectFromRemote = none
  · simp [h]
  · rw [if_neg h, if_neg h]

theorem kept_idem (c : Participant) : kept (kept c) = kept c := by
  simp [kept, keptController, keptFlexray, keptPublisher, keptSubscriber, keptRpc, keptReplay_idem, keptSink_idem, keptMetrics_idem,
    List.map_map, Function.comp_def]

theorem kept_named {c : Participant} (h : FilesNamed c) : FilesNamed (kept c) := by
  intro s hs ht
  obtain ⟨s', hs', rfl⟩ := List.mem_map.mp hs
  have ht' : s'.type = .file := ht
  show (if s'.type = .file then s'.logName else "") ≠ ""
  rw [if_pos ht']
  exact h s' hs' ht'

/-! ### Registries -/

def fRegistry (o : Registry) : Fields :=
  [("SchemaVersion", some (.val schemaVersion)),
    ("Description", if decide (o.description = ({} : Registry).description) then none else some (.val o.description)),
    ("ListenUri", o.listenUri.map Yaml.val),
    ("EnableDomainSockets", o.enableDomainSockets.map (fun b => .val (boolText b))),
    ("DashboardUri", o.dashboardUri.map Yaml.val),
    ("Logging", if decide (o.logging = ({} : Registry).logging) then none else some (yLogging o.logging)),
    ("Experimental", none)]

theorem nd_Registry (o : Registry) : ((fRegistry o).map Prod.fst).Nodup := by
  exact (by decide +kernel : ["SchemaVersion", "Description", "ListenUri", "EnableDomainSockets", "DashboardUri", "Logging", "Experimental"].Nodup)

theorem w_Registry (o : Registry) (h : sameMetrics o.metrics {} = true) : writeRegistry o .none = .ok (.map (entries (fRegistry o))) := by
  refine block_map ⟨emits_key rfl, emits_nonDefault _ rfl, emits_opt str_ok _, emits_opt (fun b => str_ok (boolText b)) _, emits_opt str_ok _,
    emits_nonDefault _ (w_Logging _), ?_, trivial⟩
  intro acc
  show nonDefault (sameMetrics o.metrics {}) _ _ _ = _
  rw [h]
  simp [nonDefault, skip, entry]

theorem keptSink_type (s : Sink) : (keptSink s).type = s.type := rfl

theorem r_Registry (o : Registry) (h : RegistryValid o) : readRegistry {} (.map (entries (fRegistry o))) = .ok (keptRegistry o) := by
  unfold readRegistry
  simp only [optRead_map, optReadOpt_map, lookup_entries (nd_Registry o)]
  have h1 : orOld readStr "" (get (fRegistry o) "SchemaVersion") = .ok "1" := rfl
  have h2 : orOld readStr "" (get (fRegistry o) "Description") = .ok o.description := orOld_nonDefault _ _ _ _ (rd_str _ _)
  have h3 : orOldOpt readStr none (get (fRegistry o) "ListenUri") = .ok o.listenUri := strOpt _
  have h4 : orOldOpt readBool none (get (fRegistry o) "EnableDomainSockets") = .ok o.enableDomainSockets := boolOpt _
  have h5 : orOldOpt readStr none (get (fRegistry o) "DashboardUri") = .ok o.dashboardUri := strOpt _
  have h6 : orOld readLogging {} (get (fRegistry o) "Logging") = .ok { o.logging with sinks := o.logging.sinks.map keptSink } := orOld_logging _ h.names
  have h7 : orOld readRegistryExperimental {} (get (fRegistry o) "Experimental") = .ok {} := rfl
  simp only [h1, h2, h3, h4, h5, h6, h7, Res.bind_ok]
  have hs : (o.logging.sinks.map keptSink).any (fun s => decide (s.type = .remote)) = false := by
    rw [List.any_map, List.any_eq_false]
    intro s hs
    exact fun e => h.sinks s hs (of_decide_eq_true e)
  unfold checkRegistry
  simp only [h.remotes, hs]
  simp [keptRegistry, h.remotes]

theorem registry_throws (o : Registry) (h : sameMetrics o.metrics {} = false) :
    writeRegistry o .none = .throw "Parse error: trying to access child of something not a map" := by
  let ws : List W := [writeKey "SchemaVersion" (scalar schemaVersion),
    nonDefault (decide (o.description = ({} : Registry).description)) "Description" (scalar o.description),
    optWrite o.listenUri "ListenUri" scalar,
    optWrite o.enableDomainSockets "EnableDomainSockets" (fun b => scalar (boolText b)),
    optWrite o.dashboardUri "DashboardUri" scalar,
    nonDefault (decide (o.logging = ({} : Registry).logging)) "Logging" (writeLogging o.logging)]
  have hw : EmitsAll ws ((fRegistry o).take 6) :=
    ⟨emits_key rfl, emits_nonDefault _ rfl, emits_opt str_ok _, emits_opt (fun b => str_ok (boolText b)) _, emits_opt str_ok _,
      emits_nonDefault _ (w_Logging _), trivial⟩
  have hb := block_map hw
  have happ (a b : List W) (n : Yaml) : block (a ++ b) n = (block a n >>= block b) := by
    induction a generalizing n with
    | nil => rfl
    | cons w a ih =>
      rw [List.cons_append, block_cons, block_cons]
      cases w n with
      | ok m => simp [ih]
      | «throw» m => rfl
      | ub m => rfl
  show block ((makeMap :: ws) ++ [nonDefault (sameMetrics o.metrics {}) "Experimental" (writeRegistryExperimental o.metrics)]) .none = _
  rw [happ, hb, Res.bind_ok, block_cons]
  unfold nonDefault
  rw [h]
  simp only [Bool.false_eq_true, if_false, writeKey, writeRegistryExperimental, block_cons, nonDefault, h]
  rfl

end SilKit.ConfigText
