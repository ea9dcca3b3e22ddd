import Verif.Model.ConfigText
/-!
# What a configuration looks like after it was written and read again

`reread` writes a configuration and reads the document. The other definitions say which settings get lost.
-/
namespace SilKit.ConfigText

/-- Write a configuration and read the document. -/
def reread (c : Participant) : Res Participant := do
  let document ← serialize c
  deserialize document

/-- The format, the topics, and the names of sinks that do not write to files are not kept. -/
def keptSink (s : Sink) : Sink :=
  { type := s.type, level := s.level, format := if s.type = .file then .json else .simple, logName := if s.type = .file then s.logName else "",
    disabledTopics := [], enabledTopics := [] }

/-- Settings for replaying are kept if a trace source is named. -/
def keptReplay (r : Replay) : Replay := if r.useTraceSource = "" then {} else r

/-- The update interval is kept if there is another setting for metrics. -/
def keptMetrics (m : Metrics) : Metrics := if m.sinks = [] ∧ m.collectFromRemote = none then {} else m

def keptController (c : Controller) : Controller := { c with replay := keptReplay c.replay }
def keptFlexray (c : FlexrayController) : FlexrayController := { c with replay := keptReplay c.replay }
def keptPublisher (c : DataPublisher) : DataPublisher := { c with replay := keptReplay c.replay }
def keptSubscriber (c : DataSubscriber) : DataSubscriber := { c with replay := keptReplay c.replay }
def keptRpc (c : RpcEnd) : RpcEnd := { c with replay := keptReplay c.replay }

/-- What is left of a configuration. -/
def kept (c : Participant) : Participant :=
  { c with
    schemaVersion := "1"
    configurationFilePath := ""
    canControllers := c.canControllers.map keptController
    linControllers := c.linControllers.map keptController
    ethernetControllers := c.ethernetControllers.map keptController
    flexrayControllers := c.flexrayControllers.map keptFlexray
    dataPublishers := c.dataPublishers.map keptPublisher
    dataSubscribers := c.dataSubscribers.map keptSubscriber
    rpcServers := c.rpcServers.map keptRpc
    rpcClients := c.rpcClients.map keptRpc
    logging := { c.logging with sinks := c.logging.sinks.map keptSink }
    experimental := { c.experimental with metrics := keptMetrics c.experimental.metrics } }

/-- Every sink that writes to a file has a name. -/
def FilesNamed (c : Participant) : Prop := ∀ s ∈ c.logging.sinks, s.type = .file → s.logName ≠ ""

/-- All settings for replaying in a configuration. -/
def replays (c : Participant) : List Replay :=
  c.canControllers.map (·.replay) ++ c.linControllers.map (·.replay) ++ c.ethernetControllers.map (·.replay) ++ c.flexrayControllers.map (·.replay) ++
    c.dataPublishers.map (·.replay) ++ c.dataSubscribers.map (·.replay) ++ c.rpcServers.map (·.replay) ++ c.rpcClients.map (·.replay)

/-- A configuration of the current version that uses none of the settings that get lost. -/
structure Lossless (c : Participant) : Prop where
  version : c.schemaVersion = "1"
  path : c.configurationFilePath = ""
  /-- Files are written as JSON and have a name, other sinks have a simple format and no name. -/
  format : ∀ s ∈ c.logging.sinks, (s.type = .file → s.format = .json ∧ s.logName ≠ "") ∧ (s.type ≠ .file → s.format = .simple ∧ s.logName = "")
  topics : ∀ s ∈ c.logging.sinks, s.disabledTopics = [] ∧ s.enabledTopics = []
  replay : ∀ r ∈ replays c, r.useTraceSource = "" → r.direction = .undefined ∧ r.mdfChannel = {}
  metrics : c.experimental.metrics.sinks = [] → c.experimental.metrics.collectFromRemote = none → c.experimental.metrics.updateInterval = 1

/-- Write the configuration of a registry and read the document. -/
def rereadRegistry (c : Registry) : Res Registry := do
  let document ← serializeRegistry c
  deserializeRegistry document

/-- Settings that a registry accepts. -/
structure RegistryValid (c : Registry) : Prop where
  remotes : c.logging.logFromRemotes = false
  sinks : ∀ s ∈ c.logging.sinks, s.type ≠ .remote
  names : ∀ s ∈ c.logging.sinks, s.type = .file → s.logName ≠ ""

/-- What is left of the configuration of a registry without settings for metrics. -/
def keptRegistry (c : Registry) : Registry :=
  { c with schemaVersion := "1", logging := { c.logging with sinks := c.logging.sinks.map keptSink }, metrics := {} }

end SilKit.ConfigText
