import Verif.Model.ConfigText
/-!
# Validation of configurations against the schema (config/YamlValidator.cpp)

The document is the tree of Model/ConfigText. Not modelled: documents that begin with `---` (YamlValidator.cpp:637-648), the positions of the elements
in the messages, and the set of reserved names as a global variable that the first call fills without any lock.
-/
namespace SilKit.ConfigText

/-- schemaPaths_v1, YamlValidator.cpp:72-387. -/
def schemaPaths : List String :=
  ["/$schema", "/CanControllers", "/CanControllers/Name", "/CanControllers/Network", "/CanControllers/Replay",
    "/CanControllers/Replay/Direction", "/CanControllers/Replay/MdfChannel", "/CanControllers/Replay/MdfChannel/ChannelName",
    "/CanControllers/Replay/MdfChannel/ChannelPath", "/CanControllers/Replay/MdfChannel/ChannelSource",
    "/CanControllers/Replay/MdfChannel/GroupName", "/CanControllers/Replay/MdfChannel/GroupPath",
    "/CanControllers/Replay/MdfChannel/GroupSource", "/CanControllers/Replay/UseTraceSource", "/CanControllers/UseTraceSinks",
    "/DataPublishers", "/DataPublishers/Labels", "/DataPublishers/Labels/Key", "/DataPublishers/Labels/Kind", "/DataPublishers/Labels/Value",
    "/DataPublishers/Name", "/DataPublishers/Replay", "/DataPublishers/Replay/Direction", "/DataPublishers/Replay/MdfChannel",
    "/DataPublishers/Replay/MdfChannel/ChannelName", "/DataPublishers/Replay/MdfChannel/ChannelPath",
    "/DataPublishers/Replay/MdfChannel/ChannelSource", "/DataPublishers/Replay/MdfChannel/GroupName",
    "/DataPublishers/Replay/MdfChannel/GroupPath", "/DataPublishers/Replay/MdfChannel/GroupSource", "/DataPublishers/Replay/UseTraceSource",
    "/DataPublishers/Topic", "/DataPublishers/History", "/DataPublishers/UseTraceSinks", "/DataSubscribers", "/DataSubscribers/Labels",
    "/DataSubscribers/Labels/Key", "/DataSubscribers/Labels/Kind", "/DataSubscribers/Labels/Value", "/DataSubscribers/Name",
    "/DataSubscribers/Replay", "/DataSubscribers/Replay/Direction", "/DataSubscribers/Replay/MdfChannel",
    "/DataSubscribers/Replay/MdfChannel/ChannelName", "/DataSubscribers/Replay/MdfChannel/ChannelPath",
    "/DataSubscribers/Replay/MdfChannel/ChannelSource", "/DataSubscribers/Replay/MdfChannel/GroupName",
    "/DataSubscribers/Replay/MdfChannel/GroupPath", "/DataSubscribers/Replay/MdfChannel/GroupSource", "/DataSubscribers/Replay/UseTraceSource",
    "/DataSubscribers/Topic", "/DataSubscribers/UseTraceSinks", "/Description", "/EthernetControllers", "/EthernetControllers/Name",
    "/EthernetControllers/Network", "/EthernetControllers/Replay", "/EthernetControllers/Replay/Direction",
    "/EthernetControllers/Replay/MdfChannel", "/EthernetControllers/Replay/MdfChannel/ChannelName",
    "/EthernetControllers/Replay/MdfChannel/ChannelPath", "/EthernetControllers/Replay/MdfChannel/ChannelSource",
    "/EthernetControllers/Replay/MdfChannel/GroupName", "/EthernetControllers/Replay/MdfChannel/GroupPath",
    "/EthernetControllers/Replay/MdfChannel/GroupSource", "/EthernetControllers/Replay/UseTraceSource", "/EthernetControllers/UseTraceSinks",
    "/Experimental", "/Experimental/Metrics", "/Experimental/Metrics/CollectFromRemote", "/Experimental/Metrics/Sinks",
    "/Experimental/Metrics/Sinks/Name", "/Experimental/Metrics/Sinks/Type", "/Experimental/Metrics/UpdateInterval",
    "/Experimental/TimeSynchronization", "/Experimental/TimeSynchronization/AnimationFactor",
    "/Experimental/TimeSynchronization/DynamicSimulationStep", "/Experimental/TimeSynchronization/EnableMessageAggregation", "/Extensions",
    "/Extensions/SearchPathHints", "/FlexrayControllers", "/FlexRayControllers", "/FlexrayControllers/ClusterParameters",
    "/FlexRayControllers/ClusterParameters", "/FlexrayControllers/ClusterParameters/gColdstartAttempts",
    "/FlexRayControllers/ClusterParameters/gColdstartAttempts", "/FlexrayControllers/ClusterParameters/gCycleCountMax",
    "/FlexRayControllers/ClusterParameters/gCycleCountMax", "/FlexrayControllers/ClusterParameters/gdActionPointOffset",
    "/FlexRayControllers/ClusterParameters/gdActionPointOffset", "/FlexrayControllers/ClusterParameters/gdDynamicSlotIdlePhase",
    "/FlexRayControllers/ClusterParameters/gdDynamicSlotIdlePhase", "/FlexrayControllers/ClusterParameters/gdMiniSlot",
    "/FlexRayControllers/ClusterParameters/gdMiniSlot", "/FlexrayControllers/ClusterParameters/gdMiniSlotActionPointOffset",
    "/FlexRayControllers/ClusterParameters/gdMiniSlotActionPointOffset", "/FlexrayControllers/ClusterParameters/gdStaticSlot",
    "/FlexRayControllers/ClusterParameters/gdStaticSlot", "/FlexrayControllers/ClusterParameters/gdSymbolWindow",
    "/FlexRayControllers/ClusterParameters/gdSymbolWindow", "/FlexrayControllers/ClusterParameters/gdSymbolWindowActionPointOffset",
    "/FlexRayControllers/ClusterParameters/gdSymbolWindowActionPointOffset", "/FlexrayControllers/ClusterParameters/gdTSSTransmitter",
    "/FlexRayControllers/ClusterParameters/gdTSSTransmitter", "/FlexrayControllers/ClusterParameters/gdWakeupTxActive",
    "/FlexRayControllers/ClusterParameters/gdWakeupTxActive", "/FlexrayControllers/ClusterParameters/gdWakeupTxIdle",
    "/FlexRayControllers/ClusterParameters/gdWakeupTxIdle", "/FlexrayControllers/ClusterParameters/gListenNoise",
    "/FlexRayControllers/ClusterParameters/gListenNoise", "/FlexrayControllers/ClusterParameters/gMacroPerCycle",
    "/FlexRayControllers/ClusterParameters/gMacroPerCycle", "/FlexrayControllers/ClusterParameters/gMaxWithoutClockCorrectionFatal",
    "/FlexRayControllers/ClusterParameters/gMaxWithoutClockCorrectionFatal",
    "/FlexrayControllers/ClusterParameters/gMaxWithoutClockCorrectionPassive",
    "/FlexRayControllers/ClusterParameters/gMaxWithoutClockCorrectionPassive", "/FlexrayControllers/ClusterParameters/gNumberOfMiniSlots",
    "/FlexRayControllers/ClusterParameters/gNumberOfMiniSlots", "/FlexrayControllers/ClusterParameters/gNumberOfStaticSlots",
    "/FlexRayControllers/ClusterParameters/gNumberOfStaticSlots", "/FlexrayControllers/ClusterParameters/gPayloadLengthStatic",
    "/FlexRayControllers/ClusterParameters/gPayloadLengthStatic", "/FlexrayControllers/ClusterParameters/gSyncFrameIDCountMax",
    "/FlexRayControllers/ClusterParameters/gSyncFrameIDCountMax", "/FlexrayControllers/Name", "/FlexRayControllers/Name",
    "/FlexrayControllers/Network", "/FlexRayControllers/Network", "/FlexrayControllers/NodeParameters", "/FlexRayControllers/NodeParameters",
    "/FlexrayControllers/NodeParameters/pAllowHaltDueToClock", "/FlexRayControllers/NodeParameters/pAllowHaltDueToClock",
    "/FlexrayControllers/NodeParameters/pAllowPassiveToActive", "/FlexRayControllers/NodeParameters/pAllowPassiveToActive",
    "/FlexrayControllers/NodeParameters/pChannels", "/FlexRayControllers/NodeParameters/pChannels",
    "/FlexrayControllers/NodeParameters/pClusterDriftDamping", "/FlexRayControllers/NodeParameters/pClusterDriftDamping",
    "/FlexrayControllers/NodeParameters/pdAcceptedStartupRange", "/FlexRayControllers/NodeParameters/pdAcceptedStartupRange",
    "/FlexrayControllers/NodeParameters/pdListenTimeout", "/FlexRayControllers/NodeParameters/pdListenTimeout",
    "/FlexrayControllers/NodeParameters/pdMicrotick", "/FlexRayControllers/NodeParameters/pdMicrotick",
    "/FlexrayControllers/NodeParameters/pKeySlotId", "/FlexRayControllers/NodeParameters/pKeySlotId",
    "/FlexrayControllers/NodeParameters/pKeySlotOnlyEnabled", "/FlexRayControllers/NodeParameters/pKeySlotOnlyEnabled",
    "/FlexrayControllers/NodeParameters/pKeySlotUsedForStartup", "/FlexRayControllers/NodeParameters/pKeySlotUsedForStartup",
    "/FlexrayControllers/NodeParameters/pKeySlotUsedForSync", "/FlexRayControllers/NodeParameters/pKeySlotUsedForSync",
    "/FlexrayControllers/NodeParameters/pLatestTx", "/FlexRayControllers/NodeParameters/pLatestTx",
    "/FlexrayControllers/NodeParameters/pMacroInitialOffsetA", "/FlexRayControllers/NodeParameters/pMacroInitialOffsetA",
    "/FlexrayControllers/NodeParameters/pMacroInitialOffsetB", "/FlexRayControllers/NodeParameters/pMacroInitialOffsetB",
    "/FlexrayControllers/NodeParameters/pMicroInitialOffsetA", "/FlexRayControllers/NodeParameters/pMicroInitialOffsetA",
    "/FlexrayControllers/NodeParameters/pMicroInitialOffsetB", "/FlexRayControllers/NodeParameters/pMicroInitialOffsetB",
    "/FlexrayControllers/NodeParameters/pMicroPerCycle", "/FlexRayControllers/NodeParameters/pMicroPerCycle",
    "/FlexrayControllers/NodeParameters/pOffsetCorrectionOut", "/FlexRayControllers/NodeParameters/pOffsetCorrectionOut",
    "/FlexrayControllers/NodeParameters/pOffsetCorrectionStart", "/FlexRayControllers/NodeParameters/pOffsetCorrectionStart",
    "/FlexrayControllers/NodeParameters/pRateCorrectionOut", "/FlexRayControllers/NodeParameters/pRateCorrectionOut",
    "/FlexrayControllers/NodeParameters/pSamplesPerMicrotick", "/FlexRayControllers/NodeParameters/pSamplesPerMicrotick",
    "/FlexrayControllers/NodeParameters/pWakeupChannel", "/FlexRayControllers/NodeParameters/pWakeupChannel",
    "/FlexrayControllers/NodeParameters/pWakeupPattern", "/FlexRayControllers/NodeParameters/pWakeupPattern",
    "/FlexrayControllers/NodeParameters/pSecondKeySlotId", "/FlexRayControllers/NodeParameters/pSecondKeySlotId",
    "/FlexrayControllers/NodeParameters/pTwoKeySlotMode", "/FlexRayControllers/NodeParameters/pTwoKeySlotMode", "/FlexrayControllers/Replay",
    "/FlexRayControllers/Replay", "/FlexrayControllers/Replay/Direction", "/FlexRayControllers/Replay/Direction",
    "/FlexrayControllers/Replay/MdfChannel", "/FlexRayControllers/Replay/MdfChannel", "/FlexrayControllers/Replay/MdfChannel/ChannelName",
    "/FlexRayControllers/Replay/MdfChannel/ChannelName", "/FlexrayControllers/Replay/MdfChannel/ChannelPath",
    "/FlexRayControllers/Replay/MdfChannel/ChannelPath", "/FlexrayControllers/Replay/MdfChannel/ChannelSource",
    "/FlexRayControllers/Replay/MdfChannel/ChannelSource", "/FlexrayControllers/Replay/MdfChannel/GroupName",
    "/FlexRayControllers/Replay/MdfChannel/GroupName", "/FlexrayControllers/Replay/MdfChannel/GroupPath",
    "/FlexRayControllers/Replay/MdfChannel/GroupPath", "/FlexrayControllers/Replay/MdfChannel/GroupSource",
    "/FlexRayControllers/Replay/MdfChannel/GroupSource", "/FlexrayControllers/Replay/UseTraceSource",
    "/FlexRayControllers/Replay/UseTraceSource", "/FlexrayControllers/TxBufferConfigurations", "/FlexRayControllers/TxBufferConfigurations",
    "/FlexrayControllers/TxBufferConfigurations/channels", "/FlexRayControllers/TxBufferConfigurations/channels",
    "/FlexrayControllers/TxBufferConfigurations/headerCrc", "/FlexRayControllers/TxBufferConfigurations/headerCrc",
    "/FlexrayControllers/TxBufferConfigurations/offset", "/FlexRayControllers/TxBufferConfigurations/offset",
    "/FlexrayControllers/TxBufferConfigurations/PPindicator", "/FlexRayControllers/TxBufferConfigurations/PPindicator",
    "/FlexrayControllers/TxBufferConfigurations/repetition", "/FlexRayControllers/TxBufferConfigurations/repetition",
    "/FlexrayControllers/TxBufferConfigurations/slotId", "/FlexRayControllers/TxBufferConfigurations/slotId",
    "/FlexrayControllers/TxBufferConfigurations/transmissionMode", "/FlexRayControllers/TxBufferConfigurations/transmissionMode",
    "/FlexrayControllers/UseTraceSinks", "/FlexRayControllers/UseTraceSinks", "/HealthCheck", "/HealthCheck/HardResponseTimeout",
    "/HealthCheck/SoftResponseTimeout", "/Includes", "/Includes/Files", "/Includes/SearchPathHints", "/LinControllers", "/LinControllers/Name",
    "/LinControllers/Network", "/LinControllers/Replay", "/LinControllers/Replay/Direction", "/LinControllers/Replay/MdfChannel",
    "/LinControllers/Replay/MdfChannel/ChannelName", "/LinControllers/Replay/MdfChannel/ChannelPath",
    "/LinControllers/Replay/MdfChannel/ChannelSource", "/LinControllers/Replay/MdfChannel/GroupName",
    "/LinControllers/Replay/MdfChannel/GroupPath", "/LinControllers/Replay/MdfChannel/GroupSource", "/LinControllers/Replay/UseTraceSource",
    "/LinControllers/UseTraceSinks", "/Logging", "/Logging/FlushLevel", "/Logging/LogFromRemotes", "/Logging/Sinks", "/Logging/Sinks/Format",
    "/Logging/Sinks/Level", "/Logging/Sinks/LogName", "/Logging/Sinks/Type", "/Logging/Sinks/Experimental",
    "/Logging/Sinks/Experimental/EnabledTopics", "/Logging/Sinks/Experimental/DisabledTopics", "/Middleware", "/Middleware/AcceptorUris",
    "/Middleware/ConnectAttempts", "/Middleware/ConnectTimeoutSeconds", "/Middleware/EnableDomainSockets",
    "/Middleware/ExperimentalRemoteParticipantConnection", "/Middleware/RegistryAsFallbackProxy", "/Middleware/RegistryUri",
    "/Middleware/TcpNoDelay", "/Middleware/TcpQuickAck", "/Middleware/TcpReceiveBufferSize", "/Middleware/TcpSendBufferSize",
    "/ParticipantName", "/RpcClients", "/RpcClients/Channel", "/RpcClients/FunctionName", "/RpcClients/RpcChannel", "/RpcClients/Labels",
    "/RpcClients/Labels/Key", "/RpcClients/Labels/Kind", "/RpcClients/Labels/Value", "/RpcClients/Name", "/RpcClients/Replay",
    "/RpcClients/Replay/Direction", "/RpcClients/Replay/MdfChannel", "/RpcClients/Replay/MdfChannel/ChannelName",
    "/RpcClients/Replay/MdfChannel/ChannelPath", "/RpcClients/Replay/MdfChannel/ChannelSource", "/RpcClients/Replay/MdfChannel/GroupName",
    "/RpcClients/Replay/MdfChannel/GroupPath", "/RpcClients/Replay/MdfChannel/GroupSource", "/RpcClients/Replay/UseTraceSource",
    "/RpcClients/UseTraceSinks", "/RpcServers", "/RpcServers/Channel", "/RpcServers/FunctionName", "/RpcServers/RpcChannel",
    "/RpcServers/Labels", "/RpcServers/Labels/Key", "/RpcServers/Labels/Kind", "/RpcServers/Labels/Value", "/RpcServers/Name",
    "/RpcServers/Replay", "/RpcServers/Replay/Direction", "/RpcServers/Replay/MdfChannel", "/RpcServers/Replay/MdfChannel/ChannelName",
    "/RpcServers/Replay/MdfChannel/ChannelPath", "/RpcServers/Replay/MdfChannel/ChannelSource", "/RpcServers/Replay/MdfChannel/GroupName",
    "/RpcServers/Replay/MdfChannel/GroupPath", "/RpcServers/Replay/MdfChannel/GroupSource", "/RpcServers/Replay/UseTraceSource",
    "/RpcServers/UseTraceSinks", "/schemaVersion", "/SchemaVersion", "/Tracing", "/Tracing/TraceSinks", "/Tracing/TraceSinks/Name",
    "/Tracing/TraceSinks/OutputPath", "/Tracing/TraceSinks/Type", "/Tracing/TraceSources", "/Tracing/TraceSources/InputPath",
    "/Tracing/TraceSources/Name", "/Tracing/TraceSources/Type"]

/-- splitString with the separator "/", YamlValidator.cpp:52-68. -/
def splitChars (acc : List Char) : List Char → List (List Char)
  | [] => [acc.reverse]
  | c :: l => if c = '/' then acc.reverse :: splitChars [] l else splitChars (c :: acc) l

def splitString (s : String) : List String := (splitChars [] s.toList).map String.ofList

/-- MakePath, YamlValidator.cpp:424-438. -/
def makePath (parent name : String) : String :=
  if name = "" then parent else if parent = "/" then "/" ++ name else parent ++ "/" ++ name

/-- ElementName, YamlValidator.cpp:414-422: the text after the last separator. -/
def elementName (s : String) : String := String.ofList ((s.toList.reverse.takeWhile (· ≠ '/')).reverse)

/-- ParentPath, YamlValidator.cpp:396-412. The paths of nodes begin with the separator, so the exception for texts without one is not modelled. -/
def parentPath (s : String) : String :=
  let l := ((s.toList.reverse.dropWhile (· ≠ '/')).drop 1).reverse
  if l = [] then "/" else String.ofList l

/-- IsSchemaPath, YamlValidator.cpp:458-461. -/
def isSchemaPath (p : String) : Bool := decide (p ∈ schemaPaths)

/-- The set that IsReservedElementName fills, YamlValidator.cpp:442-452. -/
def reservedNames : List String := schemaPaths.flatMap splitString

/-- IsReservedElementName, YamlValidator.cpp:440-455. -/
def isReserved (path : String) : Bool := decide (elementName path ∈ reservedNames)

/-- A message of the validator without the position. -/
inductive Issue
  /-- "Element … is not a valid sub-element of schema path …", YamlValidator.cpp:558-560 -/
  | notAllowed (name path : String)
  /-- "Element … is being ignored. It is not a sub-element of schema path …", YamlValidator.cpp:565-567 -/
  | ignored (name path : String)
  /-- "Element … is already defined in path …", YamlValidator.cpp:521-523 -/
  | duplicate (name path : String)
  /-- the message for a scalar in a sequence, YamlValidator.cpp:580-582 -/
  | stray (value path : String)
  /-- "Unknown YAML Validation Error", YamlValidator.cpp:602 -/
  | unknown
deriving Repr, DecidableEq

/-- Does the message come with `ok &= false`? -/
def Issue.isError : Issue → Bool
  | .ignored _ _ => false
  | _ => true

/-- The search for keys that occur twice, YamlValidator.cpp:509-525. -/
def duplicates (path : String) : List String → List String → List Issue
  | _, [] => []
  | seen, k :: ks => if k ∈ seen then .duplicate k path :: duplicates path seen ks else duplicates path (k :: seen) ks

/-- HandleKeyVal, YamlValidator.cpp:550-570; `path` is the path of the map. -/
def checkKey (path name : String) : List Issue :=
  if isSchemaPath (makePath path name) then []
  else if isReserved (makePath path name) then [.notAllowed name path]
  else [.ignored name path]

/-- HandleVal, YamlValidator.cpp:574-584. -/
def checkScalar (path value : String) : List Issue := if isSchemaPath path then [] else [.stray value (parentPath path)]

mutual

/-- visit_stacked, operator() and push for a node without a key, YamlValidator.cpp:29-50, 504-535 and 586-605. A node without type, which the parser
does not produce, ends the validation in the code; here the other nodes are visited, too. -/
def visit (path : String) : Yaml → List Issue
  | .none => [.unknown]
  | .val s => checkScalar path s
  | .seq l => visitItems path l
  | .map m => duplicates path [] (m.map Prod.fst) ++ visitEntries path m

def visitItems (path : String) : List Yaml → List Issue
  | [] => []
  | x :: l => visit path x ++ visitItems path l

def visitEntries (path : String) : List (String × Yaml) → List Issue
  | [] => []
  | (k, v) :: m => checkKey path k ++ visitKeyed path k v ++ visitEntries path m

/-- The same for a node with a key, after HandleKeyVal. The search for keys that occur twice happens before the path of this node is pushed, so its
message has the path of the map in which the node is. -/
def visitKeyed (path key : String) : Yaml → List Issue
  | .none => [.unknown]
  | .val _ => []
  | .seq l => visitItems (makePath path key) l
  | .map m => duplicates path [] (m.map Prod.fst) ++ visitEntries (makePath path key) m

end

/-- The messages of ValidateWithSchema, YamlValidator.cpp:618-665. -/
def issues (d : Yaml) : List Issue :=
  match d with
  | .seq l => visit "/" (.seq l)
  | .map m => visit "/" (.map m)
  | _ => []

/-- The result of ValidateWithSchema, YamlValidator.cpp:618-665. -/
def isValid (d : Yaml) : Bool := !(issues d).any Issue.isError

/-- What becomes of a text of a configuration: Validate, ParticipantConfigurationFromXImpl.cpp:106-118, and Deserialize, as in the functions that read
one configuration, ParticipantConfigurationFromXImpl.cpp:638-673. -/
def readChecked (d : Yaml) : Res Participant :=
  if isValid d then deserialize d else .throw "YAML validation returned errors"

end SilKit.ConfigText
