import Verif.Model.Basic
/-!
# Configurations with includes (config/ParticipantConfigurationFromXImpl.cpp)

A configuration file is modelled as what is written in it; reading and validating the YAML text is not modelled, all files are valid. Texts that are only
compared, such as names and URIs, are numbers. Values of options are numbers as well: 0 and 1 for booleans, 0 for the empty URI.
Paths are lists of bytes; 47 is `/` and 92 is `\`.
-/
namespace SilKit.ConfigFiles

abbrev Path := List Nat

/-- The lists of named elements, ParticipantConfiguration.hpp:366-377, 245-249. -/
inductive Kind
  | can | lin | ethernet | flexray | publisher | subscriber | rpcServer | rpcClient | traceSink | traceSource
deriving Repr, DecidableEq

/-- A named element. For trace sinks and sources, `target` is the path and `params` is the type. Properties that a kind does not have are empty. -/
structure Elem where
  name : Nat
  /-- Network, topic, or name of the function. -/
  target : Option Nat := none
  labels : Nat := 0
  history : Option Nat := none
  traceSinks : List Nat := []
  replay : Nat := 0
  /-- Cluster and node parameters of FlexRay controllers. -/
  params : Nat := 0
  txBuffers : Nat := 0
deriving Repr, DecidableEq

/-- The comparisons `operator==`, ParticipantConfiguration.cpp:73-116 and Configuration.hpp:238-246. -/
def same (k : Kind) (a b : Elem) : Bool :=
  match k with
  | .can | .lin | .ethernet =>
    decide (a.name = b.name) && decide (a.target = b.target) && decide (a.traceSinks = b.traceSinks) && decide (a.replay = b.replay)
  | .flexray =>
    decide (a.name = b.name) && decide (a.target = b.target) && decide (a.params = b.params) && decide (a.traceSinks = b.traceSinks) &&
      decide (a.replay = b.replay)
  | .publisher | .subscriber | .rpcServer | .rpcClient => decide (a.traceSinks = b.traceSinks) && decide (a.replay = b.replay)
  | .traceSink | .traceSource => decide (a.name = b.name) && decide (a.target = b.target) && decide (a.params = b.params)

/-- The options that have a value in each section, ParticipantConfiguration.hpp:282-321 and Configuration.hpp:89-94. -/
inductive Opt
  | registryUri | connectAttempts | tcpReceiveBufferSize | tcpSendBufferSize | tcpNoDelay | tcpQuickAck | enableDomainSockets
  | registryAsFallbackProxy | remoteParticipantConnection | connectTimeout | logFromRemotes | flushLevel | animationFactor | messageAggregation
deriving Repr, DecidableEq

def Opt.all : List Opt :=
  [.registryUri, .connectAttempts, .tcpReceiveBufferSize, .tcpSendBufferSize, .tcpNoDelay, .tcpQuickAck, .enableDomainSockets,
    .registryAsFallbackProxy, .remoteParticipantConnection, .connectTimeout, .logFromRemotes, .flushLevel, .animationFactor, .messageAggregation]

/-- The default values, at the same places. -/
def Opt.default : Opt → Int
  | .registryUri => 0
  | .connectAttempts => 1
  | .tcpReceiveBufferSize => -1
  | .tcpSendBufferSize => -1
  | .tcpNoDelay => 1
  | .tcpQuickAck => 0
  | .enableDomainSockets => 1
  | .registryAsFallbackProxy => 1
  | .remoteParticipantConnection => 1
  | .connectTimeout => 5
  | .logFromRemotes => 0
  | .flushLevel => 0xffffffff
  | .animationFactor => 0
  | .messageAggregation => 0

inductive SinkType
  | remote | stdout | file
deriving Repr, DecidableEq

/-- `Sink`, Configuration.hpp:65-86; `rest` are level, format and topics. -/
structure Sink where
  type : SinkType
  logName : Nat := 0
  rest : Nat := 0
deriving Repr, DecidableEq

inductive MetricsSinkType
  | undefined | jsonFile | remote
deriving Repr, DecidableEq

/-- `MetricsSink`, ParticipantConfiguration.hpp:246-257. -/
structure MetricsSink where
  type : MetricsSinkType
  name : Nat := 0
deriving Repr, DecidableEq

/-- What is written in a file. -/
structure File where
  schemaVersion : Option Nat := none
  participantName : Option Nat := none
  elems : Kind → List Elem := fun _ => []
  opt : Opt → Option Int := fun _ => none
  dynamicStep : Option Bool := none
  acceptorUris : List Nat := []
  sinks : List Sink := []
  softTimeout : Option Nat := none
  hardTimeout : Option Nat := none
  extensionPaths : List Nat := []
  metricsSinks : List MetricsSink := []
  collectFromRemote : Option Bool := none
  updateInterval : Option Nat := none
  /-- `Includes`: `SearchPathHints` and `Files`. -/
  hints : List Path := []
  includes : List Path := []

/-- `ParticipantConfiguration`, the members that are used, ParticipantConfiguration.hpp:352-386. -/
structure Config where
  participantName : Option Nat := none
  elems : Kind → List Elem := fun _ => []
  opt : Opt → Int := Opt.default
  dynamicStep : Option Bool := none
  acceptorUris : List Nat := []
  sinks : List Sink := []
  softTimeout : Option Nat := none
  hardTimeout : Option Nat := none
  extensionPaths : List Nat := []
  metricsSinks : List MetricsSink := []
  collectFromRemote : Option Bool := none
  updateInterval : Nat := 1

/-- `Deserialize`: options that are not written have their default values. -/
def deserialize (f : File) : Config :=
  { participantName := f.participantName, elems := f.elems, opt := fun o => (f.opt o).getD o.default, dynamicStep := f.dynamicStep,
    acceptorUris := f.acceptorUris, sinks := f.sinks, softTimeout := f.softTimeout, hardTimeout := f.hardTimeout, extensionPaths := f.extensionPaths,
    metricsSinks := f.metricsSinks, collectFromRemote := f.collectFromRemote, updateInterval := f.updateInterval.getD 1 }

/-! ## Finding files -/

/-- A file system: the files at absolute paths. -/
abbrev FileSystem := Path → Option File

/-- What the operating system opens for a path, in a working directory. -/
def absolute (cwd p : Path) : Path := if p.head? = some 47 then p else cwd ++ 47 :: p

def stripSlashes (p : Path) : Path := (p.reverse.dropWhile (· = 47)).reverse

/-- `path::parent_path`, without the special cases of paths that end with `/`. -/
def parentPath (p : Path) : Path :=
  match stripSlashes ((p.reverse.dropWhile (· ≠ 47)).reverse) with
  | [] => [47]
  | q => q

/-- `GetConfigParentPath`, ParticipantConfigurationFromXImpl.cpp:123-128. -/
def configParentPath (cwd file : Path) : Path := parentPath (absolute cwd file)

/-- Insertion into a `std::set<std::string>`. -/
def insertPath (p : Path) : List Path → List Path
  | [] => [p]
  | q :: qs => if p = q then q :: qs else if p < q then p :: q :: qs else q :: insertPath p qs

/-- One round of the loop of `AppendToSearchPaths`, ParticipantConfigurationFromXImpl.cpp:130-151, on Linux. -/
def appendHint (paths : List Path) (hint : Path) : List Path :=
  match hint.getLast? with
  | none => paths
  | some c => insertPath (if c ≠ 47 ∧ c ≠ 92 then hint ++ [47] else hint) paths

def appendHints (paths : List Path) (hints : List Path) : List Path := hints.foldl appendHint paths

/-- `OpenFileWithSearchHints`, ParticipantConfigurationFromXImpl.cpp:153-182; `none` if it throws. -/
def openWithHints (cwd : Path) (fs : FileSystem) (paths : List Path) (file : Path) : Option File :=
  match fs (absolute cwd file) with
  | some f => some f
  | none => paths.findSome? (fun h => fs (absolute cwd (h ++ file)))

/-! ## Includes -/

/-- `ConfigIncludeData`, ParticipantConfigurationFromXImpl.cpp:82-100, without the caches. `read` is `configBuffer` without the root. -/
structure Load where
  paths : List Path := []
  included : List Path := []
  read : List (Path × File) := []

/-- Processing one include, ParticipantConfigurationFromXImpl.cpp:632-654: what was collected for the next level is appended. The caches are filled later
(`merge`) in the model; this only matters for which error is reported if there are several. -/
def include1 (cwd : Path) (fs : FileSystem) (s : Load × List Path) (file : Path) : Res (Load × List Path) :=
  if file ∈ s.1.included then .ok s
  else match openWithHints cwd fs s.1.paths file with
    | none => .throw "The config file could not be opened!"
    | some f => .ok ({ paths := appendHints s.1.paths f.hints, included := s.1.included ++ [file], read := s.1.read ++ [(file, f)] }, s.2 ++ f.includes)

/-- A loop in which exceptions can be thrown. -/
def loop {α β : Type} (f : β → α → Res β) : β → List α → Res β
  | b, [] => .ok b
  | b, a :: as => (f b a).bind (fun b' => loop f b' as)

/-- The loop over the levels, ParticipantConfigurationFromXImpl.cpp:629-663, with at most `n` rounds. -/
def levels (cwd : Path) (fs : FileSystem) : Nat → Load → List Path → Res Load
  | 0, l, _ => .ok l
  | n + 1, l, files => (loop (include1 cwd fs) (l, []) files).bind fun s =>
      match s.2 with
      | [] => .ok s.1
      | next => levels cwd fs n s.1 next

/-- `ProcessIncludes`, ParticipantConfigurationFromXImpl.cpp:610-664. -/
def processIncludes (cwd : Path) (fs : FileSystem) (paths : List Path) (root : File) : Res Load :=
  levels cwd fs 127 { paths := appendHints paths root.hints } root.includes

/-! ## Merging -/

/-- One round of the loop of `MergeNamedVector`, ParticipantConfigurationFromXImpl.cpp:196-225. The cache has the elements of the list by their names. -/
def mergeElem (k : Kind) (parent : List Elem) (e : Elem) : Res (List Elem) :=
  match parent.find? (fun d => decide (d.name = e.name)) with
  | none => .ok (parent ++ [e])
  | some d => if same k d e then .ok parent else .throw "Config element with the name but different config already exists!"

def mergeElems (k : Kind) (cs : List Config) : Res (List Elem) := loop (mergeElem k) [] (cs.flatMap (fun c => c.elems k))

/-- `MergeHealthCheck` for one of the two timeouts, ParticipantConfigurationFromXImpl.cpp:446-475. -/
def mergeTimeout (t include_ : Option Nat) : Res (Option Nat) :=
  match include_ with
  | none => .ok t
  | some v => if t = some v then .throw "ResponseTimeout already set" else .ok (some v)

/-- `MergeParticipantName`, ParticipantConfigurationFromXImpl.cpp:477-491. -/
def mergeName (n include_ : Option Nat) : Res (Option Nat) :=
  match include_, n with
  | none, _ => .ok n
  | some v, none => .ok (some v)
  | some _, some _ => .throw "Participant Name already set"

/-- The acceptor URIs, ParticipantConfigurationFromXImpl.cpp:260-267. -/
def cacheAcceptors (cache uris : List Nat) : Res (List Nat) :=
  if uris = [] then .ok cache else if cache ≠ [] then .throw "AcceptorUris already defined!" else .ok uris

/-- `CacheNonDefault`, ParticipantConfigurationFromXImpl.cpp:240-256. -/
def cacheNonDefault {α : Type} [DecidableEq α] (default : α) (cache : Option α) (value : α) : Res (Option α) :=
  if default ≠ value then
    if cache.isSome && decide (cache ≠ some value) then .throw "Config element is already set" else .ok (some value)
  else .ok cache

/-- `MergeCacheField` for an option and `Cache` before, ParticipantConfigurationFromXImpl.cpp:187-194, 258-294, 343-349. (The comparisons of whole sections
with their defaults, 422-434, do not matter: nothing is cached for default values.) -/
def mergeOption (o : Opt) (cs : List Config) : Res Int :=
  (loop (cacheNonDefault o.default) none (cs.map (fun c => c.opt o))).bind fun v => .ok (v.getD o.default)

/-- All options; it is not modelled which of several errors is reported. -/
def mergeOptions (cs : List Config) : Res (Opt → Int) :=
  if Opt.all.all (fun o => match mergeOption o cs with | .ok _ => true | _ => false) then
    .ok (fun o => match mergeOption o cs with | .ok v => v | _ => o.default)
  else .throw "Config element is already set"

/-- The dynamic simulation step, ParticipantConfigurationFromXImpl.cpp:350-357. -/
def cacheDynamicStep (cache value : Option Bool) : Res (Option Bool) :=
  match value with
  | none => .ok cache
  | some v => cacheNonDefault (!v) cache v

/-- The sinks in `GlobalLogCache`, ParticipantConfigurationFromXImpl.cpp:50-58. The names of the files are those of the file sinks. -/
structure LogCache where
  files : List Sink := []
  stdout : Option Sink := none
  remote : Option Sink := none
deriving Repr, DecidableEq

/-- Insertion into `std::set<Sink>` if there is no sink of this name, Configuration.hpp:219-222. -/
def insertSink (s : Sink) : List Sink → List Sink
  | [] => [s]
  | t :: ts => if s.logName < t.logName then s :: t :: ts else t :: insertSink s ts

/-- One round of the loop of `CacheLoggingSinks`, ParticipantConfigurationFromXImpl.cpp:296-341. -/
def cacheSink (c : LogCache) (s : Sink) : Res LogCache :=
  match s.type with
  | .stdout => if c.stdout = none then .ok { c with stdout := some s } else .throw "Stdout Sink already exists!"
  | .remote => if c.remote = none then .ok { c with remote := some s } else .throw "Remote Sink already exists!"
  | .file => if c.files.any (fun t => decide (t.logName = s.logName)) then .throw "Filesink already exists!" else .ok { c with files := insertSink s c.files }

/-- `MergeLogCache`, ParticipantConfigurationFromXImpl.cpp:509-524. -/
def mergeSinks (cs : List Config) : Res (List Sink) :=
  (loop cacheSink {} (cs.flatMap (fun c => c.sinks))).bind fun c => .ok (c.files ++ c.stdout.toList ++ c.remote.toList)

/-- `MetricsCache`, ParticipantConfigurationFromXImpl.cpp:68-74. -/
structure MetricsCache where
  collect : Option Bool := none
  files : List MetricsSink := []
  remote : Option MetricsSink := none
deriving Repr, DecidableEq

def insertMetricsSink (s : MetricsSink) : List MetricsSink → List MetricsSink
  | [] => [s]
  | t :: ts => if s.name < t.name then s :: t :: ts else t :: insertMetricsSink s ts

/-- One round of the loop of `Cache(Metrics)`, ParticipantConfigurationFromXImpl.cpp:368-406. -/
def cacheMetricsSink (c : MetricsCache) (s : MetricsSink) : Res MetricsCache :=
  match s.type with
  | .jsonFile =>
    if c.files.any (fun t => decide (t.name = s.name)) then .throw "JSON file metrics sink already exists!" else .ok { c with files := insertMetricsSink s c.files }
  | .remote => if c.remote = none then .ok { c with remote := some s } else .throw "Remote metrics sink already exists!"
  | .undefined => .throw "Invalid MetricsSink::Type"

/-- The beginning of `Cache(Metrics)`, ParticipantConfigurationFromXImpl.cpp:363-366. -/
def cacheCollect (cache value : Option Bool) : Res (Option Bool) :=
  match value with
  | none => .ok cache
  | some v => cacheNonDefault false cache v

/-- `Cache(Metrics)`, ParticipantConfigurationFromXImpl.cpp:360-407. -/
def cacheMetrics (c : MetricsCache) (m : Config) : Res MetricsCache :=
  (cacheCollect c.collect m.collectFromRemote).bind fun collect => loop cacheMetricsSink { c with collect := collect } m.metricsSinks

/-- `MergeMetricsCache`, ParticipantConfigurationFromXImpl.cpp:536-554: the members of a new configuration are changed. -/
def mergeMetrics (cs : List Config) : Res (List MetricsSink × Option Bool) :=
  (loop cacheMetrics {} cs).bind fun c =>
    let new : Config := {}
    let collect := match new.collectFromRemote with
      | none => none
      | some v => some (c.collect.getD v)
    if c.remote.isSome && c.collect.getD false then .throw "Cannot have 'Remote' metrics sink together with 'CollectFromRemote' being true"
    else .ok (new.metricsSinks ++ c.files ++ c.remote.toList, collect)

/-- The lists of all kinds; it is not modelled which of several errors is reported. -/
def mergeAllElems (cs : List Config) : Res (Kind → List Elem) :=
  if [Kind.can, .lin, .ethernet, .flexray, .publisher, .subscriber, .rpcServer, .rpcClient, .traceSink, .traceSource].all
      (fun k => match mergeElems k cs with | .ok _ => true | _ => false) then
    .ok (fun k => match mergeElems k cs with | .ok es => es | _ => [])
  else .throw "Config element with the name but different config already exists!"

/-- `MergeConfigs`, ParticipantConfigurationFromXImpl.cpp:563-604. -/
def merge (cs : List Config) : Res Config :=
  (mergeAllElems cs).bind fun elems =>
  (loop mergeTimeout none (cs.map (·.softTimeout))).bind fun soft =>
  (loop mergeTimeout none (cs.map (·.hardTimeout))).bind fun hard =>
  (loop mergeName none (cs.map (·.participantName))).bind fun name =>
  (loop cacheAcceptors [] (cs.map (·.acceptorUris))).bind fun uris =>
  (mergeOptions cs).bind fun opt =>
  (loop cacheDynamicStep none (cs.map (·.dynamicStep))).bind fun dyn =>
  (mergeSinks cs).bind fun sinks =>
  (mergeMetrics cs).bind fun metrics =>
  .ok { participantName := name, elems := elems, opt := opt, dynamicStep := dyn, acceptorUris := uris, sinks := sinks, softTimeout := soft,
        hardTimeout := hard, extensionPaths := cs.flatMap (·.extensionPaths), metricsSinks := metrics.1, collectFromRemote := metrics.2 }

/-- `PaticipantConfigurationWithIncludes`, ParticipantConfigurationFromXImpl.cpp:667-693; the version is 1. -/
def withIncludes (cwd : Path) (fs : FileSystem) (paths : List Path) (root : File) : Res Config :=
  if root.schemaVersion.getD 1 ≠ 1 then .throw "Unknown schema version found in participant configuration!"
  else (processIncludes cwd fs paths root).bind fun l => merge ((root :: l.read.map (·.2)).map deserialize)

/-- `ParticipantConfigurationFromStringImpl`, ParticipantConfigurationFromXImpl.cpp:703-709. -/
def fromString (cwd : Path) (fs : FileSystem) (root : File) : Res Config := withIncludes cwd fs [] root

/-- `ParticipantConfigurationFromFileImpl`, ParticipantConfigurationFromXImpl.cpp:711-723. -/
def fromFile (cwd : Path) (fs : FileSystem) (file : Path) : Res Config :=
  match openWithHints cwd fs [configParentPath cwd file] file with
  | none => .throw "The config file could not be opened!"
  | some root => withIncludes cwd fs [configParentPath cwd file] root

end SilKit.ConfigFiles
