import Verif.Model.ConfigText
/-!
# Model: the program `sil-kit-registry`, its files, its settings and its end

`Utilities/SilKitRegistry/Registry.cpp` and the registration of the signal handler in `SilKit/source/util/SignalHandler.cpp` (UNIX).

A process is the list of what it does, one indivisible action after the other; what the operating system decides (which calls fail, in which
pieces a file is written, when the disk is full, which port is chosen) is given by `Luck`. Any number of registries, participants, signals and users
that change files interleave as they like, and every process can be killed between any two actions.

Simplifications: all paths are absolute, and different paths are different files. Output to the console is left out. The Windows service is left out. A file that
somebody else deletes while it is written stays deleted. SIGINT and SIGTERM are caught at the same time. The command line is already parsed (C63). How a
configuration is written as text is a parameter (C53).
-/
namespace SilKit.RegistryTool
open SilKit SilKit.ConfigText

abbrev Text := List Char
abbrev Path := Text

/-! ## Settings -/

/-- A log sink (Configuration.hpp:66-90), without the name and the topics. -/
structure LogSink where
  type : SinkType
  level : Level
deriving Repr, DecidableEq

/-- The options of the command line that lead to settings (Registry.cpp:378-417). An option that is not given has the empty value
(CommandlineParser.hpp:314-321). -/
structure CommandLine where
  listenUri : Text := []
  dashboardUri : Text := []
  log : Text := []
  enableDashboard : Bool := false
  generate : Path := []
  configuration : Path := []
  statusFile : Path := []
  help : Bool := false
  version : Bool := false
  directory : Path := []
deriving Repr, DecidableEq

/-- `RegistryConfiguration` (ParticipantConfiguration.hpp:435-444), of the metrics only `CollectFromRemote`. -/
structure FileSettings where
  description : Text := []
  listenUri : Option Text := none
  enableDomainSockets : Option Bool := none
  dashboardUri : Option Text := none
  sinks : List LogSink := []
  flushLevel : Level := .off
  collectFromRemote : Option Bool := none
deriving Repr, DecidableEq

/-- What the registry uses: parts of its participant configuration, and whether and where it sends to a dashboard. -/
structure Settings where
  description : Text := []
  listenUri : Text := []
  enableDomainSockets : Bool := true
  sinks : List LogSink := []
  flushLevel : Level := .off
  collectFromRemote : Option Bool := none
  dashboard : Option Text := none
deriving Repr, DecidableEq

/-- `Option::Value` (CommandlineParser.hpp:314-317). -/
def optionValue (given default : Text) : Text := if given.isEmpty then default else given

/-- `SilKit::Util::LowerCase` and `std::tolower`, of one character in the "C" locale. -/
def lower (c : Char) : Char := if 'A' ≤ c ∧ c ≤ 'Z' then Char.ofNat (c.toNat + 32) else c

/-- `isValidLogLevel` (Registry.cpp:46-51). -/
def isValidLogLevel (s : Text) : Bool :=
  let l := s.map lower
  l == "trace".toList || l == "debug".toList || l == "warn".toList || l == "info".toList || l == "error".toList || l == "critical".toList || l == "off".toList

/-- `Logging::from_string` (silkit/services/logging/string_utils.hpp:65-88). -/
def levelFromString (s : Text) : Level :=
  let l := s.map lower
  if l = "trace".toList then .trace
  else if l = "debug".toList then .debug
  else if l = "warn".toList then .warn
  else if l = "info".toList then .info
  else if l = "error".toList then .error
  else if l = "critical".toList then .critical
  else if l = "off".toList then .off
  else .off

/-- `ConfigureLogging` (Registry.cpp:53-63). -/
def configureLogging (s : Settings) (log : Text) : Settings := { s with sinks := s.sinks ++ [⟨.stdout, levelFromString log⟩] }

/-- `OverrideFromRegistryConfiguration` (Registry.cpp:97-138); `dashboardUri` and `enableDashboard` are the variables of `main`. -/
def override (s : Settings) (dashboardUri : Text) (enableDashboard : Bool) (f : FileSettings) : Settings × Text × Bool :=
  let s := if f.description.isEmpty then s else { s with description := f.description }
  let s := match f.listenUri with | some u => { s with listenUri := u } | none => s
  let s := if f.sinks.isEmpty then s else { s with sinks := f.sinks }
  let enableDashboard := enableDashboard || f.dashboardUri.isSome
  let dashboardUri := match f.dashboardUri with | some u => u | none => dashboardUri
  let s := match f.enableDomainSockets with | some b => { s with enableDomainSockets := b } | none => s
  let s := { s with collectFromRemote := f.collectFromRemote }
  let s := if f.collectFromRemote.isNone then { s with collectFromRemote := some true } else s
  (s, dashboardUri, enableDashboard)

/-- `SanitizeConfiguration` (Registry.cpp:149-167) with the part of `ValidateAndSanitizeConfig` about the URI (ValidateAndSanitizeConfig.cpp:58-81). -/
def sanitize (s : Settings) (listenUri : Text) : Settings :=
  if s.listenUri.isEmpty then
    if listenUri.isEmpty then { s with listenUri := "silkit://localhost:8500".toList } else { s with listenUri := listenUri }
  else s

/-- The part of `main` that computes the settings (Registry.cpp:482-501,525-552). -/
def settings (o : CommandLine) (f : FileSettings) : Settings :=
  let listenUri := optionValue o.listenUri "silkit://localhost:8500".toList
  let dashboardUri := optionValue o.dashboardUri "http://localhost:8082".toList
  let enableDashboard := !o.dashboardUri.isEmpty
  let (dashboardUri, enableDashboard) :=
    if o.enableDashboard then if enableDashboard then (dashboardUri, enableDashboard) else ("http://localhost:8082".toList, true)
    else (dashboardUri, enableDashboard)
  let s := configureLogging {} (optionValue o.log "info".toList)
  let (s, dashboardUri, enableDashboard) := override s dashboardUri enableDashboard f
  let s := sanitize s listenUri
  { s with dashboard := if enableDashboard then some dashboardUri else none }

/-! ## Actions -/

/-- One indivisible action of a process. -/
inductive Act where
  /-- A file is opened with `std::ios::trunc`. -/
  | truncate (p : Path)
  /-- The operating system takes over one piece of what is written to a file. -/
  | append (p : Path) (t : Text)
  | rename (a b : Path)
  | remove (p : Path)
  /-- The registry is created with the listener of the dashboard. -/
  | attach
  /-- The registry has opened its sockets, is listening on this URI, and its thread is running. -/
  | listen (uri : Text)
  /-- The registry is destroyed: no connections any more, its thread is joined. -/
  | unlisten
  /-- The dashboard is destroyed. -/
  | dropDashboard
  /-- Both `setSignalAction` (SignalHandler.cpp:156-157). -/
  | catching
  /-- `gSignalMonitor` is set (SignalHandler.cpp:250-253). -/
  | registered
  /-- `signalValue.wait()` (Registry.cpp:575) returns. -/
  | wait
  /-- The process ends. -/
  | exit (code : Int)
deriving Repr, DecidableEq

/-- How writing one file goes: whether it can be opened, and the lengths of the pieces that are taken over; what is left is lost (e.g. because the
disk is full). -/
structure Writing where
  opens : Bool := true
  pieces : List Nat := []
deriving Repr, DecidableEq

/-- `ConfigurationError`, or another exception. -/
inductive Failure | configuration | other
deriving Repr, DecidableEq

/-- Everything that is decided outside of the program. -/
structure Luck where
  /-- `ParseArguments` accepts the command line. -/
  parses : Bool := true
  /-- The working directory can be changed. -/
  changes : Bool := true
  /-- Reading and parsing the registry configuration. -/
  file : Except Failure FileSettings := .ok {}
  starting : Writing := {}
  running : Writing := {}
  stopped : Writing := {}
  /-- The status file can be removed. -/
  removes : Bool := true
  /-- `CreateDashboardInstance` succeeds. -/
  dashboard : Bool := true
  /-- Creating the registry fails. -/
  creation : Option Failure := none
  /-- `SetupDashboardConnection` fails. -/
  connection : Option Failure := none
  /-- `StartListening`: the URI that is actually used. -/
  listen : Text → Except Failure Text := fun u => .ok u
  /-- The eight random characters. -/
  random : Text := []
  generated : Writing := {}
  /-- `fs::rename` of an existing file succeeds. -/
  renames : Bool := true
  /-- `Serialize` and `SerializeAsJson` of a configuration that contains only this URI. -/
  yaml : Text → Text := fun u => u
  json : Text → Text := fun u => u

/-- What has been taken over of a text. -/
def cut : List Nat → Text → List Text
  | [], _ => []
  | n :: ns, t => t.take n :: cut ns (t.drop n)

/-- `std::ofstream` with `std::ios::trunc`, `<<` and `close`: without `exceptions(…)` no failure is noticed (Registry.cpp:296-298,349-352). -/
def write (p : Path) (t : Text) (w : Writing) : List Act := if w.opens then .truncate p :: (cut w.pieces t).map (.append p) else []

/-- `StatusFile::Write` (Registry.cpp:340-358). -/
def writeStatus (o : CommandLine) (t : Text) (w : Writing) : List Act := if o.statusFile.isEmpty then [] else write o.statusFile t w

/-- `~StatusFile` (Registry.cpp:323-338) after the `Write`. -/
def removeStatus (o : CommandLine) (e : Luck) : List Act := if o.statusFile.isEmpty then [] else if e.removes then [.remove o.statusFile] else []

/-- `tmpPath` (Registry.cpp:276-277). -/
def tmpPath (o : CommandLine) (e : Luck) : Path := o.generate ++ ".".toList ++ e.random ++ ".tmp".toList

/-- `pathHasJsonSuffix` (Registry.cpp:281-284). -/
def hasJsonSuffix (p : Path) : Bool := p.length ≥ ".json".toList.length && p.drop (p.length - ".json".toList.length) == ".json".toList

/-- What is written into the generated file (Registry.cpp:271-297). -/
def generatedText (o : CommandLine) (e : Luck) (uri : Text) : Text := (if hasJsonSuffix o.generate then e.json uri else e.yaml uri) ++ ['\n']

/-- The exit code for an exception (Registry.cpp:580-591). -/
def codeOf : Failure → Int
  | .configuration => -2
  | .other => -3

/-- From `generatedConfigurationPathOpt.HasValue()` on (Registry.cpp:268-308,566-578): the rest of `StartRegistry`, the rest of the block in `main`, and the
exit code. If `rename` throws, the registry is destroyed and then the dashboard (Registry.cpp:200,220); at the end the members of `RegistryInstance` are
destroyed, the dashboard first (Registry.hpp:16-20). `rename` fails if there is no temporary file. -/
def afterListening (o : CommandLine) (e : Luck) (dash : Bool) (uri : Text) : List Act × Int :=
  let running := writeStatus o "running".toList e.running ++ [.catching, .registered, .wait] ++ (if dash then [.dropDashboard] else []) ++ [.unlisten]
  let failed := [.unlisten] ++ (if dash then [.dropDashboard] else [])
  if o.generate.isEmpty then (running, 0)
  else
    let written := write (tmpPath o e) (generatedText o e uri) e.generated
    if e.generated.opens && e.renames then (written ++ [.rename (tmpPath o e) o.generate] ++ running, 0)
    else (written ++ failed, codeOf .other)

/-- `StartRegistry` (Registry.cpp:196-308) and the rest of the block in `main`, with the exit code. -/
def start (o : CommandLine) (e : Luck) (s : Settings) : List Act × Int :=
  let dash := s.dashboard.isSome && e.dashboard
  match e.creation with
  | some x => ([], codeOf x)
  | none =>
    let attached := if dash then [.attach] else []
    match if dash then e.connection else none with
    | some x => (attached ++ (if dash then [.dropDashboard] else []), codeOf x)
    | none =>
      match e.listen s.listenUri with
      | .error x => (attached ++ (if dash then [.dropDashboard] else []), codeOf x)
      | .ok uri => let (acts, code) := afterListening o e dash uri; (attached ++ [.listen uri] ++ acts, code)

/-- What happens while the object `statusFile` exists (Registry.cpp:506-593), with the exit code. -/
def inside (o : CommandLine) (e : Luck) : List Act × Int :=
  if isValidLogLevel (optionValue o.log "info".toList) = false then ([], -1)
  else match if o.configuration.isEmpty then .ok {} else e.file with
    | .error x => ([], codeOf x)
    | .ok f => start o e (settings o f)

/-- `main` (Registry.cpp:376-594). -/
def main (o : CommandLine) (e : Luck) : List Act :=
  if e.parses = false then [.exit (-1)]
  else if o.help then [.exit 0]
  else if o.directory.isEmpty = false ∧ e.changes = false then [.exit (-1)]
  else if o.version then [.exit 0]
  else writeStatus o "starting".toList e.starting ++ (inside o e).1 ++ writeStatus o "stopped".toList e.stopped ++ removeStatus o e ++ [.exit (inside o e).2]

/-! ## Any number of processes -/

/-- The dashboard of a registry: not used, used, or used and destroyed. -/
inductive Dash | unused | alive | gone
deriving Repr, DecidableEq

structure Proc where
  todo : List Act
  listening : Option Text := none
  /-- Whether it has put its generated configuration in place. -/
  placed : Bool := false
  dash : Dash := .unused
  catching : Bool := false
  registered : Bool := false
  /-- Whether the promise is set. -/
  signalled : Bool := false
  waited : Bool := false
  code : Option Int := none
  killed : Bool := false
  /-- Whether undefined behaviour has happened: a call of a function of a destroyed dashboard. -/
  undefined : Bool := false
deriving Repr, DecidableEq

structure World where
  files : Path → Option Text
  procs : Nat → Proc

inductive Op where
  /-- Process `i` does its next action. -/
  | run (i : Nat)
  /-- SIGINT or SIGTERM for process `i`. -/
  | signal (i : Nat)
  /-- Process `i` is killed, or crashes. -/
  | kill (i : Nat)
  /-- A participant connects to registry `i`, leaves it, or sends it something. -/
  | event (i : Nat)
  /-- Somebody else creates, changes or deletes a file. -/
  | user (p : Path) (c : Option Text)
deriving Repr, DecidableEq

def setFile (f : Path → Option Text) (p : Path) (c : Option Text) : Path → Option Text := fun q => if q = p then c else f q

/-- The effect of an action on the files. -/
def onFiles (f : Path → Option Text) : Act → Path → Option Text
  | .truncate p => setFile f p (some [])
  | .append p t => setFile f p ((f p).map (· ++ t))
  | .rename a b => match f a with | some c => setFile (setFile f a none) b (some c) | none => f
  | .remove p => setFile f p none
  | _ => f

/-- The effect of an action on its process. -/
def onProc (p : Proc) : Act → Proc
  | .rename _ _ => { p with placed := true }
  | .attach => { p with dash := .alive }
  | .listen u => { p with listening := some u }
  | .unlisten => { p with listening := none }
  | .dropDashboard => { p with dash := .gone }
  | .catching => { p with catching := true }
  | .registered => { p with registered := true }
  | .wait => { p with waited := true }
  | .exit c => { p with code := some c }
  | _ => p

def setProc (f : Nat → Proc) (i : Nat) (p : Proc) : Nat → Proc := fun j => if j = i then p else f j

def die (p : Proc) : Proc := { p with todo := [], listening := none, killed := true }

/-- The arrival of a signal: the default action ends the process; `systemHandler` (SignalHandler.cpp:237-243) does nothing while `gSignalMonitor` is
null; otherwise the worker thread sets the promise (Registry.cpp:574, SignalHandler.cpp:182-195). -/
def onSignal (p : Proc) : Proc :=
  if p.todo = [] then p
  else if p.catching = false then die p
  else if p.registered = false then p
  else { p with signalled := true }

/-- The thread of the registry calls the listener (VAsioRegistry.cpp:243-246,316-319,377-417). -/
def onEvent (p : Proc) : Proc := if p.listening.isSome ∧ p.dash = .gone then { p with undefined := true } else p

def step (w : World) : Op → World
  | .run i =>
    match (w.procs i).todo with
    | [] => w
    | .wait :: rest =>
      if (w.procs i).signalled then { w with procs := setProc w.procs i (onProc { w.procs i with todo := rest } .wait) } else w
    | a :: rest => { files := onFiles w.files a, procs := setProc w.procs i (onProc { w.procs i with todo := rest } a) }
  | .signal i => { w with procs := setProc w.procs i (onSignal (w.procs i)) }
  | .kill i => { w with procs := setProc w.procs i (if (w.procs i).todo = [] then w.procs i else die (w.procs i)) }
  | .event i => { w with procs := setProc w.procs i (onEvent (w.procs i)) }
  | .user p c => { w with files := setFile w.files p c }

def init (files : Path → Option Text) (os : Nat → CommandLine) (es : Nat → Luck) : World := ⟨files, fun i => { todo := main (os i) (es i) }⟩

def run (files : Path → Option Text) (os : Nat → CommandLine) (es : Nat → Luck) (ops : List Op) : World := ops.foldl step (init files os es)

end SilKit.RegistryTool
