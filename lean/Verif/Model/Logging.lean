import Verif.Model.Serdes
/-!
# Model: logging

The logger of a participant, `services/logging/Logger.cpp`, `Logger.hpp`, `LoggerMessage.hpp`, the part of spdlog it relies on, the
exchange of log messages between participants (`Participant_impl.hpp:163-210`, `LogMsgSender.cpp`, `LogMsgReceiver.cpp`), and the entry
points of the C interface (`capi/CapiLogger.cpp`, `capi/CapiVendor.cpp:83-97`).

Simplifications: texts are lists of characters (the code treats bytes; it only looks at ASCII characters, which occur in UTF-8 only as
themselves); times are nanoseconds since 1970 and not negative; how spdlog prints a date is a parameter; colours of terminals are left
out; `SourceLoc` is always empty, as in every call of the code. `std::map<std::shared_ptr<...>, Sink>` is ordered by addresses, so the
order of the sinks in a logger is arbitrary (see `Logger.Built`).
-/
namespace SilKit.Logging

abbrev Text := List Char

/-- `Level` of a configuration, silkit/services/logging/LoggingDatatypes.hpp:15-24. -/
inductive Level | trace | debug | info | warn | error | critical | off
deriving Repr, DecidableEq

/-- The values of the enumeration, LoggingDatatypes.hpp:15-24. The level of a message is such a number; a user of the C interface can
pass any (CapiLogger.cpp:21). -/
def Level.code : Level → Nat
  | .trace => 0 | .debug => 1 | .info => 2 | .warn => 3 | .error => 4 | .critical => 5 | .off => 0xffffffff

/-- `to_spdlog(Level)`, SpdlogTypeConversion.hpp:14-35: spdlog's numbers; `none` models `throw TypeConversionError`. -/
def toSpdlog (level : Nat) : Option Nat := if level ≤ 5 then some level else if level = 0xffffffff then some 6 else none

/-- `%l` of spdlog: `level_string_views`, spdlog/common.h. -/
def levelName : Nat → Text
  | 0 => "trace".toList | 1 => "debug".toList | 2 => "info".toList | 3 => "warning".toList | 4 => "error".toList
  | 5 => "critical".toList | _ => "off".toList

/-- `to_string(Topic)`, string_utils_internal.hpp:66-150. -/
def topicName (t : Nat) : Text :=
  match Wire.topicNames.find? (fun e => e.1 == t) with
  | some e => e.2
  | none => "Invalid".toList

/-- `Topic::None`, `Topic::User`, `Topic::Invalid`, LoggingTopics.hpp:15-41. -/
def topicNone : Nat := 0
def topicUser : Nat := 1
def topicInvalid : Nat := 0xffffffff

/-- `Sink::Type`, Configuration.hpp:68-73. -/
inductive SinkType | remote | stdout | file
deriving Repr, DecidableEq

/-- `Sink::Format`, Configuration.hpp:76-80. -/
inductive Format | simple | json
deriving Repr, DecidableEq

/-- `Sink`, Configuration.hpp:66-89. -/
structure Sink where
  type : SinkType
  format : Format := .simple
  level : Level := .info
  logName : Text := []
  disabled : List Nat := []
  enabled : List Nat := []
deriving Repr, DecidableEq

/-- `Logging`, Configuration.hpp:92-97. -/
structure Config where
  logFromRemotes : Bool := false
  flushLevel : Level := .off
  sinks : List Sink := []

/-- `LogMsg`, LoggingDatatypesInternal.hpp:34-43, without the source location. -/
structure Msg where
  name : Text
  level : Nat
  topic : Nat
  time : Nat
  text : Text
  kvs : List (Text × Text) := []
deriving Repr, DecidableEq

/-- What a logger does: a line is appended to a sink, a sink is flushed, a message is handed to the network. -/
inductive Out
  | write (sink : Nat) (line : Text)
  | flush (sink : Nat)
  | send (m : Msg)
deriving Repr, DecidableEq

/-! ## Texts -/

/-- One character of `DoEscape`, StringHelpers.cpp:20-60. -/
def escapeChar (c : Char) : Text :=
  if c.toNat = 8 then ['\\', 'b'] else if c.toNat = 9 then ['\\', 't'] else if c.toNat = 10 then ['\\', 'n']
  else if c.toNat = 12 then ['\\', 'f'] else if c.toNat = 13 then ['\\', 'r'] else if c = '"' then ['\\', '"']
  else if c = '\\' then ['\\', '\\'] else [c]

/-- `EscapeString`, StringHelpers.cpp:65-75. -/
def escape (t : Text) : Text := t.flatMap escapeChar

/-- `"` text `"`. -/
def quoted (t : Text) : Text := '"' :: t ++ ['"']

/-- `Keys::raw`, StructuredLoggingKeys.hpp:20. -/
def keyRaw : Text := ['R', 'a', 'w']

/-- One pair of `KeyValuesToJsonString`, Logger.cpp:112-120. -/
def kvJson (e : Text × Text) : Text :=
  quoted (escape e.1) ++ ':' :: (if e.1 = keyRaw then e.2 else quoted (escape e.2))

/-- The pairs of `KeyValuesToJsonString`, separated by commas, Logger.cpp:104-122. -/
def kvsJsonBody : List (Text × Text) → Text
  | [] => []
  | [e] => kvJson e
  | e :: l => kvJson e ++ ',' :: kvsJsonBody l

/-- `KeyValuesToJsonString`, Logger.cpp:97-126. -/
def kvsJson (l : List (Text × Text)) : Text := '{' :: kvsJsonBody l ++ ['}']

/-- `KeyValuesToSimpleString`, Logger.cpp:78-95. -/
def kvsSimple : List (Text × Text) → Text
  | [] => []
  | [e] => e.1 ++ ": ".toList ++ e.2
  | e :: l => e.1 ++ ": ".toList ++ e.2 ++ ", ".toList ++ kvsSimple l

/-- `formatter<SimpleLogMessage>`, Logger.cpp:138-160. -/
def simpleText (topic : Nat) (text : Text) (kvs : List (Text × Text)) : Text :=
  (if topic = topicNone then [] else '[' :: topicName topic ++ "] ".toList) ++ text ++
    (if kvs = [] then [] else ", ".toList ++ kvsSimple kvs)

/-- `formatter<JsonLogMessage>`, Logger.cpp:173-201. -/
def jsonText (topic : Nat) (text : Text) (kvs : List (Text × Text)) : Text :=
  (if topic = topicNone then [] else "\"topic\": ".toList ++ quoted (escape (topicName topic)) ++ ", ".toList) ++
    "\"msg\": ".toList ++ quoted (escape text) ++ (if kvs = [] then [] else ", \"kv\": ".toList ++ kvsJson kvs)

/-- `formatter<JsonString>`, Logger.cpp:213-219. -/
def jsonString (topic : Nat) (text : Text) : Text :=
  "\"topic\": ".toList ++ quoted (escape (topicName topic)) ++ ", \"msg\": ".toList ++ quoted (escape text)

/-- `[{}] {}` of `Logger::Log`, Logger.cpp:481. -/
def simpleString (topic : Nat) (text : Text) : Text := '[' :: topicName topic ++ "] ".toList ++ text

/-- The digits of `epoch_formatter_flag`, Logger.cpp:61-75: microseconds. -/
def micros (time : Nat) : Text := Nat.toDigits 10 (time / 1000)

/-- A line of a JSON sink: pattern `{"ts":"%E","log":"%n","lvl":"%l", %v }`, Logger.cpp:299. -/
def jsonLine (time : Nat) (name : Text) (spd : Nat) (v : Text) : Text :=
  "{\"ts\":\"".toList ++ micros time ++ "\",\"log\":\"".toList ++ name ++ "\",\"lvl\":\"".toList ++ levelName spd ++ "\", ".toList ++
    v ++ " }".toList

/-- A line of a simple sink: spdlog's default pattern, `full_formatter` of spdlog/pattern_formatter-inl.h: the name is left out if it is
empty. -/
def simpleLine (date : Nat → Text) (time : Nat) (name : Text) (spd : Nat) (v : Text) : Text :=
  '[' :: date time ++ "] ".toList ++ (if name = [] then [] else '[' :: name ++ "] ".toList) ++ '[' :: levelName spd ++ "] ".toList ++ v

/-- A line in the format of the sink (Logger.cpp:313-351). -/
def line (date : Nat → Text) (f : Format) (time : Nat) (name : Text) (spd : Nat) (v : Text) : Text :=
  match f with
  | .json => jsonLine time name spd v
  | .simple => simpleLine date time name spd v

/-! ## The logger -/

/-- `Logger`, Logger.hpp:127-255; the sinks carry their position in the configuration. `connected`: `_remoteSink` of the remote loggers
is set. -/
structure Logger where
  name : Text
  flushLevel : Level
  locals : List (Nat × Sink)
  remotes : List (Nat × Sink)
  connected : Bool := false

/-- The sinks of a configuration with their positions. -/
def Config.indexed (c : Config) : List (Nat × Sink) := c.sinks.zipIdx.map (fun e => (e.2, e.1))

/-- `Logger::Logger`, Logger.cpp:264-290: one spdlog logger per sink that is not remote, one remote logger per remote sink, in an order
that depends on addresses. -/
structure Logger.Built (c : Config) (name : Text) (l : Logger) : Prop where
  name : l.name = name
  flush : l.flushLevel = c.flushLevel
  locals : l.locals.Perm (c.indexed.filter (fun e => decide (e.2.type ≠ .remote)))
  remotes : l.remotes.Perm (c.indexed.filter (fun e => decide (e.2.type = .remote)))

/-- `IsTopicDisabled`, Logger.hpp:232-249. -/
def topicDisabled (enabled disabled : List Nat) (topic : Nat) : Bool :=
  if topic ∈ disabled then true
  else if enabled ≠ [] then !(decide (topic ∈ enabled))
  else false

/-- The two tests of `DispatchToSinks`, Logger.cpp:367-375 and 383-391. -/
def passes (s : Sink) (level topic : Nat) : Bool :=
  decide (s.level.code ≤ level) && !topicDisabled s.enabled s.disabled topic

/-- spdlog's number of a configured level; `to_spdlog` never throws for these. -/
def Level.spd (l : Level) : Nat := (toSpdlog l.code).getD 0

/-- `spdlog::logger::log` with the logger's level, its sinks and `flush_on` (Logger.cpp:303-357, 378), spdlog/logger-inl.h: nothing below
the level; a flush if the message reaches the flush level and is not `off`. The null sink does nothing. -/
def spdlogLog (flushLevel : Level) (i : Nat) (s : Sink) (spd : Nat) (text : Text) : List Out :=
  if s.level.spd ≤ spd then
    .write i text :: (if flushLevel.spd ≤ spd ∧ spd ≠ 6 then [.flush i] else [])
  else []

/-- The first loop of `DispatchToSinks`, Logger.cpp:365-379; the second component tells that `to_spdlog` has thrown. -/
def dispatchLocal (date : Nat → Text) (flushLevel : Level) (name : Text) (time level topic : Nat) (fmt : Format → Text) :
    List (Nat × Sink) → List Out × Bool
  | [] => ([], false)
  | (i, s) :: l =>
    if passes s level topic then
      match toSpdlog level with
      | none => ([], true)
      | some spd =>
        let r := dispatchLocal date flushLevel name time level topic fmt l
        (spdlogLog flushLevel i s spd (line date s.format time name spd (fmt s.format)) ++ r.1, r.2)
    else dispatchLocal date flushLevel name time level topic fmt l

/-- The second loop of `DispatchToSinks`, Logger.cpp:381-401, with `RemoteLogger::Log`, Logger.hpp:59-89: the same message for every
remote sink that passes, if remote logging has been set up. -/
def dispatchRemote (connected : Bool) (m : Msg) (remotes : List (Nat × Sink)) : List Msg :=
  (remotes.filter (fun e => passes e.2 m.level m.topic && connected && decide (e.2.level.code ≤ m.level))).map (fun _ => m)

/-- What a call of the logger leads to. -/
structure Result where
  /-- written at once -/
  outs : List Out := []
  /-- handed to `VAsioConnection::SendMsg`, i.e. to the I/O thread -/
  queued : List Msg := []
  /-- an exception leaves the call -/
  thrown : Bool := false

/-- `DispatchToSinks`, Logger.cpp:361-402. -/
def Logger.dispatch (l : Logger) (date : Nat → Text) (fmt : Format → Text) (m : Msg) : Result :=
  let r := dispatchLocal date l.flushLevel l.name m.time m.level m.topic fmt l.locals
  if r.2 then { outs := r.1, thrown := true }
  else { outs := r.1, queued := dispatchRemote l.connected m l.remotes }

/-- `GetLogLevel`, Logger.cpp:503-517, with spdlog's numbers. -/
def Logger.logLevel (l : Logger) : Nat :=
  (l.locals ++ l.remotes).foldl (fun lvl e => if lvl < e.2.level.spd then lvl else e.2.level.spd) Level.critical.spd

/-- `from_spdlog(level)`, SpdlogTypeConversion.hpp:37-60, as a value of the enumeration. -/
def fromSpdlog (n : Nat) : Nat := if n = 6 then 0xffffffff else n

/-- `LoggerMessage::Dispatch` after `SetMessage` and `AddKeyValue`, LoggerMessage.hpp:66-83, 119-152, 193-200, and `ProcessLoggerMessage`,
Logger.cpp:404-424: nothing happens below the lowest level of the sinks. -/
def Logger.message (l : Logger) (date : Nat → Text) (time level topic : Nat) (text : Text) (kvs : List (Text × Text)) : Result :=
  if fromSpdlog l.logLevel ≤ level then
    l.dispatch date (fun f => match f with | .json => jsonText topic text kvs | .simple => simpleText topic text kvs)
      { name := l.name, level, topic, time, text, kvs }
  else {}

/-- `SilKit_Logger_Log`, CapiLogger.cpp:14-31: what users of the API call. -/
def Logger.user (l : Logger) (date : Nat → Text) (time level : Nat) (text : Text) : Result :=
  l.message date time level topicUser text []

/-- `Logger::Log(level, topic, msg)`, Logger.cpp:469-484 (called by components of the library through `ILogger` or `LogFunctions.hpp`);
the remote loggers get the text in simple format (399). -/
def Logger.plain (l : Logger) (date : Nat → Text) (time level topic : Nat) (text : Text) : Result :=
  l.dispatch date (fun f => match f with | .json => jsonString topic text | .simple => simpleString topic text)
    { name := l.name, level, topic, time, text := simpleString topic text }

/-- One sink of `LogReceivedMsg`, Logger.cpp:428-466. -/
def receivedSink (date : Nat → Text) (flushLevel : Level) (m : Msg) (i : Nat) (s : Sink) (spd : Nat) : List Out :=
  if spd < s.level.spd then []
  else .write i (line date s.format m.time m.name spd
      (match s.format with | .json => jsonText m.topic m.text m.kvs | .simple => simpleText m.topic m.text m.kvs)) ::
    (if flushLevel.code ≤ m.level then [.flush i] else [])

/-- `LogReceivedMsg`, Logger.cpp:426-467; throws at the first sink if the level is unknown. -/
def Logger.received (l : Logger) (date : Nat → Text) (m : Msg) : Result :=
  match toSpdlog m.level with
  | none => { thrown := decide (l.locals ≠ []) }
  | some spd => { outs := l.locals.flatMap (fun e => receivedSink date l.flushLevel m e.1 e.2 spd) }

/-! ## Participants -/

/-- The logging of a participant: its logger, whether it has a `LogMsgReceiver` (`LogFromRemotes`), and what the I/O thread has still
to send. -/
structure Part where
  logger : Logger
  receiver : Bool
  queue : List Msg := []

/-- What happens in a participant. -/
inductive Op
  /-- a call of the API -/
  | user (time level : Nat) (text : Text)
  /-- a structured message of the library -/
  | message (time level topic : Nat) (text : Text) (kvs : List (Text × Text))
  /-- a message of the library without structure -/
  | plain (time level topic : Nat) (text : Text)
  /-- `SetupRemoteLogging` has been called -/
  | connect
  /-- the I/O thread sends the next message, and delivers it to the receiver in the same participant -/
  | transmit
  /-- the message arrives from another participant -/
  | arrive (m : Msg)

def Part.take (p : Part) (r : Result) : Part × List Out := ({ p with queue := p.queue ++ r.queued }, r.outs)

/-- One operation. `connect`: Participant_impl.hpp:163-200, the handler is registered at the remote loggers. `transmit`:
`SilKitLink::DistributeLocalSilKitMessage`, SilKitLink.hpp:159-191: first to the others, then to the receivers in the same participant
(the descriptors of `LogMsgSender` and `LogMsgReceiver` differ, and self delivery is not forbidden for `LogMsg`, SilKitMsgTraits.hpp:161-165).
Exceptions of receivers are caught, SilKitLink.hpp:195-213 (the warning logged there is left out). `arrive`: `LogMsgReceiver::ReceiveMsg`. -/
def Part.step (date : Nat → Text) (p : Part) : Op → Part × List Out
  | .user time level text => p.take (p.logger.user date time level text)
  | .message time level topic text kvs => p.take (p.logger.message date time level topic text kvs)
  | .plain time level topic text => p.take (p.logger.plain date time level topic text)
  | .connect => ({ p with logger := { p.logger with connected := true } }, [])
  | .transmit => match p.queue with
    | [] => (p, [])
    | m :: q => ({ p with queue := q }, .send m :: (if p.receiver then (p.logger.received date m).outs else []))
  | .arrive m => (p, if p.receiver then (p.logger.received date m).outs else [])

/-- What serialization and deserialization make of a message (LoggingSerdes.cpp:25-45, characterised in C06): the time is cut to
microseconds, a topic without a name becomes `Invalid`. -/
def wire (m : Msg) : Msg :=
  { m with time := m.time / 1000 * 1000
           topic := if (Wire.topicNames.find? (fun e => e.1 == m.topic)).isSome then m.topic else topicInvalid }

/-! ## A simulation -/

/-- Participants and what is on its way between them (`chan p q`, oldest first). -/
structure Net where
  part : Nat → Part
  chan : Nat → Nat → List Msg := fun _ _ => []

inductive NetOp
  | act (p : Nat) (op : Op)
  /-- the oldest message from `p` to `q` arrives -/
  | deliver (p q : Nat)

/-- The messages that a participant passes to the network. -/
def sends (outs : List Out) : List Msg := outs.filterMap (fun o => match o with | .send m => some m | _ => none)

/-- One operation in a simulation: links deliver every message to every other participant with a receiver, in order (C27). A local
operation is not an `arrive`. -/
def Net.step (date : Nat → Text) (n : Net) : NetOp → Net × List Out
  | .act p op =>
    let r := (n.part p).step date op
    ({ part := fun x => if x = p then r.1 else n.part x
       chan := fun x y => if x = p ∧ y ≠ p then n.chan x y ++ sends r.2 else n.chan x y }, r.2)
  | .deliver p q => match n.chan p q with
    | [] => (n, [])
    | m :: rest =>
      let r := (n.part q).step date (.arrive (wire m))
      ({ part := fun x => if x = q then r.1 else n.part x
         chan := fun x y => if x = p ∧ y = q then rest else n.chan x y }, r.2)

/-- A history: the operations with what they led to. -/
def Net.run (date : Nat → Text) (n : Net) : List NetOp → Net × List (NetOp × List Out)
  | [] => (n, [])
  | o :: l =>
    let r := n.step date o
    let r' := r.1.run date l
    (r'.1, (o, r.2) :: r'.2)

/-! ## Files -/

/-- Two upper case hexadecimal digits, `{:02X}`. -/
def hex2 (n : Nat) : Text := [Nat.digitChar (n / 16 % 16), Nat.digitChar (n % 16)].map Char.toUpper

/-- One character of `PrintableString`, StringHelpers.cpp:99-118 (of a byte). -/
def printableChar (c : Char) : Text :=
  if ('a' ≤ c ∧ c ≤ 'z') ∨ ('A' ≤ c ∧ c ≤ 'Z') ∨ ('0' ≤ c ∧ c ≤ '9') ∨ c = '_' ∨ c = '-' ∨ c = '.' ∨ c = '~' then [c] else hex2 c.toNat

/-- `PrintableString`, StringHelpers.cpp:99-118. -/
def printable (t : Text) : Text := t.flatMap printableChar

/-- The name of the file of a sink, Logger.cpp:333-334 and 346-347. -/
def fileName (logName name stamp : Text) (f : Format) : Text :=
  logName ++ '_' :: printable name ++ '_' :: stamp ++ (match f with | .json => ".jsonl".toList | .simple => ".txt".toList)

/-! ## The logger of a registry -/

/-- `SilKit_Vendor_Vector_SilKitRegistry_GetLogger`, CapiVendor.cpp:83-97, calls `VAsioRegistry::GetLogger`, VAsioRegistry.cpp:185-188,
which returns a null pointer, whatever the registry has for a logger. -/
def registryLogger (_ : Logger) : Option Logger := none

/-- `SilKit_Participant_GetLogger`, CapiParticipant.cpp:75-87. -/
def participantLogger (l : Logger) : Option Logger := some l

/-- Whether `SilKit_Logger_Log` accepts the pointer: `ASSERT_VALID_POINTER_PARAMETER(self)`, CapiLogger.cpp:17; otherwise the C++ wrapper
throws. -/
def logAccepted (l : Option Logger) : Bool := l.isSome

end SilKit.Logging
