import Verif.Model.Logging
/-!
# Model: metrics

`services/metrics`: the manager with its metrics, the processor with its sinks, the JSON file sink, the remote sink, and the receivers of
other participants.

Simplifications: times of `MetricClock` are natural numbers; the arithmetic of statistics is exact (rational numbers instead of
`double`), and how `fmt` and `std::sqrt` write them is a parameter; texts are lists of characters.
-/
namespace SilKit.Metrics
open SilKit.Logging (Text escape quoted)

/-! ## Metrics -/

/-- `MetricKind`, MetricsDatatypes.hpp. -/
inductive Kind | counter | statistic | stringList | attribute
deriving Repr, DecidableEq

/-- `StatisticMetric`, MetricsManager.cpp:70-95. `none` models the initial values, the largest and the lowest `double`, which disappear with
the first value. -/
structure Stat where
  mean : Rat := 0
  variance : Rat := 0
  minimum : Option Rat := none
  maximum : Option Rat := none
deriving DecidableEq

/-- What a metric holds. -/
inductive Value
  | counter (n : Nat)
  | statistic (s : Stat)
  | strings (l : List Text)
  | attribute (t : Text)
deriving DecidableEq

/-- The constructors, MetricsManager.cpp:259, 291, 326, 391. -/
def Value.fresh : Kind → Value
  | .counter => .counter 0
  | .statistic => .statistic {}
  | .stringList => .strings []
  | .attribute => .attribute []

/-- `GetMetricKind`. -/
def Value.kind : Value → Kind
  | .counter _ => .counter
  | .statistic _ => .statistic
  | .strings _ => .stringList
  | .attribute _ => .attribute

/-- The calls that change a metric: `ICounterMetric::Add`, `Set`, `IStatisticMetric::Take`, `IStringListMetric::Clear`, `Add`,
`IAttributeMetric::Clear`, `Add`. -/
inductive Update
  | add (delta : Nat)
  | set (value : Nat)
  | take (value : Rat)
  | clear
  | append (t : Text)
  | assign (t : Text)
deriving DecidableEq

/-- `StatisticMetric::Take`, MetricsManager.cpp:293-306. -/
def Stat.take (s : Stat) (value : Rat) : Stat :=
  let difference := value - s.mean
  let increment := difference / 2
  { mean := s.mean + increment
    variance := (s.variance + difference * increment) / 2
    minimum := some (match s.minimum with | none => value | some m => if value < m then value else m)
    maximum := some (match s.maximum with | none => value | some m => if m < value then value else m) }

/-- The second half of the calls, MetricsManager.cpp:261-271, 293-306, 328-338, 393-403: `_value` is an `uint64_t`. The interfaces offer only the
calls of the kind. -/
def Value.apply : Value → Update → Value
  | .counter n, .add d => .counter ((n + d) % 2 ^ 64)
  | .counter _, .set v => .counter (v % 2 ^ 64)
  | .statistic s, .take v => .statistic (s.take v)
  | .strings _, .clear => .strings []
  | .strings l, .append t => .strings (l ++ [t])
  | .attribute _, .clear => .attribute []
  | .attribute _, .assign t => .attribute t
  | v, _ => v

/-- Which calls a kind has. -/
def Kind.offers : Kind → Update → Bool
  | .counter, .add _ | .counter, .set _ | .statistic, .take _ | .stringList, .clear | .stringList, .append _ | .attribute, .clear
  | .attribute, .assign _ => true
  | _, _ => false

/-- A metric; `_timestamp` starts at the epoch of the clock. -/
structure Metric where
  stamp : Nat := 0
  value : Value
deriving DecidableEq

/-- `MetricData`, MetricsDatatypes.hpp, with the value before it is formatted. -/
structure Data where
  timestamp : Nat
  name : Text
  value : Value
deriving DecidableEq

/-- `MetricsManager`. `collected` is the `msg` of a call of `SubmitUpdates` that is going on. -/
structure Manager where
  metrics : List (Text × Metric) := []
  lastSubmit : Nat
  collected : List Data := []

/-- `ToString(MetricName)`, MetricsDatatypes.cpp:14-32. -/
def joinName : List Text → Text
  | [] => []
  | [s] => s
  | s :: l => s ++ '/' :: joinName l

def Manager.find (m : Manager) (name : Text) : Option Metric := (m.metrics.find? (fun e => e.1 == name)).map (·.2)

/-- `GetOrCreateMetric`, MetricsManager.cpp:218-254: `none` models `throw SilKitError`. -/
def Manager.get (m : Manager) (name : Text) (k : Kind) : Option Manager :=
  match m.find name with
  | none => some { m with metrics := m.metrics ++ [(name, { value := .fresh k })] }
  | some x => if x.value.kind = k then some m else none

/-- The metric of the name is changed. -/
def Manager.modify (m : Manager) (name : Text) (f : Metric → Metric) : Manager :=
  { m with metrics := m.metrics.map (fun e => if e.1 = name then (e.1, f e.2) else e) }

/-- `_timestamp = MetricClockNow()`, the first half of a call. No lock is held. -/
def Manager.stamp (m : Manager) (name : Text) (now : Nat) : Manager := m.modify name (fun x => { x with stamp := now })

/-- The second half of a call. -/
def Manager.write (m : Manager) (name : Text) (u : Update) : Manager := m.modify name (fun x => { x with value := x.value.apply u })

/-- One iteration of the loop of `SubmitUpdates`, MetricsManager.cpp:166-181. -/
def Manager.read (m : Manager) (e : Text × Metric) : Manager :=
  if e.2.stamp ≤ m.lastSubmit then m
  else { m with collected := m.collected ++ [{ timestamp := e.2.stamp, name := e.1, value := e.2.value }] }

/-- The end of `SubmitUpdates`, MetricsManager.cpp:183-189. -/
def Manager.finish (m : Manager) (now : Nat) : Manager × List Data := ({ m with lastSubmit := now, collected := [] }, m.collected)

/-- A call that changes a metric, not interrupted. -/
def Manager.update (m : Manager) (name : Text) (u : Update) (now : Nat) : Manager := (m.stamp name now).write name u

/-- `SubmitUpdates`, MetricsManager.cpp:153-190, not interrupted: the message, which is passed on unless it is empty. -/
def Manager.submit (m : Manager) (now : Nat) : Manager × List Data := (m.metrics.foldl Manager.read m).finish now

/-- The calls of a participant, each with the time at which it reads the clock. -/
inductive Op
  | get (name : List Text) (k : Kind)
  | update (name : List Text) (u : Update) (now : Nat)
  | submit (now : Nat)

/-- One call and the message, if any. `update` without a metric, or not offered by it, cannot happen, as `Get...` returns the typed
reference; it has no effect here. -/
def Manager.step (m : Manager) : Op → Manager × List Data
  | .get name k => ((m.get (joinName name) k).getD m, [])
  | .update name u now =>
    match m.find (joinName name) with
    | some x => if x.value.kind.offers u then (m.update (joinName name) u now, []) else (m, [])
    | none => (m, [])
  | .submit now => m.submit now

/-- A history: the manager and the messages in order. -/
def Manager.run (m : Manager) : List Op → Manager × List (List Data)
  | [] => (m, [])
  | o :: l => let r := m.step o; let q := r.1.run l; (q.1, r.2 :: q.2)

/-! ## Interleavings -/

/-- The parts of calls in the order in which threads execute them. `read`: the loop reaches the metric. -/
inductive Fine
  | stamp (name : Text) (now : Nat)
  | write (name : Text) (u : Update)
  | read (name : Text)
  | finish (now : Nat)

def Manager.fine (m : Manager) : Fine → Manager × List Data
  | .stamp n t => (m.stamp n t, [])
  | .write n u => (m.write n u, [])
  | .read n => match m.find n with
    | some x => (m.read (n, x), [])
    | none => (m, [])
  | .finish t => m.finish t

def Manager.fineRun (m : Manager) : List Fine → Manager × List (List Data)
  | [] => (m, [])
  | o :: l => let r := m.fine o; let q := r.1.fineRun l; (q.1, r.2 :: q.2)

/-! ## Processor and sinks -/

/-- `MetricsProcessor`, MetricsProcessor.hpp: what has been given to the sinks, in order. All sinks get the same. -/
structure Processor where
  ready : Bool := false
  cache : List (Text × List Data) := []

/-- `_updateCache[origin]`, extended. The order of the origins in the map is not specified, here it is that of the first update. -/
def cacheAdd : List (Text × List Data) → Text → List Data → List (Text × List Data)
  | [], o, d => [(o, d)]
  | e :: l, o, d => if e.1 = o then (o, e.2 ++ d) :: l else e :: cacheAdd l o d

/-- `MetricsProcessor::Process`, MetricsProcessor.cpp:53-74. -/
def Processor.process (p : Processor) (origin : Text) (d : List Data) : Processor × List (Text × List Data) :=
  if p.ready then (p, [(origin, d)]) else ({ p with cache := cacheAdd p.cache origin d }, [])

/-- `MetricsProcessor::SetSinks`, MetricsProcessor.cpp:26-51: called again, it is refused. -/
def Processor.setSinks (p : Processor) : Processor × List (Text × List Data) :=
  if p.ready then (p, []) else ({ ready := true, cache := [] }, p.cache)

/-- `MetricsProcessor::OnMetricsUpdate`, MetricsProcessor.cpp:76-85. -/
def Processor.received (p : Processor) (self origin : Text) (d : List Data) : Processor × List (Text × List Data) :=
  if origin = self then (p, []) else p.process origin d

inductive ProcOp
  | process (origin : Text) (d : List Data)
  | setSinks
  | received (origin : Text) (d : List Data)

def Processor.step (self : Text) (p : Processor) : ProcOp → Processor × List (Text × List Data)
  | .process o d => p.process o d
  | .setSinks => p.setSinks
  | .received o d => p.received self o d

def Processor.run (self : Text) (p : Processor) : List ProcOp → Processor × List (Text × List Data)
  | [] => (p, [])
  | o :: l => let r := p.step self o; let q := r.1.run self l; (q.1, r.2 ++ q.2)

/-! ## Participants that exchange metrics -/

/-- `Experimental/Metrics` of a participant: the numbers of file sinks and of remote sinks, and `CollectFromRemote`. -/
structure Config where
  files : Nat
  remotes : Nat
  collect : Bool

/-- What `sink->Process` does for all sinks: lines for the files, and messages to send, `MetricsRemoteSink::Process`,
MetricsRemoteSink.cpp:18-27: only updates of the own participant. -/
structure Effect where
  /-- what each file sink gets -/
  toFiles : List (Text × List Data) := []
  sent : List (List Data) := []

def sinksProcess (c : Config) (self : Text) (origin : Text) (d : List Data) : Effect :=
  { toFiles := if c.files = 0 then [] else [(origin, d)], sent := if origin = self then List.replicate c.remotes d else [] }

/-- Participants are numbered, `nm` gives their names. A message of the metrics sender reaches every receiver, also the own one. Sinks are set up (the
processor is ready) before messages arrive. -/
structure Net where
  /-- the messages between two participants that have not arrived -/
  link : Nat → Nat → List (List Data) := fun _ _ => []
  /-- what each file sink of a participant has got -/
  files : Nat → List (Text × List Data) := fun _ => []

inductive NetOp
  /-- a message of `SubmitUpdates` -/
  | submit (p : Nat) (d : List Data)
  | deliver (p q : Nat)

/-- Own updates: `_processor->Process(_participantName, msg)`; others: `MetricsReceiver::ReceiveMsg`, MetricsReceiver.cpp:25-35. -/
def Net.apply (cfg : Nat → Config) (nm : Nat → Text) (n : Net) (p : Nat) (origin : Text) (d : List Data) : Net :=
  let e := sinksProcess (cfg p) (nm p) origin d
  { link := fun a b => if a = p ∧ (cfg b).collect then n.link a b ++ e.sent else n.link a b
    files := fun a => if a = p then n.files a ++ e.toFiles else n.files a }

def Net.step (cfg : Nat → Config) (nm : Nat → Text) (n : Net) : NetOp → Net
  | .submit p d => if d.isEmpty then n else n.apply cfg nm p (nm p) d
  | .deliver p q =>
    match n.link p q with
    | [] => n
    | d :: rest =>
      let n := { n with link := fun a b => if a = p ∧ b = q then rest else n.link a b }
      if nm p = nm q then n else n.apply cfg nm q (nm p) d

def Net.run (cfg : Nat → Config) (nm : Nat → Text) (n : Net) (ops : List NetOp) : Net := ops.foldl (Net.step cfg nm) n

/-! ## Texts -/

/-- `MetricKindString`, MetricsJsonSink.cpp:13-33. -/
def Kind.text : Kind → Text
  | .attribute => "ATTRIBUTE".toList
  | .counter => "COUNTER".toList
  | .statistic => "STATISTIC".toList
  | .stringList => "STRING_LIST".toList

/-- One character of `formatString`, MetricsManager.cpp:355-370. -/
def listEscapeChar (c : Char) : Text := if c = '\\' then ['\\', '\\'] else if c = '"' then ['\\', '"'] else [c]

/-- `formatString`, MetricsManager.cpp:353-372. -/
def listString (t : Text) : Text := quoted (t.flatMap listEscapeChar)

/-- The strings with commas, MetricsManager.cpp:375-383. -/
def listItems : List Text → Text
  | [] => []
  | [s] => listString s
  | s :: l => listString s ++ ',' :: listItems l

/-- `FormatValue`: std::to_string for counters, the array for statistics (`num` stands for `fmt` and `std::sqrt`), the array of strings, and
the attribute as it is, MetricsManager.cpp:283-286, 318-321, 350-386, 415-418. -/
def format (num : Stat → Text) : Value → Text
  | .counter n => Nat.toDigits 10 n
  | .statistic s => num s
  | .strings l => '[' :: listItems l ++ [']']
  | .attribute t => t

/-- One line of `MetricsJsonSink::Process`, MetricsJsonSink.cpp:44-71. -/
def jsonLine (num : Stat → Text) (origin : Text) (d : Data) : Text :=
  '{' :: quoted ['t', 's'] ++ ':' :: Nat.toDigits 10 d.timestamp ++ ',' :: quoted ['p', 'n'] ++ ':' :: quoted (escape origin) ++
    ',' :: quoted ['m', 'n'] ++ ':' :: quoted (escape d.name) ++ ',' :: quoted ['m', 'k'] ++ ':' :: quoted d.value.kind.text ++
    ',' :: quoted ['m', 'v'] ++ ':' :: (if d.value.kind = .attribute then quoted (escape (format num d.value)) else format num d.value) ++
    ['}', '\n']

end SilKit.Metrics
