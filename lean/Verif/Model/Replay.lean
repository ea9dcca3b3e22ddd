import Verif.Model.Pcap
/-!
# Replaying recorded messages (tracing/ReplayScheduler.cpp, tracing/IReplayDataController.hpp, the replaying parts of the controllers)

A participant with controllers, some of which replay recorded messages. A channel of a trace source is the list of messages that its reader returns.
Recorded messages have the direction TX or RX. (A PCAP file only has the first; others can come from extensions, which are not part of the repository.)
Data publishers and the subscribers that the participant creates for each connected publisher (`DataSubscriberInternal`) are controllers here as well.
LIN controllers, whose replay is a different one, and FlexRay controllers, which have none, are not modelled.
-/
namespace SilKit.Replay

inductive Dir
  | tx
  | rx
deriving Repr, DecidableEq

/-- A recorded message. -/
structure Msg where
  time : Int
  dir : Dir
  data : List UInt8
deriving Repr, DecidableEq

/-- `PcapMessage`, PcapReader.cpp:23-73: the direction is always TX. -/
def ofFrame (f : Pcap.Frame) : Msg := ⟨f.time, .tx, f.raw⟩

/-- `Config::Replay::Direction`, Configuration.hpp:149-155. -/
inductive Active
  | undefined
  | send
  | receive
  | both
deriving Repr, DecidableEq

/-- `Config::Replay`, Configuration.hpp:145-158. An empty name of a source is `none`. -/
structure Config where
  direction : Active := .undefined
  source : Option Nat := none
deriving Repr, DecidableEq

/-- `IsReplayEnabledFor`, IReplayDataController.hpp:19-26. -/
def enabledFor (cfg : Config) (d : Active) : Bool :=
  if cfg.direction = .undefined then false else decide (cfg.direction = d) || decide (cfg.direction = .both)

/-- `IsValidReplayConfig`, Tracing.cpp:141-144. -/
def valid (cfg : Config) : Bool := decide (cfg.direction ≠ .undefined) && cfg.source.isSome

inductive Kind
  | ethernet
  | can
  | publisher
  | subscriber
deriving Repr, DecidableEq

/-- What others see of a controller: a message is sent at a time, or given to the handlers with a time stamp. -/
inductive Effect
  | sent (time : Int) (data : List UInt8)
  | delivered (time : Int) (data : List UInt8)
deriving Repr, DecidableEq

/-- The user sends: EthController.cpp:125-148, CanController.cpp:148-167, DataPublisher.cpp:29-43. Subscribers cannot send. -/
def userSend (k : Kind) (cfg : Config) (now : Int) (data : List UInt8) : List Effect :=
  match k with
  | .subscriber => []
  | _ => if enabledFor cfg .send then [] else [.sent now data]

/-- A message of another participant arrives: EthController.cpp:154-172, CanController.cpp:173-202, DataSubscriberInternal.cpp:40-48. Publishers do not receive. -/
def networkReceive (k : Kind) (cfg : Config) (time : Int) (data : List UInt8) : List Effect :=
  match k with
  | .publisher => []
  | _ => if enabledFor cfg .receive then [] else [.delivered time data]

/-- `ReplayMessage`: EthController.cpp:250-287, 388-412, CanController.cpp:238-287, DataPublisher.cpp:45-63, DataSubscriberInternal.cpp:69-88.
What is sent has the current time, what is received has the recorded time. -/
def replayMessage (k : Kind) (cfg : Config) (now : Int) (m : Msg) : List Effect :=
  match k, m.dir with
  | .publisher, .tx => if enabledFor cfg .send then [.sent now m.data] else []
  | .publisher, .rx => []
  | .subscriber, .tx => []
  | .subscriber, .rx => if enabledFor cfg .receive then [.delivered m.time m.data] else []
  | _, .tx => if valid cfg && enabledFor cfg .send then [.sent now m.data] else []
  | _, .rx => if valid cfg && enabledFor cfg .receive then [.delivered m.time m.data] else []

/-- What an Ethernet controller traces if it has a trace sink, EthController.cpp:146, 207-211: each frame that it sends or receives. A PCAP file does not
contain the direction, PcapSink.cpp:98. -/
def traced (id : Nat) (es : List (Nat × Effect)) : List Pcap.Frame :=
  es.filterMap fun e => if e.1 = id then some (match e.2 with | .sent t data => ⟨t, data⟩ | .delivered t data => ⟨t, data⟩) else none

/-- `ReplayTask`, ReplayScheduler.hpp:43-51. `rest` are the messages from the current one of the reader on. -/
structure Task where
  ctl : Nat
  rest : List Msg
  done : Bool := false
deriving Repr, DecidableEq

/-- The loop over one task, ReplayScheduler.cpp:427-456: the messages that are replayed, the new `rest`, and `doneReplaying`. -/
def play (relativeEnd : Int) : List Msg → List Msg × List Msg × Bool
  | [] => ([], [], true)
  | m :: ms =>
    if m.time ≥ relativeEnd then ([], m :: ms, false)
    else match ms with
      | [] => ([m], [m], true)
      | m' :: ms' => let (p, r, d) := play relativeEnd (m' :: ms'); (m :: p, r, d)

/-- One task, ReplayScheduler.cpp:420-457. -/
def Task.play (relativeEnd : Int) (t : Task) : Task × List (Nat × Msg) :=
  if t.done then (t, [])
  else
    let (p, r, d) := Replay.play relativeEnd t.rest
    ({ t with rest := r, done := d }, p.map (fun m => (t.ctl, m)))

/-- A created controller. -/
structure Ctl where
  id : Nat
  kind : Kind
  cfg : Config
deriving Repr, DecidableEq

structure State where
  /-- `_replayFiles`, ReplayScheduler.hpp:61: trace sources and the messages of their channel. -/
  files : List (Nat × List Msg) := []
  ctls : List Ctl := []
  /-- `_replayTasks`. -/
  tasks : List Task := []
  /-- `_startTime`, ReplayScheduler.hpp:53; `none` is `nanoseconds::min()`. -/
  start : Option Int := none
  /-- `_timeProvider->Now()`; `nanoseconds::min()` before the first step, TimeProvider.cpp:13. -/
  now : Int := -2 ^ 63
deriving Repr, DecidableEq

inductive In
  /-- A controller is created with the replay configuration it has in the configuration of the participant. -/
  | create (c : Ctl)
  /-- A simulation step begins: `SetTime`, TimeSyncService.cpp:546. -/
  | step (now dur : Int)
  /-- The user sends. -/
  | send (id : Nat) (data : List UInt8)
  /-- A message arrives from the network. -/
  | receive (id : Nat) (time : Int) (data : List UInt8)
deriving Repr, DecidableEq

/-- `ConfigureController`, ReplayScheduler.cpp:317-375, called when a controller is created if there are trace sources (Participant_impl.hpp:145-149, 320-324,
359-363, 475-479, 552-556). `none` if it throws: `_replayFiles.at` does if there is no source of this name. The channel is found. -/
def configure (s : State) (c : Ctl) : Option State :=
  if s.files.isEmpty then some s
  else if !valid c.cfg then some s
  else match c.cfg.source.bind (fun n => s.files.lookup n) with
    | none => none
    | some ms => some { s with tasks := s.tasks ++ [{ ctl := c.id, rest := ms }] }

/-- The controller exists also if configuring the replay throws. -/
def create (s : State) (c : Ctl) : State := (configure { s with ctls := s.ctls ++ [c] } c).getD { s with ctls := s.ctls ++ [c] }

/-- The effects of a call at a controller. -/
def State.at (s : State) (id : Nat) (f : Ctl → List Effect) : List (Nat × Effect) :=
  match s.ctls.find? (fun c => decide (c.id = id)) with
  | none => []
  | some c => (f c).map (fun e => (id, e))

/-- All tasks, one after the other. -/
def playTasks (relativeEnd : Int) (ts : List Task) : List Task × List (Nat × Msg) :=
  (ts.map (fun t => (t.play relativeEnd).1), ts.flatMap (fun t => (t.play relativeEnd).2))

/-- `ReplayMessages` with a synchronized virtual time, ReplayScheduler.cpp:397-458; the time provider has set its time before, TimeProvider.cpp:139-144.
Without trace sources there is no scheduler, and no task, so that the start time does not matter. -/
def step (s : State) (now dur : Int) : State × List (Nat × Effect) :=
  let start := s.start.getD now
  let r := playTasks (now - start + dur) s.tasks
  let s1 := { s with now := now, start := some start, tasks := r.1 }
  (s1, r.2.flatMap (fun p => s1.at p.1 (fun c => replayMessage c.kind c.cfg now p.2)))

def handle (s : State) : In → State × List (Nat × Effect)
  | .create c => (create s c, [])
  | .step now dur => step s now dur
  | .send id data => (s, s.at id (fun c => userSend c.kind c.cfg s.now data))
  | .receive id time data => (s, s.at id (fun c => networkReceive c.kind c.cfg time data))

/-- A history: the state and all effects so far. -/
def exec (p : State × List (Nat × Effect)) (i : In) : State × List (Nat × Effect) :=
  let (s, es) := handle p.1 i
  (s, p.2 ++ es)

def run (files : List (Nat × List Msg)) (h : List In) : State × List (Nat × Effect) :=
  h.foldl exec ({ files := files }, [])

end SilKit.Replay
