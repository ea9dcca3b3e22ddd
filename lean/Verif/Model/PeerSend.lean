import Verif.Model.Basic
/-!
# Model of the send path and message aggregation of `core/vasio/VAsioPeer.cpp`
-/
namespace SilKit.PeerSend

/-- core/vasio/SerializedMessage.hpp / core/internal/traits: `MessageAggregationKind`. -/
inductive Kind where
  | other
  | userData
  | flush
deriving Repr, DecidableEq

/-- A message as handed to `SendSilKitMsg`: its aggregation kind and the bytes of `ReleaseStorage()`. -/
structure Msg where
  kind : Kind
  bytes : List UInt8
deriving Repr, DecidableEq

/-- Send-related members (core/vasio/VAsioPeer.hpp:116-139). `current` is the not yet written rest of
`_currentSendingBuffer`; `pendingStarts` counts `StartAsyncWrite` functors handed to the I/O context that have not run;
`timerArmed` – the flush timer is running; `wire` (ghost) – bytes the socket has accepted. -/
structure State where
  isShuttingDown : Bool := false
  sendingQueue : List (List UInt8) := []
  current : List UInt8 := []
  sending : Bool := false
  pendingStarts : Nat := 0
  aggregated : List UInt8 := []
  useAggregation : Bool := false
  initialTimerStarted : Bool := false
  timerArmed : Bool := false
  wire : List UInt8 := []
deriving Repr, DecidableEq

/-- core/vasio/VAsioPeer.hpp:134. -/
def aggregationBufferThreshold : Nat := 100 * 1000

/-- core/vasio/VAsioPeer.cpp:123-138 `SendSilKitMsgInternal`. `Dispatch` may run the functor at once (when called on
the I/O thread) or later; the model counts it as pending, an immediate run is the schedule that runs it next. -/
def sendInternal (s : State) (blob : List UInt8) : State :=
  if s.isShuttingDown then s
  else { s with sendingQueue := s.sendingQueue ++ [blob], pendingStarts := s.pendingStarts + 1 }

/-- core/vasio/VAsioPeer.cpp:164-172 `Flush`. -/
def flush (s : State) : State :=
  { sendInternal { s with aggregated := [] } s.aggregated with timerArmed := true }

/-- core/vasio/VAsioPeer.cpp:142-150: first part of `Aggregate` (start the timer once, append the blob). -/
def aggregateAppend (s : State) (blob : List UInt8) : State :=
  { s with
    initialTimerStarted := true
    timerArmed := if s.initialTimerStarted then s.timerArmed else true
    aggregated := s.aggregated ++ blob }

/-- core/vasio/VAsioPeer.cpp:140-162 `Aggregate`. -/
def aggregate (s : State) (blob : List UInt8) : State :=
  if (aggregateAppend s blob).aggregated.length > aggregationBufferThreshold then flush (aggregateAppend s blob)
  else aggregateAppend s blob

/-- core/vasio/VAsioPeer.cpp:101-121 `SendSilKitMsg`. -/
def sendSilKitMsg (s : State) (m : Msg) : State :=
  if s.useAggregation = true ∧ m.kind = .userData then aggregate s m.bytes
  else if s.useAggregation = true ∧ m.kind = .flush then flush (aggregate s m.bytes)
  else sendInternal s m.bytes

/-- core/vasio/VAsioPeer.cpp:174-193 `StartAsyncWrite`. -/
def startAsyncWrite (s : State) : State :=
  if s.sending then s
  else match s.sendingQueue with
    | [] => s
    | b :: q => { s with sending := true, current := b, sendingQueue := q }

/-- core/vasio/VAsioPeer.cpp:311-325 `OnAsyncWriteSomeDone` for a write of which the socket accepted `n` bytes
(`n` at least the size of the rest means all of it). Only possible while a write is outstanding. -/
def onAsyncWriteSomeDone (s : State) (n : Nat) : State :=
  if s.sending then
    if n < s.current.length then { s with wire := s.wire ++ s.current.take n, current := s.current.drop n }
    else startAsyncWrite { s with wire := s.wire ++ s.current, sending := false, current := [] }
  else s

/-- core/vasio/VAsioPeer.cpp:336-351 `OnTimerExpired`; possible only while the timer runs, which then stops. -/
def onTimerExpired (s : State) : State :=
  if s.timerArmed then
    let s := { s with timerArmed := false }
    if s.aggregated ≠ [] then flush s else s
  else s

/-- core/vasio/VAsioPeer.cpp:353-360 `EnableAggregation`. -/
def enableAggregation (s : State) : State := { s with useAggregation := true }

/-- core/vasio/VAsioPeer.cpp:55-66 `Shutdown`. (Write completions after the socket shutdown remain possible in the
model; that only makes the theorems stronger.) -/
def shutdown (s : State) : State := { s with isShuttingDown := true, sendingQueue := [], timerArmed := false }

/-- Everything that can happen to the send side of a peer. -/
inductive Event where
  | send (m : Msg)
  | runStart
  | writeDone (n : Nat)
  | timer
  | enableAgg
  | shutdown
deriving Repr, DecidableEq

/-- One event. -/
def step (s : State) : Event → State
  | .send m => sendSilKitMsg s m
  | .runStart => if s.pendingStarts = 0 then s else startAsyncWrite { s with pendingStarts := s.pendingStarts - 1 }
  | .writeDone n => onAsyncWriteSomeDone s n
  | .timer => onTimerExpired s
  | .enableAgg => enableAggregation s
  | .shutdown => shutdown s

/-- A history of events. -/
def run (s : State) (es : List Event) : State := es.foldl step s

end SilKit.PeerSend
