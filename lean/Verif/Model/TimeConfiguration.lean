/-!
# Model of `TimeConfiguration`

`SilKit/source/services/orchestration/TimeConfiguration.{hpp,cpp}`: the virtual time of one participant and what it knows about
the others. Times are integers (nanoseconds); overflow of the 64 bit representation is not modelled, `maxNs` is its largest
value. The `std::map` of other participants is an association list without duplicate names. Locks are omitted: every
function is atomic.
-/
namespace SilKit.TimeSync

/-- `NextSimTask`, core/internal/OrchestrationDatatypes.hpp: start and duration of a step. -/
structure Task where
  tp : Int
  dur : Int
deriving Repr, DecidableEq

/-- `std::chrono::nanoseconds::max()`. -/
def maxNs : Int := 9223372036854775807

/-- `TimeConfiguration`, TimeConfiguration.hpp:63-78; constructor and `Initialize`, TimeConfiguration.cpp:13-21 and 212-219
(duration 1 ms). -/
structure TimeConfig where
  current : Task := ⟨-1, 0⟩
  next : Task := ⟨0, 1000000⟩
  others : List (String × Task) := []
  blocking : Bool := false
  hoppedOn : Bool := false
  dynamic : Bool := false
deriving Repr, DecidableEq

/-- Lookup in `_otherNextTasks`. -/
def TimeConfig.view (c : TimeConfig) (q : String) : Option Task := (c.others.find? (fun e => e.1 == q)).map (·.2)

/-- `AddSynchronizedParticipant`, TimeConfiguration.cpp:40-52. -/
def TimeConfig.add (c : TimeConfig) (q : String) : TimeConfig :=
  if (c.view q).isSome then c else { c with others := c.others ++ [(q, ⟨-1, 0⟩)] }

/-- `RemoveSynchronizedParticipant`, TimeConfiguration.cpp:55-65. -/
def TimeConfig.remove (c : TimeConfig) (q : String) : TimeConfig := { c with others := c.others.filter (fun e => e.1 != q) }

/-- `OnReceiveNextSimStep`, TimeConfiguration.cpp:77-105: unknown senders are ignored, a lower time point is only logged. -/
def TimeConfig.receive (c : TimeConfig) (q : String) (t : Task) : TimeConfig :=
  { c with others := c.others.map (fun e => if e.1 = q then (e.1, t) else e) }

/-- `SetStepDuration`, TimeConfiguration.cpp:108-118: zero throws (`none`). -/
def TimeConfig.setStepDuration (c : TimeConfig) (d : Int) : Option TimeConfig :=
  if d = 0 then none else some { c with next := { c.next with dur := d } }

/-- The future starts and ends announced by the others, `GetMinimalAlignedDuration` 128-143. -/
def TimeConfig.futurePoints (c : TimeConfig) : List Int :=
  c.others.flatMap (fun e => [e.2.tp, e.2.tp + e.2.dur]) |>.filter (fun t => c.current.tp < t)

/-- `GetMinimalAlignedDuration`, TimeConfiguration.cpp:120-159. -/
def TimeConfig.minimalAligned (c : TimeConfig) : Int :=
  if c.others.isEmpty then maxNs
  else
    let m := c.futurePoints.foldl min maxNs - c.current.tp
    if m < 0 then maxNs else m

/-- `AdvanceTimeStep`, first part, TimeConfiguration.cpp:161-177: the step about to be executed. -/
def TimeConfig.nextCurrent (c : TimeConfig) : Task :=
  let m := { c with current := c.next }.minimalAligned
  if c.dynamic ∧ m < c.next.dur then ⟨c.next.tp, m⟩ else c.next

/-- `AdvanceTimeStep`, TimeConfiguration.cpp:161-180. -/
def TimeConfig.advance (c : TimeConfig) : TimeConfig :=
  { c with current := c.nextCurrent, next := { c.next with tp := c.nextCurrent.tp + c.nextCurrent.dur } }

/-- `OtherParticipantHasLowerTimepoint`, TimeConfiguration.cpp:194-210. -/
def TimeConfig.otherLower (c : TimeConfig) : Bool := c.others.any (fun e => decide (e.2.tp < c.next.tp))

/-- The others that have advanced further than their duration, `IsHopOn` 238-248. -/
def TimeConfig.ahead (c : TimeConfig) : List Int :=
  (c.others.filter (fun e => decide (e.2.dur < e.2.tp))).map (·.2.tp)

/-- Whether `IsHopOn`, TimeConfiguration.cpp:231-260, returns true. -/
def TimeConfig.isHopOn (c : TimeConfig) : Bool :=
  c.current.tp == -1 && (c.hoppedOn || !c.ahead.isEmpty)

/-- The effect of `IsHopOn`, TimeConfiguration.cpp:231-260, when it returns true. -/
def TimeConfig.hopOn (c : TimeConfig) : TimeConfig :=
  { c with hoppedOn := true, next := { c.next with tp := c.ahead.foldl min maxNs } }

end SilKit.TimeSync
