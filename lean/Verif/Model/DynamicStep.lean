/-!
# Who uses dynamic simulation steps

The setting `Experimental.TimeSynchronization.DynamicSimulationStep` of one participant, and what it has heard from others:
`SilKit/source/services/orchestration/TimeSyncService.cpp` and `LifecycleService.cpp`. Two threads take part, the one of the user and the I/O thread, and are
interleaved wherever the code holds no lock. What the resulting flag means for the steps is Model/TimeConfiguration.lean.
-/
namespace SilKit.DynamicStep

/-- What is called from outside. -/
inductive Call where
  /-- `CreateTimeSyncService`, LifecycleService.cpp:425-444, with the setting: `ConfigureDynamicStepSize`, TimeSyncService.cpp:872-879. -/
  | configure (setting : Option Bool)
  /-- The time synchronization service of participant `q` is discovered; it advertises `dynamic`. TimeSyncService.cpp:332-366. -/
  | seen (q : String) (dynamic : Bool)
  /-- … is removed. -/
  | gone (q : String)
  /-- `StartLifecycle`: `InitializeTimeSyncPolicy` puts the request into the service descriptor, TimeSyncService.cpp:647-655, which is then published. -/
  | start
deriving DecidableEq, Repr

/-- Where a thread is in `RecomputeDynamicStepEnabled`, TimeSyncService.cpp:881-906. -/
inductive Pc where
  | idle
  /-- Before line 886. -/
  | entered
  /-- Before line 895, with the values of the local variables. -/
  | computed (enabled byRemote : Bool)
  /-- Before line 899. -/
  | stored (byRemote : Bool)
deriving DecidableEq, Repr

structure State where
  /-- `_dynamicStepConfig`. -/
  config : Option Bool := none
  /-- `_dynamicStepPeers`. -/
  peers : List String := []
  /-- `TimeConfiguration::_dynamicStepSizeEnabled`. -/
  enabled : Bool := false
  /-- `_dynamicStepRemoteLogOnce`. -/
  told : Bool := false
  /-- The two threads: `false` is that of the user, `true` the I/O thread. -/
  pc : Bool → Pc := fun _ => .idle

/-- Effects. -/
inductive Out where
  /-- A call has begun. -/
  | called (c : Call)
  /-- The participant publishes whether it requests dynamic steps. -/
  | advertised (b : Bool)
  /-- The message of level `Info`, TimeSyncService.cpp:901-904. -/
  | info
deriving DecidableEq, Repr

/-- A step of a schedule. -/
inductive Op where
  /-- The first lock of a call: the setting, or the set of peers, is changed. -/
  | call (t : Bool) (c : Call)
  /-- The second lock: lines 886-893. -/
  | compute (t : Bool)
  /-- `SetDynamicStepSizeEnabled`, line 895, TimeConfiguration.cpp:23-27. -/
  | store (t : Bool)
  /-- Lines 899-905. -/
  | notify (t : Bool)
deriving DecidableEq, Repr

def State.at (s : State) (t : Bool) (p : Pc) : State := { s with pc := fun x => if x = t then p else s.pc x }

/-- Line 892. -/
def State.byRemote (s : State) : Bool := s.config != some true && s.config != some false && !s.peers.isEmpty

/-- Line 893. -/
def State.shallBeEnabled (s : State) : Bool := s.config == some true || s.byRemote

/-- The part of a call before `RecomputeDynamicStepEnabled`; `own` is the name of the participant. The discovery of a participant also adds it to the time
synchronization, which is left out (Model/TimeSync.lean). -/
def begin (own : String) (s : State) (t : Bool) : Call → State × List Out
  | .configure c => ({ s with config := c }.at t .entered, [.called (.configure c)])
  | .seen q d =>
    if q = own then (s, [.called (.seen q d)])
    else ({ s with peers := if d then (if q ∈ s.peers then s.peers else q :: s.peers) else s.peers }.at t .entered, [.called (.seen q d)])
  | .gone q =>
    if q = own then (s, [.called (.gone q)]) else ({ s with peers := s.peers.filter (· ≠ q) }.at t .entered, [.called (.gone q)])
  | .start => (s, [.called .start, .advertised (s.config == some true)])

/-- One step of a thread. A step that the thread cannot do now does nothing. -/
def step (own : String) (s : State) : Op → State × List Out
  | .call t c => if s.pc t = .idle then begin own s t c else (s, [])
  | .compute t => if s.pc t = .entered then (s.at t (.computed s.shallBeEnabled s.byRemote), []) else (s, [])
  | .store t => match s.pc t with | .computed e r => ({ s with enabled := e }.at t (.stored r), []) | _ => (s, [])
  | .notify t =>
    match s.pc t with
    | .stored r => if r && !s.told then ({ s with told := true }.at t .idle, [.info]) else (s.at t .idle, [])
    | _ => (s, [])

/-- A schedule. -/
def run (own : String) (ops : List Op) : State × List Out :=
  ops.foldl (fun r op => let x := step own r.1 op; (x.1, r.2 ++ x.2)) ({}, [])

end SilKit.DynamicStep
