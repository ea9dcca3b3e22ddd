import Verif.Model.TimeSync
/-!
# Model of a simulation with virtual time synchronization

Participants (`TimeSync.Part`, one per name) connected pairwise by in-order channels, i.e. the TCP connections of
`core/vasio/VAsioPeer.cpp` whose order preservation is C02, C04 and C05. `SendMsg(NextSimTask)` goes to every other participant
(`TimeSyncService::SendMsg`, services/orchestration/TimeSyncService.hpp:184-188). User data sent by a participant during a step
travels on the same channels. All pairs of participants are connected from the beginning; who takes part in the time
synchronization is decided by discovery (`Event.discovered`, `Event.lost`) at arbitrary moments.
-/
namespace SilKit.TimeSync

/-- A message on a channel. `sentAt` is a ghost: the start of the step in which the data was sent. -/
inductive Msg where
  | task (t : Task)
  | data (payload : Nat) (sentAt : Int)
deriving Repr, DecidableEq

/-- The whole simulation. `chan q p` holds what `q` sent to `p`, oldest first. -/
structure Net where
  part : String → Part
  chan : String → String → List Msg := fun _ _ => []

/-- What an observer of the simulation sees. -/
inductive Obs where
  /-- an event other than the arrival of a message happens to `p` (before the outputs it causes) -/
  | did (p : String) (e : Event)
  | out (p : String) (o : Out)
  | sent (p : String) (payload : Nat) (at_ : Int)
  | received (q p : String) (payload : Nat) (at_ : Int)
deriving Repr, DecidableEq

/-- What can happen. -/
inductive Act where
  /-- an event of one participant other than the arrival of a message -/
  | event (p : String) (e : Event)
  /-- the oldest message from `q` to `p` arrives -/
  | deliver (q p : String)
  /-- `p` sends user data during its simulation step -/
  | data (p : String) (payload : Nat)
deriving Repr, DecidableEq

/-- The messages caused by the outputs of a participant. -/
def sends (outs : List Out) : List Msg := outs.filterMap (fun o => match o with | .send t => some (.task t) | _ => none)

/-- A participant has reacted: store its state and put its messages on the channels to everybody else. -/
def Net.commit (n : Net) (p : String) (r : Part × List Out) : Net × List Obs :=
  ({ part := fun x => if x = p then r.1 else n.part x
     chan := fun a b => if a = p ∧ b ≠ p then n.chan a b ++ sends r.2 else n.chan a b },
   r.2.map (Obs.out p))

/-- Replace one channel. -/
def Net.setChan (n : Net) (q p : String) (l : List Msg) : Net :=
  { n with chan := fun a b => if a = q ∧ b = p then l else n.chan a b }

/-- Events that are not messages from, and not discoveries of, the participant itself (own services are ignored,
TimeSyncService.cpp:343-347). -/
def Event.allowedFor (p : String) : Event → Bool
  | .receive _ _ => false
  | .discovered q => q != p
  | _ => true

/-- One action; `none` if it cannot happen. Messages are processed on the I/O thread, so not during a blocking handler. -/
def Net.act (n : Net) : Act → Option (Net × List Obs)
  | .event p e => if e.allowedFor p then ((n.part p).on e).map (fun r => ((n.commit p r).1, .did p e :: (n.commit p r).2)) else none
  | .deliver q p =>
    match n.chan q p with
    | [] => none
    | .task t :: rest => ((n.part p).on (.receive q t)).map ((n.setChan q p rest).commit p)
    | .data x at_ :: rest => if (n.part p).inHandler then none else some (n.setChan q p rest, [.received q p x at_])
  | .data p x =>
    if (n.part p).busy ∧ 0 ≤ (n.part p).cfg.current.tp then
      some ({ n with chan := fun a b => if a = p ∧ b ≠ p then n.chan a b ++ [.data x (n.part p).cfg.current.tp] else n.chan a b },
        [.sent p x (n.part p).cfg.current.tp])
    else none

end SilKit.TimeSync
