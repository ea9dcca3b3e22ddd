/-!
# Model of messages that are sent to one participant only

Source: `SilKit/source/core/vasio/SilKitLink.hpp`, `SilKit/source/core/vasio/VAsioTransmitter.hpp`,
`SilKit/source/core/participant/Participant_impl.hpp:1633-1642`.

Controllers on a simulated network send to the network simulator only, and the simulator sends to single controllers. The model has one link (a type of messages
on a network) in any number of participants, with messages to all and to one; how subscriptions get to the other participant is the subject of
`Model/Links.lean`, and here is one event. Participants are numbers: their names are different.

Simplified: the receivers of a link within a participant are left out, as `Model/Links.lean` has them; a message to the own participant is an output of its own.
-/
namespace SilKit.Targeted

variable {V : Type}

/-- The parts of the links of all participants: `_remoteReceivers` (VAsioTransmitter.hpp:188), `_last` and `_hasValue` (65-68); what is on the way from one
participant to another; which connections have ended; the calls that wait for the I/O thread of a participant, with their targets (none: to all). -/
structure State (V : Type) where
  remotes : Nat → List Nat := fun _ => []
  last : Nat → Option V := fun _ => none
  chan : Nat → Nat → List V := fun _ _ => []
  gone : Nat → Nat → Bool := fun _ _ => false
  posted : Nat → List (Option Nat × V) := fun _ => []

inductive Event (V : Type)
  /-- Participant `p` handles the subscription of participant `q`. -/
  | subscribe (p q : Nat)
  /-- Participant `p` notices that the connection to `q` has ended. -/
  | leave (p q : Nat)
  /-- A thread of participant `p` calls `SendMsg`, with or without a target. -/
  | call (p : Nat) (target : Option Nat) (v : V)
  /-- The I/O thread of `p` runs the next call. -/
  | work (p : Nat)
  /-- Participant `q` handles the next message from `p`. -/
  | deliver (p q : Nat)
deriving Repr, DecidableEq

inductive Out (V : Type)
  /-- The call has returned to the caller, without an exception. -/
  | returned (p : Nat) (target : Option Nat) (v : V)
  | accepted (p q : Nat)
  | left (p q : Nat)
  | sent (p : Nat) (v : V)
  /-- A message to one participant was sent. -/
  | addressed (p target : Nat) (v : V)
  /-- An exception in the I/O thread, which is logged there (VAsioConnection.cpp:1216-1230): the target is no receiver. -/
  | refused (p target : Nat) (v : V)
  | toSelf (p : Nat) (v : V)
  | arrived (q p : Nat) (v : V)
deriving Repr, DecidableEq

def State.push (s : State V) (p q : Nat) (vs : List V) : State V :=
  { s with chan := fun a b => if a = p ∧ b = q then s.chan a b ++ vs else s.chan a b }

/-- `MessageHistory::Save`, VAsioTransmitter.hpp:33, 45-53; `history`: the type of messages has a history and it is not switched off. -/
def State.save (history : Bool) (s : State V) (p : Nat) (v : V) : State V :=
  if history then { s with last := fun a => if a = p then some v else s.last a } else s

/-- `AddRemoteReceiver` with `NotifyPeer`, VAsioTransmitter.hpp:54-62, 96-109. -/
def subscribe (history : Bool) (s : State V) (p q : Nat) : State V × List (Out V) :=
  if p = q ∨ s.gone p q = true ∨ q ∈ s.remotes p then (s, [])
  else (State.push { s with remotes := fun a => if a = p then s.remotes a ++ [q] else s.remotes a } p q (if history then (s.last p).toList else []),
    [.accepted p q])

/-- `RemoveRemoteReceiver`, VAsioTransmitter.hpp:111-122. -/
def leave (s : State V) (p q : Nat) : State V × List (Out V) :=
  if s.gone p q = true then (s, [])
  else ({ s with remotes := fun a => if a = p then (s.remotes a).filter (· != q) else s.remotes a
                 gone := fun a b => if a = p ∧ b = q then true else s.gone a b }, [.left p q])

/-- `VAsioTransmitter::ReceiveMsg`, VAsioTransmitter.hpp:165-173. -/
def send (history : Bool) (s : State V) (p : Nat) (v : V) : State V × List (Out V) :=
  ((s.remotes p).foldl (fun s q => s.push p q [v]) (s.save history p v), [.sent p v])

/-- `DispatchSilKitMessageToTarget`, SilKitLink.hpp:213-225, and `SendMessageToTarget`, VAsioTransmitter.hpp:139-156: the message is saved before the receiver is
looked for. -/
def sendTo (history : Bool) (s : State V) (p t : Nat) (v : V) : State V × List (Out V) :=
  if p = t then (s, [.toSelf p v])
  else
    let s := s.save history p v
    if t ∈ s.remotes p then (s.push p t [v], [.addressed p t v]) else (s, [.refused p t v])

/-- `DistributeRemoteSilKitMessage`, SilKitLink.hpp:144-155. -/
def deliver (s : State V) (p q : Nat) : State V × List (Out V) :=
  match s.chan p q with
  | [] => (s, [])
  | v :: vs => ({ s with chan := fun a b => if a = p ∧ b = q then vs else s.chan a b }, [.arrived q p v])

/-- `Participant::SendMsgImpl`, Participant_impl.hpp:1636-1642, and `VAsioConnection::SendMsg`, VAsioConnection.hpp:152-163, 444-448: the call is posted to the
I/O thread. -/
def call (s : State V) (p : Nat) (t : Option Nat) (v : V) : State V × List (Out V) :=
  ({ s with posted := fun a => if a = p then s.posted a ++ [(t, v)] else s.posted a }, [.returned p t v])

/-- `SendMsgImpl` and `SendMsgToTargetImpl`, VAsioConnection.hpp:405-442; the link exists. Simplified: the empty name is no name of a participant, and the
exception for it is that for a target that is no receiver, but comes before the message is saved. -/
def work (history : Bool) (s : State V) (p : Nat) : State V × List (Out V) :=
  match s.posted p with
  | [] => (s, [])
  | (t, v) :: cs =>
    let s := { s with posted := fun a => if a = p then cs else s.posted a }
    match t with
    | none => send history s p v
    | some t => sendTo history s p t v

def on (history : Bool) (s : State V) : Event V → State V × List (Out V)
  | .subscribe p q => subscribe history s p q
  | .leave p q => leave s p q
  | .call p t v => call s p t v
  | .work p => work history s p
  | .deliver p q => deliver s p q

end SilKit.Targeted
