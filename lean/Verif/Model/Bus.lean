import Verif.Model.Links
/-!
# Services on links

Services of one kind, say all CAN controllers, of all participants, on top of the links of `Model/Links.lean`. A service is created on a network and
registers for the messages of that network (Participant_impl.hpp:1675-1723, `CreateController`; VAsioConnection.hpp:310-361); a message carries
the address of its sender (`EndpointAddress`, participant and service); a service whose receiving method is called does not send.

A call of the API is one step of the model, as is the handling of a received message. In the code, they run on different threads, and a call may
overlap with the handling of a message.
-/
namespace SilKit.Bus
open SilKit.Links (MsgType)

/-- What a service does during a call: it sends to the network or does something else. -/
inductive Act (M ω : Type)
  | send (m : M)
  | out (o : ω)
deriving Repr, DecidableEq

/-- A kind of services, with state `σ`, calls `α`, messages `M` and outputs `ω`. -/
structure Service (σ α M ω : Type) where
  ty : MsgType
  /-- The state of the new service with the given number on the given network. -/
  start : Nat → String → σ
  api : σ → α → σ × List (Act M ω)
  recv : σ → Nat × Nat → M → σ × List ω

variable {σ α M ω : Type}

structure State (σ M : Type) where
  links : Links.State (Nat × M)
  /-- The services of the participants: network and state. -/
  svc : Nat → Nat → Option (String × σ) := fun _ _ => none

def State.set (s : State σ M) (p i : Nat) (x : String × σ) : State σ M :=
  { s with svc := fun p' i' => if p' = p ∧ i' = i then some x else s.svc p' i' }

inductive Out (α M ω : Type)
  | link (o : Links.Out (Nat × M))
  /-- The API of service `i` of participant `p` is called. -/
  | call (p i : Nat) (a : α)
  /-- Service `i` of participant `p` does something. -/
  | out (p i : Nat) (o : ω)
deriving Repr, DecidableEq

inductive Event (α : Type)
  | create (p i : Nat) (net : String)
  | call (p i : Nat) (a : α)
  | connect (p q : Nat)
  | announce (p q : Nat)
  | deliver (p q : Nat)
  | close (p q : Nat)
deriving Repr, DecidableEq

/-- `ReceiveMsg` of a service is called where the link delivers to it, SilKitLink.hpp:194-213. -/
def react (S : Service σ α M ω) (r : State σ M × List (Out α M ω)) (o : Links.Out (Nat × M)) : State σ M × List (Out α M ω) :=
  match o with
  | .received q i _ _ p v =>
      match r.1.svc q i with
      | none => (r.1, r.2 ++ [.link o])
      | some x => (r.1.set q i (x.1, (S.recv x.2 (p, v.1) v.2).1), r.2 ++ .link o :: (S.recv x.2 (p, v.1) v.2).2.map (.out q i))
  | _ => (r.1, r.2 ++ [.link o])

/-- The links take a step, and services receive messages. -/
def onLinks (S : Service σ α M ω) (r : State σ M × List (Out α M ω)) (e : Links.Event (Nat × M)) : State σ M × List (Out α M ω) :=
  (Links.on r.1.links e).2.foldl (react S) ({ r.1 with links := (Links.on r.1.links e).1 }, r.2)

def act (S : Service σ α M ω) (p i : Nat) (net : String) (r : State σ M × List (Out α M ω)) : Act M ω → State σ M × List (Out α M ω)
  | .send m => onLinks S r (.send p i S.ty net (i, m))
  | .out o => (r.1, r.2 ++ [.out p i o])

def call (S : Service σ α M ω) (s : State σ M) (p i : Nat) (a : α) : State σ M × List (Out α M ω) :=
  match s.svc p i with
  | none => (s, [])
  | some x => (S.api x.2 a).2.foldl (act S p i x.1) (s.set p i (x.1, (S.api x.2 a).1), [.call p i a])

def create (S : Service σ α M ω) (s : State σ M) (p i : Nat) (net : String) : State σ M × List (Out α M ω) :=
  match s.svc p i with
  | none => onLinks S (s.set p i (net, S.start i net), []) (.register p S.ty net i)
  | some _ => (s, [])

def on (S : Service σ α M ω) (s : State σ M) : Event α → State σ M × List (Out α M ω)
  | .create p i net => create S s p i net
  | .call p i a => call S s p i a
  | .connect p q => onLinks S (s, []) (.connect p q)
  | .announce p q => onLinks S (s, []) (.announce p q)
  | .deliver p q => onLinks S (s, []) (.deliver p q)
  | .close p q => onLinks S (s, []) (.close p q)

def init (off : Nat → MsgType → String → Bool) : State σ M := { links := Links.init off }

end SilKit.Bus
