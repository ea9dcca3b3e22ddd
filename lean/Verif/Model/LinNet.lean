import Verif.Model.Lin
/-!
# Model of a LIN network

`k` controllers of one LIN network, numbered from 0, which send to each other as message links do (`Model/Links.lean`, C26, C27): a sender's messages reach a
receiver in order, once, some time after they are sent, if the sender knows of the receiver's subscription by then; who subscribes later gets the last
configuration (`WireLinControllerConfig` is the only LIN message with history, SilKitMsgTraits.hpp:158).

Simplification: every ordered pair of controllers has one channel with arbitrary delays, also if both belong to one participant, where the code delivers
within the I/O thread's task; so the model has more interleavings than the code. Controllers of one participant are "subscribed" from their creation.
-/
namespace SilKit.Lin

/-- The links of a LIN network: one per type of messages. -/
inductive Ty
  | frameRequest | header | transmission | wakeup | config | responses | status
deriving Repr, DecidableEq

def Msg.ty : Msg → Ty
  | .frameRequest _ _ => .frameRequest
  | .header _ => .header
  | .transmission _ _ => .transmission
  | .wakeup _ => .wakeup
  | .config _ _ _ => .config
  | .responses _ => .responses
  | .status _ => .status

structure Net where
  k : Nat
  ctl : Nat → Ctl
  /-- Controller `i` knows of the subscription of controller `j`. -/
  opn : Nat → Nat → Ty → Bool := fun _ _ _ => false
  /-- The messages on their way from controller `i` to controller `j`. -/
  chan : Nat → Nat → List Msg := fun _ _ => []
  /-- The last configuration that controller `i` sent. -/
  last : Nat → Option Msg := fun _ => none

inductive Act
  /-- The user of controller `i` calls the API. -/
  | api (i : Nat) (a : Call)
  /-- Controller `j` receives the next message of controller `i`. -/
  | deliver (i j : Nat)
  /-- Controller `i` learns that controller `j` subscribes to the messages of type `ty`. -/
  | open (i j : Nat) (ty : Ty)
  /-- Controller `j` leaves, as seen by controller `i`. -/
  | close (i j : Nat)
deriving Repr, DecidableEq

inductive Ev
  /-- The user of controller `i` calls the API. -/
  | call (i : Nat) (a : Call)
  /-- Controller `i` receives a message of controller `src`. -/
  | recv (i src : Nat) (m : Msg)
  /-- Controller `i` outputs. -/
  | out (i : Nat) (o : Out)
deriving Repr, DecidableEq

def upd {α : Type} (f : Nat → α) (i : Nat) (x : α) : Nat → α := fun j => if j = i then x else f j

/-- Messages that controllers receive from themselves, SilKitMsgTraits.hpp:162, SilKitLink.hpp:180-186. -/
def Msg.selfDelivered : Msg → Bool
  | .header _ => true
  | _ => false

def Msg.hasHistory : Msg → Bool
  | .config _ _ _ => true
  | _ => false

/-- Where a message of controller `i` goes. -/
def Net.goesTo (s : Net) (i j : Nat) (m : Msg) : Bool := decide (j < s.k) && (if j = i then m.selfDelivered else s.opn i j m.ty)

/-- Sending to the network, SilKitLink.hpp:153-213. -/
def Net.post (s : Net) (i : Nat) (m : Msg) : Net :=
  { s with
    chan := fun a b => if a = i ∧ s.goesTo i b m then s.chan a b ++ [m] else s.chan a b
    last := if m.hasHistory then upd s.last i (some m) else s.last }

def Net.postOut (i : Nat) (s : Net) : Out → Net
  | .did (.send m) => s.post i m
  | _ => s

def Net.posts (s : Net) (i : Nat) (os : List Out) : Net := os.foldl (Net.postOut i) s

def Net.init (k : Nat) (net : String) : Net := { k := k, ctl := fun i => { self := i, net := net } }

/-- Controller `i` becomes `r.1` and outputs `r.2`. -/
def Net.become (s : Net) (i : Nat) (r : R) : Net := Net.posts { s with ctl := upd s.ctl i r.1 } i r.2

def Net.pop (s : Net) (i j : Nat) : Net := { s with chan := fun a b => if a = i ∧ b = j then (s.chan a b).tail else s.chan a b }

def Net.opened (s : Net) (i j : Nat) (ty : Ty) : Net :=
  { s with
    opn := fun a b t => if a = i ∧ b = j ∧ t = ty then true else s.opn a b t
    chan := fun a b => if a = i ∧ b = j ∧ ty = .config then s.chan a b ++ (s.last i).toList else s.chan a b }

def Net.closed (s : Net) (i j : Nat) : Net :=
  { s with
    opn := fun a b t => if a = i ∧ b = j then false else s.opn a b t
    chan := fun a b => if a = i ∧ b = j then [] else s.chan a b }

def Net.deliver (s : Net) (i j : Nat) : List Msg → Net × List Ev
  | [] => (s, [])
  | m :: _ => ((s.pop i j).become j ((s.ctl j).receive i m), (Ev.recv j i m) :: ((s.ctl j).receive i m).2.map (.out j))

def Net.step (s : Net) : Act → Net × List Ev
  | .api i a => if i < s.k then (s.become i ((s.ctl i).api a), .call i a :: ((s.ctl i).api a).2.map (.out i)) else (s, [])
  | .deliver i j => if i < s.k ∧ j < s.k then s.deliver i j (s.chan i j) else (s, [])
  | .open i j ty => if i < s.k ∧ j < s.k ∧ i ≠ j ∧ s.opn i j ty = false then (s.opened i j ty, []) else (s, [])
  | .close i j => if i ≠ j then (s.closed i j, []) else (s, [])

end SilKit.Lin
