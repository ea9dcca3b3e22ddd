import Verif.Model.Can
import Verif.Spec.Bus
/-!
# Specification of CAN networks (C28, C29)
-/
namespace SilKit.Can.Spec
open SilKit.Bus.Spec

/-- The frames, with their user contexts, that are sent while the controller is started; it is in the given state at first. -/
def transmittedFrom : CtlState → List Call → List (Frame × Nat)
  | _, [] => []
  | s, .sendFrame f ctx :: cs => (if s = .started then [(f, ctx)] else []) ++ transmittedFrom s cs
  | _, .start :: cs => transmittedFrom .started cs
  | _, .stop :: cs => transmittedFrom .stopped cs
  | _, .sleep :: cs => transmittedFrom .sleep cs
  | _, .reset :: cs => transmittedFrom .uninit cs
  | s, _ :: cs => transmittedFrom s cs

abbrev Trace := List (Bus.Out Call FrameEvent Out)

/-- The frames that controller `i` of participant `p` is asked to send while it is started. -/
def transmitted (p i : Nat) (t : Trace) : List (Frame × Nat) := transmittedFrom .uninit (calls p i t)

/-- The messages that controller `j` of participant `q` takes from controller `i` of participant `p`. -/
def takenFrom (p i q j : Nat) (t : Trace) : List Msg :=
  (outs q j t).filterMap (fun | .takes (some src) m => if src = (p, i) then some m else none | _ => none)

/-- The frames and acknowledges that controller `i` of participant `p` takes from itself. -/
def takenFromSelf (p i : Nat) (t : Trace) : List Msg :=
  (outs p i t).filterMap (fun | .takes none (.frame e) => some (.frame e) | .takes none (.ack a) => some (.ack a) | _ => none)

/-- There is no network simulation. -/
def NoSimulation (h : List (Bus.Event Call)) : Prop := ∀ p i x, Bus.Event.call p i (.sim x) ∉ h

/-- Controller `i` of participant `p` has been created on the network. -/
def Created (p i : Nat) (net : String) (t : Trace) : Prop := Bus.Out.link (.registered p .canFrame net i) ∈ t

/-! ## One controller -/

/-- What a controller is told: calls, and frames from other controllers. -/
abbrev Input := Sum Call ((Nat × Nat) × FrameEvent)

def step (r : Ctl × List Out) : Input → Ctl × List Out
  | .inl a => ((r.1.api a).1, r.2 ++ (r.1.api a).2.filterMap actOut)
  | .inr (src, e) => ((r.1.receive src (.frame e)).1, r.2 ++ (r.1.receive src (.frame e)).2)

def run (i : Nat) (net : String) (h : List Input) : Ctl × List Out := h.foldl step ({ id := i, net := net }, [])

/-- What controller `i` on the network `net` does. -/
def ctlTrace (i : Nat) (net : String) (h : List Input) : List Out := (run i net h).2

def includesTx : Direction → Bool
  | .tx | .txrx => true
  | _ => false

def includesRx : Direction → Bool
  | .rx | .txrx => true
  | _ => false

/-- The bits of the masks: 0 for TX, 1 for RX; 0 for transmitted, 1 for canceled, 2 for a full queue. -/
def inMask (mask : Nat) : Notice → Bool
  | .frame e => (includesTx e.direction && mask.testBit 0) || (includesRx e.direction && mask.testBit 1)
  | .ack a => match a.status with
      | .transmitted => mask.testBit 0
      | .canceled => mask.testBit 1
      | .transmitQueueFull => mask.testBit 2
  | .state _ => true
  | .error _ => true

/-- What handlers should be told about the messages a controller takes: frames, with the user context only if the frame was transmitted here;
acknowledges; and changes of the state and of the error state. -/
def noticesFrom : CtlState → ErrorState → List Out → List Notice
  | _, _, [] => []
  | s, e, .takes _ (.frame f) :: t => .frame { f with ctx := if includesTx f.direction then f.ctx else 0 } :: noticesFrom s e t
  | s, e, .takes _ (.ack a) :: t => .ack a :: noticesFrom s e t
  | s, e, .takes _ (.status s' e') :: t =>
      (if s' ≠ s then [.state s'] else []) ++ (if e' ≠ e then [.error e'] else []) ++ noticesFrom s' e' t
  | s, e, _ :: t => noticesFrom s e t

def notices (t : List Out) : List Notice := noticesFrom .uninit .notAvailable t

/-- The calls of a handler. -/
def handlerCalls (k : Kind) (id : Nat) (t : List Out) : List Notice :=
  t.filterMap (fun | .called id' n => if id' = id ∧ n.kind = k then some n else none | _ => none)

/-- The participant that simulates the network, by what the controller is told. -/
def simulatorFrom (net : String) : Option Nat → List Input → Option Nat
  | s, [] => s
  | none, .inl (.sim (.linkCreated q net')) :: h => simulatorFrom net (if net' = net then some q else none) h
  | some q, .inl (.sim (.linkRemoved _ net')) :: h => simulatorFrom net (if net' = net then none else some q) h
  | s, _ :: h => simulatorFrom net s h

end SilKit.Can.Spec
