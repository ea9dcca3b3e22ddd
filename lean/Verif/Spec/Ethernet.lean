import Verif.Model.Ethernet
import Verif.Spec.Bus
import Verif.Spec.Handling
/-!
# Specification of Ethernet networks (C30)
-/
namespace SilKit.Ethernet.Spec
open SilKit.Bus.Spec SilKit.Handling.Spec

/-- A request to send a frame, and whether the controller is active by then. -/
structure Request where
  raw : List Nat
  ctx : Nat
  active : Bool
deriving Repr, DecidableEq

/-- The requests, by the calls alone; the controller is active or not at first. -/
def requestsFrom : Bool → List Call → List Request
  | _, [] => []
  | s, .sendFrame raw ctx :: cs => ⟨raw, ctx, s⟩ :: requestsFrom s cs
  | _, .activate :: cs => requestsFrom true cs
  | _, .deactivate :: cs => requestsFrom false cs
  | s, _ :: cs => requestsFrom s cs

abbrev Trace := List (Bus.Out Call FrameEvent Out)

/-- The requests to controller `i` of participant `p`. -/
def requests (p i : Nat) (t : Trace) : List Request := requestsFrom false (calls p i t)

/-- Those made while it was active. -/
def transmitted (p i : Nat) (t : Trace) : List Request := (requests p i t).filter (·.active)

/-- The messages that controller `j` of participant `q` takes from controller `i` of participant `p`. -/
def takenFrom (p i q j : Nat) (t : Trace) : List Msg :=
  (dids (outs q j t)).filterMap (fun | .takes (some src) m => if src = (p, i) then some m else none | _ => none)

/-- The frames and acknowledges that controller `i` of participant `p` takes from itself. -/
def takenFromSelf (p i : Nat) (t : Trace) : List Msg :=
  (dids (outs p i t)).filterMap (fun | .takes none (.frame e) => some (.frame e) | .takes none (.ack a) => some (.ack a) | _ => none)

/-- There is no network simulation. -/
def NoSimulation (h : List (Bus.Event Call)) : Prop := ∀ p i x, Bus.Event.call p i (.sim x) ∉ h

/-- Controller `i` of participant `p` has been created on the network. -/
def Created (p i : Nat) (net : String) (t : Trace) : Prop := Bus.Out.link (.registered p .ethFrame net i) ∈ t

/-! ## One controller -/

/-- What controller `i` on the network `net` does. -/
def ctlTrace (i : Nat) (net : String) (h : List (Input Call FrameEvent)) : List Out := (solo service i net h).2

def includesTx : Direction → Bool
  | .tx | .txrx => true
  | _ => false

def includesRx : Direction → Bool
  | .rx | .txrx => true
  | _ => false

/-- The bits of the masks: 0 for TX, 1 for RX; 0 for transmitted, 1 for an inactive controller, 2 for no link, 3 for a full queue, 5 for an invalid frame. -/
def inMask (mask : Nat) : Notice → Bool
  | .frame e => (includesTx e.direction && mask.testBit 0) || (includesRx e.direction && mask.testBit 1)
  | .ack a => match a.status with
      | .transmitted => mask.testBit 0
      | .controllerInactive => mask.testBit 1
      | .linkDown => mask.testBit 2
      | .dropped => mask.testBit 3
      | .invalidFrameFormat => mask.testBit 5
  | .state _ => true
  | .bitrate _ => true

/-- A frame of at least 60 bytes. -/
def padded (raw : List Nat) : List Nat := raw ++ List.replicate (60 - raw.length) 0

/-- What handlers should be told about the messages a controller takes: padded frames, with the user context only if the frame was transmitted here;
acknowledges; changes of the bit rate and of the state. -/
def noticesFrom : State → Nat → List Did → List Notice
  | _, _, [] => []
  | s, b, .takes _ (.frame f) :: t => .frame ⟨padded f.raw, f.direction, if includesTx f.direction then f.ctx else 0⟩ :: noticesFrom s b t
  | s, b, .takes _ (.ack a) :: t => .ack a :: noticesFrom s b t
  | s, b, .takes _ (.status s' b') :: t => (if b' ≠ b then [.bitrate b'] else []) ++ (if s' ≠ s then [.state s'] else []) ++ noticesFrom s' b' t
  | s, b, .toSim _ _ :: t => noticesFrom s b t

def notices (t : List Out) : List Notice := noticesFrom .inactive 0 (dids t)

/-! ## Network simulation -/

/-- Who simulates the network `net` after a history: the participant whose link on this network appeared first since the last one was removed. -/
def simulator (net : String) (h : List (Input Call FrameEvent)) : Option Nat :=
  h.foldl (fun now x => match x with
    | .inl (.sim (.linkCreated q n)) => if n = net then some (now.getD q) else now
    | .inl (.sim (.linkRemoved _ n)) => if n = net then none else now
    | _ => now) none

/-- The input offers the message `m` of the service `src` to the controller. -/
def offers (x : Input Call FrameEvent) (src : Nat × Nat) (m : Msg) : Prop := x = .inl (.sim (.msg src m)) ∨ ∃ e, x = .inr (src, e) ∧ m = .frame e

end SilKit.Ethernet.Spec
