import Verif.Model.NetSim
/-!
# Specification of the network simulator (C51)
-/
namespace SilKit.NetSim.Spec

/-- The effect of one observation on the controllers that are offered to the user of network `k`. -/
def offer (k : Key) (l : List (Nat × Service × Option Nat)) : Out → List (Nat × Service × Option Nat)
  | .provide k' d svc answer => if k' = k then l ++ [(d, svc, answer)] else l
  | .removed k' d => if k' = k then l.filter (fun x => x.1 ≠ d) else l
  | _ => l

/-- The controllers that were offered to the user of network `k` and not removed: descriptor, service and the answer of the user. -/
def offered (outs : List Out) (k : Key) : List (Nat × Service × Option Nat) := outs.foldl (offer k) []

/-- The services that exist after a history. -/
def existing (l : List Service) : Op → List Service
  | .created svc => l ++ [svc]
  | .removed svc => l.erase svc
  | _ => l

def alive (os : List Op) : List Service := os.foldl existing []

/-- A service is created when it does not exist and removed when it exists (C11); controllers have different participants or service ids. -/
def fits (l : List Service) : Op → Prop
  | .created svc => svc ∉ l ∧ (svc.kind = .controller → ∀ x ∈ l, x.kind = .controller → x.addr ≠ svc.addr)
  | .removed svc => svc ∈ l
  | _ => True

def Orderly : List Op → List Service → Prop
  | [], _ => True
  | o :: os, l => fits l o ∧ Orderly os (existing l o)

/-- The network is simulated: `SimulateNetwork` was called before `Start`. -/
def Simulates (os : List Op) (k : Key) : Prop := ∃ pre post, os = pre ++ Op.start :: post ∧ Op.start ∉ pre ∧ Op.simulate k ∈ pre

def descOf : Out → Option Nat
  | .provide _ d _ _ => some d
  | _ => none

/-- The descriptors given to the user, in order. -/
def descriptors (outs : List Out) : List Nat := outs.filterMap descOf

/-- What the user gives to simulated controllers goes here: the handle of the controller with this address. -/
def handleOf (l : List (Nat × Service × Option Nat)) (a : String × Nat) : Option Nat := (l.find? (fun x => x.2.1.addr = a)).bind (·.2.2)

/-- The message for one descriptor: it goes to the controller that was offered under it, if the user simulates it. -/
def toReceiver (k : Key) (m : Nat) (l : List (Nat × Service × Option Nat)) (d : Nat) : List Out :=
  match l.find? (fun x => x.1 = d) with
  | some (_, svc, some _) => [.send k svc.participant svc.id m]
  | _ => []

/-- The controllers that take a message which the simulator sends to a participant: the connection passes it to all controllers of the network there. -/
def takers (simulator : String) (ctls : List Ctl) : Out → List Ctl
  | .send k p i _ => ctls.filter (fun c => c.participant = p && c.net = k && c.allows simulator i)
  | _ => []

/-- Created and removed links, in order. -/
def links (es : List (Bool × Service)) : List Service := es.foldl (fun l e => if e.1 then l ++ [e.2] else l.erase e.2) []

/-- The events at a controller. -/
def Ctl.events (c : Ctl) (es : List (Bool × Service)) : Ctl := es.foldl (fun c e => if e.1 then c.onCreated e.2 else c.onRemoved e.2) c

/-- Created when it does not exist, removed when it exists; there is at most one simulator for a network name, and it simulates the network with this type. -/
def OneSimulator (net : Key) : List (Bool × Service) → List Service → Prop
  | [], _ => True
  | (true, svc) :: es, l => svc ∉ l ∧ (svc.kind = .link → svc.net.name = net.name → svc.net = net ∧ ∀ x ∈ l, x.kind = .link → x.net.name ≠ net.name) ∧ OneSimulator net es (l ++ [svc])
  | (false, svc) :: es, l => svc ∈ l ∧ OneSimulator net es (l.erase svc)

/-- The values of one kind that differ from the one before, from the value 0. -/
def changes : Nat → List Nat → List Nat
  | _, [] => []
  | v, x :: xs => if x = v then changes v xs else x :: changes x xs

def stateOf : Change → Option Nat
  | .state v => some v
  | _ => none

def errorOf : Change → Option Nat
  | .error v => some v
  | _ => none

/-- The notices at one controller. -/
def noticesOf (d : Nat) (l : List (Nat × Change)) : List Change := (l.filter (fun x => x.1 = d)).map (·.2)

end SilKit.NetSim.Spec
