import Verif.Model.Bus
import Verif.Spec.Links
/-!
# Specification of services on links
-/
namespace SilKit.Bus.Spec
open SilKit.Links (MsgType)

variable {σ α M ω : Type}

def run (off : Nat → MsgType → String → Bool) (S : Service σ α M ω) (h : List (Event α)) : State σ M × List (Out α M ω) :=
  h.foldl (fun r e => ((on S r.1 e).1, r.2 ++ (on S r.1 e).2)) (init off, [])

def trace (off : Nat → MsgType → String → Bool) (S : Service σ α M ω) (h : List (Event α)) : List (Out α M ω) := (run off S h).2

/-- What happens on the links. -/
def linkPart (t : List (Out α M ω)) : List (Links.Out (Nat × M)) := t.filterMap (fun | .link o => some o | _ => none)

/-- The calls of the API of service `i` of participant `p`. -/
def calls (p i : Nat) (t : List (Out α M ω)) : List α := t.filterMap (fun | .call p' i' a => if p' = p ∧ i' = i then some a else none | _ => none)

/-- The outputs of service `i` of participant `p`. -/
def outs (p i : Nat) (t : List (Out α M ω)) : List ω := t.filterMap (fun | .out p' i' o => if p' = p ∧ i' = i then some o else none | _ => none)

/-- What a service does during a call, apart from sending to the network. -/
def actOut : Act M ω → Option ω
  | .out o => some o
  | .send _ => none

/-- What a single service is told: calls of its API, and messages from others. -/
abbrev Input (α M : Type) := Sum α ((Nat × Nat) × M)

def soloStep (S : Service σ α M ω) (r : σ × List ω) : Input α M → σ × List ω
  | .inl a => ((S.api r.1 a).1, r.2 ++ (S.api r.1 a).2.filterMap actOut)
  | .inr (src, m) => ((S.recv r.1 src m).1, r.2 ++ (S.recv r.1 src m).2)

/-- A single service with the number `i` on the network `net`, whatever it is told. -/
def solo (S : Service σ α M ω) (i : Nat) (net : String) (h : List (Input α M)) : σ × List ω := h.foldl (soloStep S) (S.start i net, [])

/-- The connection from `p` to `q` is in use at `p`, and all that `p` has sent to `q` has been handled by `q`. -/
def Drained (off : Nat → MsgType → String → Bool) (S : Service σ α M ω) (h : List (Event α)) (p q : Nat) : Prop :=
  (run off S h).1.links.status p q = .isOpen ∧ (run off S h).1.links.chan p q = []

end SilKit.Bus.Spec
