import Verif.Model.Registry
/-!
# Specification of the registry (C24, C25)
-/
namespace SilKit.Registry.Spec

def run (h : List Event) : State × List Out :=
  h.foldl (fun r e => ((on r.1 e).1, r.2 ++ (on r.1 e).2)) ({}, [])

/-- Everything the registry does. -/
def trace (h : List Event) : List Out := (run h).2

def memberStep (p : Nat) (k : Key) (b : Bool) : Out → Bool
  | .admitted q k' => if q = p ∧ k' = k then true else b
  | .left q => if q = p then false else b
  | _ => b

/-- After `t`, connection `p` is admitted as participant `k` (simulation and name): it was admitted and has not left since. -/
def member (t : List Out) (p : Nat) (k : Key) : Bool := t.foldl (memberStep p k) false

/-- A connection that is admitted does not announce another participant. -/
def WellBehaved (h : List Event) : Prop :=
  ∀ a b p k, h = a ++ .announce p k :: b → ∀ k', member (trace a) p k' = false

/-- No connection that was rejected because it announced participant `k` has disconnected. -/
def NoRejectedLeft (t : List Out) (k : Key) : Prop := ∀ a r b, t = a ++ .rejected r k :: b → Out.left r ∉ b

def openStep (p : Nat) (b : Bool) : Event → Bool
  | .connect q => if q = p then true else b
  | .disconnect q => if q = p then false else b
  | _ => b

/-- Connection `p` exists after `h`. -/
def isOpen (h : List Event) (p : Nat) : Bool := h.foldl (openStep p) false

end SilKit.Registry.Spec
