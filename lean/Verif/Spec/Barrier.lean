import Verif.Model.Barrier
/-!
# Specification of the replies barrier (C22)
-/
namespace SilKit.Barrier.Spec

/-- A history of all participants and what can be observed of it. -/
def run (h : List Event) : Net × List Out :=
  h.foldl (fun r e => ((on r.1 e).1, r.2 ++ (on r.1 e).2)) ({}, [])

def trace (h : List Event) : List Out := (run h).2

/-- `p` considers itself connected to `q`, as told by one observation. -/
def connStep (p q : String) (c : Bool) : Out → Bool
  | .connected a b => if a = p ∧ b = q then true else c
  | .lost a b => if a = p ∧ b = q then false else c
  | _ => c

/-- `p` considers itself connected to `q` after `t`. -/
def connectedTo (t : List Out) (p q : String) : Bool := t.foldl (connStep p q) false

def pendStep (p : String) (c : Option Nat) : Out → Option Nat
  | .started a k => if a = p then some k else c
  | .completed a _ => if a = p then none else c
  | _ => c

/-- The barrier of `p` that is pending after `t`: started and not completed. -/
def pending (t : List Out) (p : String) : Option Nat := t.foldl (pendStep p) none

/-- `p` has sent message `d` to `q` over the present connection. -/
def Sent (t : List Out) (p q : String) (d : Nat) : Prop :=
  ∃ a b, t = a ++ .sent p q d :: b ∧ Out.connected p q ∉ b

/-- All participants agree on who is connected, and all messages have been processed. -/
def Quiet (n : Net) : Prop :=
  ∀ p q, (q ∈ n.peers p ↔ p ∈ n.peers q) ∧ (q ∈ n.peers p → n.chan p q = [])

end SilKit.Barrier.Spec
