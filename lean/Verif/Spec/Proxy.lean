import Verif.Model.Proxy
/-!
# What communicating through the registry should look like
-/
namespace SilKit.Proxy.Spec
open SilKit.Proxy

/-- The data that `a` sent to `b`. -/
def sentTo (n : Net) (a b : Nat) : List Nat := (n.part a).sent.filterMap (fun s => if s.1 = b then some s.2 else none)

/-- The event is about `a`. -/
def about (a : Nat) : Event → Bool
  | .received from_ _ => decide (from_ = some a)
  | .left name => decide (name = some a)

/-- What `b` observes of `a`. -/
def view (n : Net) (a b : Nat) : List Event := (n.part b).trace.filter (about a)

/-- Nothing is on its way between `a` and `b`. -/
def Quiet (n : Net) (a b : Nat) : Prop := n.up a = [] ∧ n.down b = []

end SilKit.Proxy.Spec
