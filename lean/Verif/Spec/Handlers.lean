import Verif.Model.Handlers
/-!
# Specification of registered handlers (C36)
-/
namespace SilKit.Handlers.Spec

def run (h : List Event) : State × List Out := h.foldl (fun r e => ((on r.1 e).1, r.2 ++ (on r.1 e).2)) ({}, [])

def trace (h : List Event) : List Out := (run h).2

/-- The identifiers handed out, in order. -/
def addedIds (t : List Out) : List Nat := t.filterMap (fun | .added id _ => some id | _ => none)

def registeredStep (l : List Nat) : Out → List Nat
  | .added id _ => l ++ [id]
  | .removed id => l.filter (· != id)
  | .cleared => []
  | _ => l

/-- The identifiers of the handlers that are registered after `t`, in the order of their registration. -/
def registered (t : List Out) : List Nat := t.foldl registeredStep []

/-- The identifiers of the handlers called as part of the `k`-th invocation, in order. -/
def calls (k : Nat) (t : List Out) : List Nat := t.filterMap (fun | .called k' id _ => if k' = k then some id else none | _ => none)

/-- After `t`, the handler `id` has been called and has not returned yet. -/
def Executing (id : Nat) (t : List Out) : Prop :=
  ∃ k p a b, t = a ++ .called k id p :: b ∧ Out.ended k ∉ b ∧ ∀ id' p', Out.called k id' p' ∉ b

/-- No handler is removed while it is being executed. -/
def SafeRemovals (t : List Out) : Prop :=
  (∀ a id b, t = a ++ .removed id :: b → ¬ Executing id a) ∧ (∀ a b, t = a ++ .cleared :: b → ∀ id, ¬ Executing id a)

/-- Fewer handlers than there are identifiers. -/
def FewHandlers (h : List Event) : Prop := (h.filter (fun | .add _ => true | _ => false)).length ≤ idRange

end SilKit.Handlers.Spec
