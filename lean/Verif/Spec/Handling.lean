import Verif.Model.Handling
/-!
# Specification of handlers with filters
-/
namespace SilKit.Handling.Spec

variable {κ ν ρ : Type}

/-- The events that handlers are invoked for. -/
def tolds (t : List (Out κ ν ρ)) : List ν := t.filterMap (fun | .told n => some n | _ => none)

/-- What else happens. -/
def dids (t : List (Out κ ν ρ)) : List ρ := t.filterMap (fun | .did r => some r | _ => none)

/-- The calls of a handler. -/
def handlerCalls [DecidableEq κ] (kind : ν → κ) (k : κ) (id : Nat) (t : List (Out κ ν ρ)) : List ν :=
  t.filterMap (fun | .called id' n => if id' = id ∧ kind n = k then some n else none | _ => none)

end SilKit.Handling.Spec
