import Verif.Model.Links
/-!
# Specification of message links (C27, C38)
-/
namespace SilKit.Links.Spec

variable {V : Type}

/-- The execution of `h`; `off` says on which links the history is switched off. -/
def run (off : Nat → MsgType → String → Bool) (h : List (Event V)) : State V × List (Out V) :=
  h.foldl (fun r e => ((on r.1 e).1, r.2 ++ (on r.1 e).2)) (init off, [])

def trace (off : Nat → MsgType → String → Bool) (h : List (Event V)) : List (Out V) := (run off h).2

/-- What participant `p` has published on a link. -/
def published (p : Nat) (ty : MsgType) (net : String) (t : List (Out V)) : List V :=
  t.filterMap (fun | .published p' _ ty' net' v => if p' = p ∧ ty' = ty ∧ net' = net then some v else none | _ => none)

/-- What service `svc` of participant `q` has received on a link from participant `p`. -/
def received (q svc : Nat) (ty : MsgType) (net : String) (p : Nat) (t : List (Out V)) : List V :=
  t.filterMap (fun | .received q' svc' ty' net' p' v => if q' = q ∧ svc' = svc ∧ ty' = ty ∧ net' = net ∧ p' = p then some v else none | _ => none)

/-- The last value, as a list. -/
def lastValue (l : List V) : List V := l.getLast?.toList

/-- No other type of messages goes by the same name. -/
def NamedUniquely (ty : MsgType) : Prop := ∀ ty', serdesName ty' = serdesName ty → ty' = ty

/-- The connection from `p` to `q` is in use at `p`, and all that `p` has sent to `q` has been handled by `q`. -/
def Drained (off : Nat → MsgType → String → Bool) (h : List (Event V)) (p q : Nat) : Prop :=
  (run off h).1.status p q = .isOpen ∧ (run off h).1.chan p q = []

end SilKit.Links.Spec
