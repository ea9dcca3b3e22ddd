import Verif.Model.Targeted
/-! # What may be expected of messages to one participant -/
namespace SilKit.Targeted.Spec
open SilKit.Targeted

variable {V : Type}

def run (history : Bool) (h : List (Event V)) : State V × List (Out V) :=
  h.foldl (fun r e => ((on history r.1 e).1, r.2 ++ (on history r.1 e).2)) ({}, [])

/-- What happens in the history `h`. -/
def trace (history : Bool) (h : List (Event V)) : List (Out V) := (run history h).2

/-- What participant `p` has sent to all and to `q`. -/
def meantFor (p q : Nat) (t : List (Out V)) : List V :=
  t.filterMap (fun | .sent p' v => if p' = p then some v else none | .addressed p' q' v => if p' = p ∧ q' = q then some v else none | _ => none)

/-- All that `p` has wanted to send to other participants: to all, to one, and to one that was not there. -/
def attempted (p : Nat) (t : List (Out V)) : List V :=
  t.filterMap (fun
    | .sent p' v => if p' = p then some v else none | .addressed p' _ v => if p' = p then some v else none
    | .refused p' _ v => if p' = p then some v else none | _ => none)

/-- What has arrived at `q` from `p`. -/
def arrivals (q p : Nat) (t : List (Out V)) : List V :=
  t.filterMap (fun | .arrived q' p' v => if q' = q ∧ p' = p then some v else none | _ => none)

/-- The calls of `p` that have returned, with their targets. -/
def calls (p : Nat) (t : List (Out V)) : List (Option Nat × V) :=
  t.filterMap (fun | .returned p' o v => if p' = p then some (o, v) else none | _ => none)

/-- The calls of `p` that have been carried out, with their targets. -/
def carriedOut (p : Nat) (t : List (Out V)) : List (Option Nat × V) :=
  t.filterMap (fun
    | .sent p' v => if p' = p then some (none, v) else none | .addressed p' o v => if p' = p then some (some o, v) else none
    | .refused p' o v => if p' = p then some (some o, v) else none | .toSelf p' v => if p' = p then some (some p, v) else none | _ => none)

/-- What is repeated to a subscriber that comes after `t`. -/
def repeated (history : Bool) (p : Nat) (t : List (Out V)) : List V := if history then (attempted p t).getLast?.toList else []

/-- Everything that `p` has sent to `q` has been handled. -/
def Drained (history : Bool) (h : List (Event V)) (p q : Nat) : Prop := (run history h).1.chan p q = []

/-- All calls of `p` have been carried out. -/
def Idle (history : Bool) (h : List (Event V)) (p : Nat) : Prop := (run history h).1.posted p = []

end SilKit.Targeted.Spec
