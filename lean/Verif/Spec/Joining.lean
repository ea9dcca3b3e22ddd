import Verif.Model.Joining
/-!
# Specification of joining (C26)
-/
namespace SilKit.Joining.Spec

/-- The execution of a schedule `h` when the registry has named the participants `known`. -/
def run (known : List String) (h : List Event) : State × List Out :=
  h.foldl (fun r e => ((on r.1 e).1, r.2 ++ (on r.1 e).2)) (init known, [])

def trace (known : List String) (h : List Event) : List Out := (run known h).2

def isResult : Out → Bool
  | .result _ => true
  | _ => false

def isStartWaiting : Out → Bool
  | .startWaiting _ => true
  | _ => false

/-- Neither thread has anything left to do. -/
def Quiet (known : List String) (h : List Event) : Prop :=
  (run known h).1.user = .idle ∧ (run known h).1.io = .idle

/-- This is the end of the attempts to reach `n`: there is no connection and no proxy through which to reach it. -/
def GivesUp (n : String) : Event → Prop
  | .connectFailed m remote proxy => m = n ∧ remote = false ∧ proxy = false
  | .timer m proxy => m = n ∧ proxy = false
  | .remoteFailed m proxy => m = n ∧ proxy = false
  | _ => False

end SilKit.Joining.Spec
