import Verif.Model.LifecycleWait
/-!
# Specification: starting and waiting for lifecycles, as a user sees it
-/
namespace SilKit.LifecycleWait.Spec
open SilKit.LifecycleWait

/-- The address a thread has passed to the call it is in. -/
def about : Phase → Option Nat
  | .idle => none
  | .adding a _ _ _ => some a
  | .calling a _ => some a
  | .holding a _ _ => some a
  | .checked a _ _ => some a
  | .getting a _ _ _ => some a
  | .leaving a _ _ => some a

/-- No thread is in a call about the service at `a`. -/
def Quiet (w : World) (a : Nat) : Prop := ∀ t, about (w.threads t) ≠ some a

/-- The wait for service `o` has been successful. -/
def Waited (events : List Event) (o : Nat) : Prop := ∃ t a s, .returned t a o (.success s) ∈ events

/-- What a careful user does: start every lifecycle once, be in one call at a time about each service, and destroy a participant only when nobody is in
such a call and the end of its lifecycle, if it was started, has been waited for. -/
def Careful (w : World) : Op → Prop
  | .start _ a _ waiter => Quiet w a ∧ (∀ o, w.live a = some o → (w.services o).taken = false) ∧ ∀ v, waiter = some v → w.threads v = .idle
  | .wait _ a => Quiet w a
  | .destroy a => Quiet w a ∧ ∀ o, w.live a = some o → (∃ b, .started b o ∈ w.events) → Waited w.events o
  | _ => True

/-- All steps of the history are careful. -/
def AllCareful (ops : List Op) : Prop := ∀ pre op post, ops = pre ++ op :: post → Careful (run pre) op

/-- Thread `t` is waiting for service `o`. -/
def WaitingFor (p : Phase) (o : Nat) : Prop :=
  (∃ a, p = .calling a o) ∨ (∃ a id, p = .holding a id o) ∨ (∃ a id, p = .checked a id o) ∨ (∃ a id r, p = .getting a id o r) ∨ ∃ a s, p = .leaving a o s

/-- Thread `t` goes on `n` times. -/
def goes (t : Nat) (n : Nat) (w : World) : World := (List.replicate n (Op.go t)).foldl step w

end SilKit.LifecycleWait.Spec
