import Verif.Model.Registration
/-!
# Specification of service registration (C23)
-/
namespace SilKit.Registration.Spec

def run (h : List Event) : Conn × List Out :=
  h.foldl (fun r e => ((on r.1 e).1, r.2 ++ (on r.1 e).2)) ({}, [])

def trace (h : List Event) : List Out := (run h).2

def connStep (p : Nat) (c : Bool) : Out → Bool
  | .joined q => if q = p then true else c
  | .gone q => if q = p then false else c
  | _ => c

/-- Peer `p` is connected after `t`. -/
def connected (t : List Out) (p : Nat) : Bool := t.foldl (connStep p) false

def callStep (c : Option Nat) : Out → Option Nat
  | .called true k _ => some k
  | .returned _ => none
  | _ => c

/-- The synchronous call that has not returned after `t`. -/
def outstanding (t : List Out) : Option Nat := t.foldl callStep none

/-- Services are registered by one thread: a synchronous call is made only when the previous one has returned. -/
def OneThread (h : List Event) : Prop :=
  ∀ a b k rs, h = a ++ .register true k rs :: b → outstanding (trace a) = none

/-- Subscription `s` at peer `p` is settled in `t`: acknowledged, or the peer is gone. -/
def Settled (t : List Out) (p s : Nat) : Prop := Out.acked p s ∈ t ∨ Out.gone p ∈ t

/-- In `t`, every peer connected when the registrations of a kind were sent has settled them. -/
def AllSettled (sync : Bool) (t : List Out) : Prop :=
  ∀ t1 t2 k subs, t = t1 ++ .subscribed sync k subs :: t2 → ∀ p, connected t1 p = true → ∀ s ∈ subs, Settled t2 p s

/-- Events of synchronous registrations. -/
def SyncEvent : Out → Prop
  | .called true _ _ | .subscribed true _ _ | .returned _ | .exception => True
  | _ => False

/-- What the return of call `k` after `a` requires: the call was made, its new receivers were subscribed at all peers (the others had
been subscribed before), and all peers then connected have settled these subscriptions. In between there is no other synchronous
registration, and the call has not returned before. -/
def MayReturn (a : List Out) (k : Nat) : Prop :=
  ∃ t1 rs t2 subs t3, a = t1 ++ .called true k rs :: (t2 ++ .subscribed true k subs :: t3) ∧
    (∀ o ∈ t2 ++ t3, ¬ SyncEvent o) ∧
    (∀ s, s ∈ subs ↔ s ∈ rs ∧ ∀ b k' subs', Out.subscribed b k' subs' ∈ t1 ++ .called true k rs :: t2 → s ∉ subs') ∧
    (∀ p, connected (t1 ++ .called true k rs :: t2) p = true → ∀ s ∈ subs, Settled t3 p s)

end SilKit.Registration.Spec
