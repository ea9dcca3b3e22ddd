import Verif.Model.ConnectPeer
/-!
# Specification of connecting to a peer
-/
namespace SilKit.ConnectPeer.Spec
open SilKit.Uri

def onIn (r : State × List Out) (x : In) : State × List Out := ((r.1.step x).1, r.2 ++ (r.1.step x).2)

/-- Connecting with `size` URIs and this number of attempts: the state and all that happened. -/
def run (size attempts : Nat) (h : List In) : State × List Out := h.foldl onIn (start size attempts, [])

def triedOf : Out → Option Nat
  | .tried i => some i
  | _ => none

/-- The indices of the URIs that were tried. -/
def tries (t : List Out) : List Nat := t.filterMap triedOf

def isEnd : Out → Bool
  | .tried _ => false
  | _ => true

/-- The calls of the listener. -/
def ends (t : List Out) : List Out := t.filter isEnd

/-- All URIs, in order, as often as there are attempts. -/
def plan (size attempts : Nat) : List Nat := (List.replicate (max attempts 1) (List.range size)).flatten

/-- Nothing is left to be done. -/
def Idle (s : State) : Prop := s.tasks = [] ∧ s.connector = false

/-- No connector fails before `AsyncConnect` returns. -/
def Async (h : List In) : Prop := In.go .failsAtOnce ∉ h

/-- Whether something of this kind can happen in a state: a call is to be made, or there is a connector that reports. -/
def Possible (s : State) : In → Prop
  | .go _ => s.tasks ≠ []
  | _ => s.tasks = [] ∧ s.connector = true

/-- A history in which only what is possible happens. -/
def Busy (size attempts : Nat) (h : List In) : Prop := ∀ a x b, h = a ++ x :: b → Possible (run size attempts a).1 x

end SilKit.ConnectPeer.Spec
