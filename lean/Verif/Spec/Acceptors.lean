import Verif.Model.Acceptors
/-!
# Specification of the addresses that others are told
-/
namespace SilKit.Acceptors.Spec
open SilKit.Uri

variable (address : Str → Option Address)

/-- The address of a `tcp` URI, if its host is one. -/
def addressOf (u : Uri) : Option Address := if u.kind = .tcp then address (u.host.filter fun c => c != '[' && c != ']') else none

def IsCatchall (u : Uri) : Prop := ∃ a, addressOf address u = some a ∧ a.unspecified = true
def IsLoopback (u : Uri) : Prop := ∃ a, addressOf address u = some a ∧ a.loopback = true
def IsV4 (u : Uri) : Prop := ∃ a, addressOf address u = some a ∧ a.v4 = true
def IsV6 (u : Uri) : Prop := ∃ a, addressOf address u = some a ∧ a.v6 = true

/-- On the host of the registry: by a domain socket or by the loopback device. -/
def IsHere (u : Uri) : Prop := u.kind = .local ∨ IsLoopback address u

def SameFamily (u v : Uri) : Prop := (IsV4 address u ∧ IsV4 address v) ∨ (IsV6 address u ∧ IsV6 address v)

/-- The hosts that replace the catch-all address `u` of a participant that is connected to the registry from `src`, for one that has connected to
`dst`. -/
def Replaces (src dst u : Uri) (host : Str) : Prop :=
  (IsHere address src ∧ IsHere address dst ∧ IsV4 address u ∧ host = "127.0.0.1".toList) ∨
  (IsHere address src ∧ IsHere address dst ∧ IsV6 address u ∧ host = "[::1]".toList) ∨
  (IsHere address src ∧ SameFamily address u dst ∧ host = dst.host) ∨
  (SameFamily address u src ∧ host = src.host)

/-- What is told of the acceptor `s`. -/
def Told (src dst : Uri) (s t : Str) : Prop :=
  ∃ u, parse s = some u ∧
    ((¬ IsCatchall address u ∧ t = s) ∨
     (IsCatchall address u ∧ ∃ host, Replaces address src dst u host ∧ t = "tcp://".toList ++ host ++ ":".toList ++ Nat.toDigits 10 u.portOf))

end SilKit.Acceptors.Spec
