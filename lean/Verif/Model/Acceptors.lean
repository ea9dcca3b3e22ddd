import Verif.Model.Uri
/-!
# Which addresses of a participant others are told (core/vasio/TransformAcceptorUris.cpp)

`asio::ip::make_address` is a parameter of the model.
-/
namespace SilKit.Acceptors
open SilKit.Uri

/-- What `asio::ip::address` tells about an address. -/
structure Address where
  v4 : Bool
  v6 : Bool
  unspecified : Bool
  loopback : Bool
deriving Repr, DecidableEq

/-- `UriInfo`, TransformAcceptorUris.hpp. -/
structure Info where
  isLocal : Bool := false
  ip4 : Bool := false
  ip6 : Bool := false
  catchall : Bool := false
  loopback : Bool := false
deriving Repr, DecidableEq

/-- TransformAcceptorUris.cpp:36-43. -/
def unbracket (host : Str) : Str := host.filter fun c => !(c == '[' || c == ']')

/-- `GetUriInfo`, TransformAcceptorUris.cpp:34-74. `address` is `asio::ip::make_address`, `none` if it throws. -/
def getInfo (address : Str → Option Address) (u : Uri) : Info :=
  match u.kind with
  | .local => { isLocal := true }
  | .tcp =>
      match address (unbracket u.host) with
      | some a => { ip4 := a.v4, ip6 := a.v6, catchall := a.unspecified, loopback := a.loopback, isLocal := a.loopback }
      | none => {}
  | _ => {}

/-- `std::less` for strings. -/
def strLt : Str → Str → Bool
  | [], [] => false
  | [], _ :: _ => true
  | _ :: _, [] => false
  | a :: as, b :: bs => if a.toNat < b.toNat then true else if b.toNat < a.toNat then false else strLt as bs

/-- `std::set<Uri, UriLexicographicLess>::emplace`, TransformAcceptorUris.cpp:24-30. -/
def insertUri (u : Uri) : List Uri → List Uri
  | [] => [u]
  | v :: vs => if strLt u.encoded v.encoded then u :: v :: vs else if strLt v.encoded u.encoded then v :: insertUri u vs else v :: vs

/-- `acceptNewTcpUri`, TransformAcceptorUris.cpp:96-106; `none` if `MakeTcp` throws. -/
def acceptTcp (host : Str) (port : Nat) (set : Option (List Uri)) : Option (List Uri) :=
  match set, makeTcp host port with
  | some l, some u => some (insertUri u l)
  | _, _ => none

def when (b : Bool) (f : Option (List Uri) → Option (List Uri)) (set : Option (List Uri)) : Option (List Uri) := if b then f set else set

/-- What is made of a catch-all address, TransformAcceptorUris.cpp:134-179. -/
def acceptCatchall (src dst : Uri) (si di ui : Info) (port : Nat) (set : Option (List Uri)) : Option (List Uri) :=
  when (ui.ip6 && si.ip6) (acceptTcp src.host port)
    (when (ui.ip4 && si.ip4) (acceptTcp src.host port)
      (when (si.isLocal && (ui.ip6 && di.ip6)) (acceptTcp dst.host port)
        (when (si.isLocal && (ui.ip4 && di.ip4)) (acceptTcp dst.host port)
          (when (si.isLocal && (di.isLocal && ui.ip6)) (acceptTcp "[::1]".toList port)
            (when (si.isLocal && (di.isLocal && ui.ip4)) (acceptTcp "127.0.0.1".toList port) set)))))

/-- The body of the loop over the acceptors, TransformAcceptorUris.cpp:123-184. -/
def acceptOne (address : Str → Option Address) (src dst : Uri) (set : Option (List Uri)) (s : Str) : Option (List Uri) :=
  match parse s with
  | none => none
  | some u =>
      if (getInfo address u).catchall then acceptCatchall src dst (getInfo address src) (getInfo address dst) (getInfo address u) u.portOf set
      else set.map (insertUri u)

/-- The penalties, TransformAcceptorUris.cpp:194-222. -/
def penalty (address : Str → Option Address) (dst u : Uri) : Nat :=
  if u.kind = .local then 0
  else if (getInfo address u).loopback then (if (getInfo address dst).isLocal then 1000 else 2000)
  else (if (getInfo address dst).isLocal then 2000 else 1000)

/-- `std::multimap::emplace`: after all with the same key or a lower one. -/
def insertKey (k : Nat) (s : Str) : List (Nat × Str) → List (Nat × Str)
  | [] => [(k, s)]
  | p :: ps => if k < p.1 then (k, s) :: p :: ps else p :: insertKey k s ps

def order (address : Str → Option Address) (dst : Uri) (us : List Uri) : List (Nat × Str) :=
  us.foldl (fun m u => insertKey (penalty address dst u) u.encoded m) []

/-- `TransformAcceptorUris`, TransformAcceptorUris.cpp:76-231; `none` if it throws. -/
def transform (address : Str → Option Address) (remote localAddr : Str) (acceptors : List Str) : Option (List Str) :=
  match parse remote, parse localAddr with
  | some src, some dst =>
      if (src.kind = .local ∨ src.kind = .tcp) ∧ (dst.kind = .local ∨ dst.kind = .tcp) then
        (acceptors.foldl (acceptOne address src dst) (some [])).map fun us => (order address dst us).map (·.2)
      else none
  | _, _ => none

end SilKit.Acceptors
