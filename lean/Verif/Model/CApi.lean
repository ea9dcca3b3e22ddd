import Verif.Model.HourglassValues

/-!
# The functions of the C interface: what they check before they work

Every function of the C interface (`SilKit_ReturnCode SilKit_…(…)`) first looks at its arguments with the macros of
SilKit/source/capi/CapiImpl.hpp, then follows the pointers it was given, calls the library, and stores results and handlers. This module defines what
the single statements do; `Model/CApiTable.lean` has the bodies of all 146 functions.

Simplified: an argument is seen as far as the functions look at it before the library is called: which pointers are null, and which numbers (struct
identifiers, `SilKit_Bool`s, lengths, enumerators) stand where. Pointers that are neither null nor valid cannot be recognised by any program and are
not modelled. What the library does with the call is `Service`: any result.
-/
namespace SilKit.CApi

open HourglassValues (Exn Code)

/-- A pointer or a number in the arguments of a call: the position of the argument (from 0) and the members followed from there:
`update->payload.data` is `⟨1, ["payload.data"]⟩`, `config->clusterParams` is `⟨1, ["clusterParams"]⟩`. -/
structure Place where
  arg : Nat
  path : List String := []
deriving Repr, DecidableEq

/-- Arguments of a call. -/
structure Args where
  /-- The pointer is null. -/
  null : Place → Bool
  /-- The number: a `SilKit_Bool`, a length, an enumerator; under the member `structHeader`: the identifier `structHeader.version`. -/
  num : Place → Nat
  /-- The pointer member of the element with this index of the array is null. -/
  elemNull : Place → Nat → String → Bool

/-- What the library does when it is called: returns, or throws. -/
inductive Service
  | done
  | threw (e : Exn)
deriving Repr, DecidableEq

/-- `SK_ID_GET_SERVICE`, `SK_ID_GET_DATATYPE`, `SK_ID_GET_VERSION`, InterfaceIdentifiers.h:40-45. -/
def serviceOf (id : Nat) : Nat := id / 2 ^ 40 % 256
def datatypeOf (id : Nat) : Nat := id / 2 ^ 32 % 256
def versionOf (id : Nat) : Nat := id / 2 ^ 24 % 256

/-- `SK_ID_IS_VALID`, InterfaceIdentifiers.h:53-56: a known service, any data type and version but 0, and the letters S, K. -/
def idValid (id : Nat) : Bool :=
  decide (0 < serviceOf id) && decide (serviceOf id < 9) && decide (datatypeOf id ≠ 0) && decide (versionOf id ≠ 0)
    && decide (id / 2 ^ 56 % 256 = 83) && decide (id / 2 ^ 48 % 256 = 75)

/-- `SK_ID_MAKE`, InterfaceIdentifiers.h:47-51. -/
def idMake (service datatype version : Nat) : Nat :=
  83 * 2 ^ 56 + 75 * 2 ^ 48 + service % 256 * 2 ^ 40 + datatype % 256 * 2 ^ 32 + version % 256 * 2 ^ 24

/-- The statements of the functions. -/
inductive Stmt
  /-- `ASSERT_VALID_POINTER_PARAMETER`, `ASSERT_VALID_OUT_PARAMETER`, `ASSERT_VALID_HANDLER_PARAMETER`, CapiImpl.hpp:84-124. -/
  | ptr (p : Place)
  /-- `if (p == nullptr) return SilKit_ReturnCode_BADPARAMETER;`, CapiUtils.cpp:33-36. -/
  | ptrSilent (p : Place)
  /-- `ASSERT_VALID_STRUCT_HEADER`, `ASSERT_VALID_PLAIN_STRUCT_HEADER`, CapiImpl.hpp:135-153, 173-189. -/
  | header (p : Place)
  /-- `ASSERT_VALID_BOOL_PARAMETER`, CapiImpl.hpp:126-133. -/
  | bool (p : Place)
  /-- `if (flag) { ASSERT_VALID_POINTER_PARAMETER(p); }`, CapiFlexray.cpp:185-187. -/
  | ptrIf (flag p : Place)
  /-- The value behind the pointer is used. -/
  | read (p : Place)
  /-- The value behind the pointer is used as a struct with this identifier. -/
  | view (p : Place) (id : Nat)
  /-- The elements of an array are used, with their pointer members. -/
  | array (p count : Place) (members : List String)
  /-- `switch` with `default: return SilKit_ReturnCode_BADPARAMETER;`. -/
  | oneOf (p : Place) (values : List Nat)
  /-- `switch (SK_ID_GET_DATATYPE(cEvent->version))` with `default: break;`: the struct is used as the event of this service with this data type. -/
  | event (p : Place) (service : Nat) (datatypes : List Nat)
  /-- The cases of that `switch` that follow a pointer of the event. -/
  | readIf (p : Place) (datatypes : List Nat) (q : Place)
  /-- The library is called: the work of the function. -/
  | call
  /-- A result is stored behind the pointer. -/
  | write (p : Place)
  /-- The text is copied to where the pointer behind the pointer points, unless there is none or no space: CapiParticipant.cpp:156-160. -/
  | copyOut (p size : Place)
  /-- The handler is stored: it is called later. -/
  | keep (p : Place)
deriving Repr, DecidableEq

/-- A function of the C interface. -/
structure Fn where
  name : String
  body : List Stmt
deriving Repr

/-- How far a call has come: `returned code text`: with this code, and having set the error string (`SilKit_GetLastErrorString`) or not. -/
inductive End
  | running
  | returned (code : Code) (text : Bool)
  | ub
deriving Repr, DecidableEq

/-- A call: how it ended, whether the library was called, the results stored, the handlers stored. -/
structure Call where
  ended : End
  called : Bool
  written : List Place
  kept : List Place
deriving Repr, DecidableEq

/-- The member of the struct behind a pointer. -/
def Place.dot (p : Place) (m : String) : Place := ⟨p.arg, p.path ++ [m]⟩

/-- The pointers that have to be followed to see the value at this place. -/
def Place.before (p : Place) : List Place := (List.range p.path.length).map (fun n => ⟨p.arg, p.path.take n⟩)

/-- None of them is null. -/
def reach (a : Args) (p : Place) : Bool := p.before.all (fun q => !a.null q)

/-- The place can be seen and the pointer is not null. -/
def live (a : Args) (p : Place) : Bool := reach a p && !a.null p

/-- `throw SilKit::CapiBadParameterError`, caught by `CAPI_CATCH_EXCEPTIONS`: CapiImpl.hpp:13-20. -/
def Call.bad (c : Call) : Call := { c with ended := .returned .badParameter true }

def Call.broken (c : Call) : Call := { c with ended := .ub }

/-- An exception of the library, caught by `CAPI_CATCH_EXCEPTIONS`: CapiImpl.hpp:13-82; `catch (...)` does not set the error string. -/
def Call.failed (c : Call) (e : Exn) : Call :=
  { c with ended := .returned (HourglassValues.caught "" e "").2 (decide (e ≠ .other)) }

/-- One statement of a running call; see `Stmt` for the lines. -/
def exec (a : Args) (s : Service) (c : Call) : Stmt → Call
  | .ptr p => if !reach a p then c.broken else if a.null p then c.bad else c
  | .ptrSilent p => if !reach a p then c.broken else if a.null p then { c with ended := .returned .badParameter false } else c
  | .header p => if !live a p then c.broken else if idValid (a.num (p.dot "structHeader")) then c else c.bad
  | .bool p => if !reach a p then c.broken else if a.num p ≤ 1 then c else c.bad
  | .ptrIf f p => if !reach a f || !reach a p then c.broken else if a.num f ≠ 0 && a.null p then c.bad else c
  | .read p => if live a p then c else c.broken
  | .view p id =>
    if live a p && (a.num (p.dot "structHeader") == id || !idValid (a.num (p.dot "structHeader"))) then c else c.broken
  | .array p n ms =>
    if reach a p && reach a n
        && (a.num n == 0 || (!a.null p && (List.range (a.num n)).all (fun i => ms.all (fun m => !a.elemNull p i m)))) then c
    else c.broken
  | .oneOf p vs => if !reach a p then c.broken else if a.num p ∈ vs then c else { c with ended := .returned .badParameter false }
  | .event p sv ks =>
    if !live a p then c.broken
    else if !decide (datatypeOf (a.num (p.dot "structHeader")) ∈ ks) then { c with ended := .returned .success false }
    else if serviceOf (a.num (p.dot "structHeader")) = sv then c else c.broken
  | .readIf p ks q =>
    if !live a p then c.broken
    else if decide (datatypeOf (a.num (p.dot "structHeader")) ∈ ks) && !live a q then c.broken else c
  | .call =>
    match s with
    | .done => { c with called := true }
    | .threw e => { c with called := true }.failed e
  | .write p => if live a p then { c with written := c.written ++ [p] } else c.broken
  | .copyOut p n =>
    if !live a n then c.broken
    else if !a.null p && a.num n ≠ 0 && a.null (p.dot "*") then c.broken else c
  | .keep p => { c with kept := c.kept ++ [p] }

/-- A call that has returned (or broken) does nothing more. -/
def step (a : Args) (s : Service) (c : Call) (x : Stmt) : Call :=
  match c.ended with
  | .running => exec a s c x
  | _ => c

/-- `return SilKit_ReturnCode_SUCCESS;` -/
def finish (c : Call) : Call :=
  match c.ended with
  | .running => { c with ended := .returned .success false }
  | _ => c

/-- A whole call. -/
def invoke (f : Fn) (a : Args) (s : Service) : Call :=
  finish (f.body.foldl (step a s) ⟨.running, false, [], []⟩)

end SilKit.CApi
