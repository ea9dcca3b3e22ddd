import Verif.Model.Uri
/-!
# Specification of connection URIs
-/
namespace SilKit.Uri.Spec

/-- The characters of simulation names. -/
def alphabet : Str := "abcdefghijklmnopqrstuvwxyzABCDEFGHIJKLMNOPQRSTUVWXYZ0123456789_-.~/".toList

/-- Legal characters, no consecutive slashes. -/
def Legal (name : Str) : Prop := (∀ ch ∈ name, ch ∈ alphabet) ∧ ∀ a b, name ≠ a ++ '/' :: '/' :: b

/-- Names as they are compared: a slash at the beginning does not count. -/
def NoRoot (name : Str) : Prop := name.head? ≠ some '/'

def dropRoot (name : Str) : Str := if name.head? = some '/' then name.drop 1 else name

/-- The first `://` of `s` separates `scheme` and `rest`. -/
def FirstSep (s scheme rest : Str) : Prop :=
  s = scheme ++ "://".toList ++ rest ∧ ∀ a b, s = a ++ "://".toList ++ b → scheme.length ≤ a.length

def spaces : Str := [' ', '\t', '\n', '\x0b', '\x0c', '\r']

/-- The schemes that have a meaning. -/
def schemes : List (Str × Kind) := [("silkit".toList, .silkit), ("tcp".toList, .tcp), ("local".toList, .local)]

/-- The text of a port: white space, a sign, digits, anything. The number is taken modulo 65536 if the sign is a minus. -/
def PortText (s : Str) (p : Nat) : Prop :=
  ∃ sp sign ds more : Str, s = sp ++ sign ++ ds ++ more ∧ (∀ ch ∈ sp, ch ∈ spaces) ∧ (sign = [] ∨ sign = ['+'] ∨ sign = ['-']) ∧ ds ≠ [] ∧
    (∀ ch ∈ ds, ch.isDigit = true) ∧ (∀ ch, more.head? = some ch → ch.isDigit = false) ∧
    Nat.ofDigitChars 10 ds 0 < 65536 ∧ p = if sign = ['-'] then (65536 - Nat.ofDigitChars 10 ds 0) % 65536 else Nat.ofDigitChars 10 ds 0

/-- `s` is a URI with this host, port and simulation name. -/
def Grammar (rest host : Str) (port : Option Nat) (path : Str) : Prop :=
  host ≠ [] ∧ ∃ auth slash : Str, rest = auth ++ slash ∧ '/' ∉ auth ∧
    ((slash = [] ∧ path = []) ∨ (slash = '/' :: path ∧ Legal path ∧ NoRoot path)) ∧
    ((':' ∉ auth ∧ host = auth ∧ port = none) ∨ ∃ text p, auth = host ++ ':' :: text ∧ ':' ∉ text ∧ PortText text p ∧ port = some p)

end SilKit.Uri.Spec
