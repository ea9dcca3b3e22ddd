/-!
# Connection URIs (util/Uri.cpp)

Strings are lists of characters. The QNX case of `local://` paths is not modelled.
-/
namespace SilKit.Uri

abbrev Str := List Char

/-- The tests of characters in `ValidateAndTransformSimulationName`, Uri.cpp:42-44. A `char` outside of ASCII fails all of them. -/
def isLegal (ch : Char) : Bool :=
  (decide ('a' ≤ ch) && decide (ch ≤ 'z')) || (decide ('A' ≤ ch) && decide (ch ≤ 'Z')) || (decide ('0' ≤ ch) && decide (ch ≤ '9')) ||
    ch == '_' || ch == '-' || ch == '.' || ch == '~'

/-- The loop of `ValidateAndTransformSimulationName`, Uri.cpp:22-54, from one character on; `first` is `pos == 0`. `none` if it throws. -/
def validateFrom (first : Bool) : Str → Option Str
  | [] => some []
  | ch :: rest =>
      if ch = '/' then
        if rest.head? = some '/' then none
        else if first then validateFrom false rest
        else (validateFrom false rest).map (ch :: ·)
      else if isLegal ch then (validateFrom false rest).map (ch :: ·)
      else none

/-- `ValidateAndTransformSimulationName`, Uri.cpp:18-57. -/
def validate (name : Str) : Option Str := validateFrom true name

/-- `UriType`, Uri.hpp:25-31. -/
inductive Kind
  | undefined
  | silkit
  | tcp
  | local
deriving Repr, DecidableEq

/-- `Uri`, Uri.hpp:70-76. -/
structure Uri where
  kind : Kind := .undefined
  scheme : Str := []
  host : Str := []
  port : Option Nat := none
  path : Str := []
  encoded : Str := []
deriving Repr, DecidableEq

/-- `Uri::Port`, Uri.cpp:75-90. -/
def Uri.portOf (u : Uri) : Nat :=
  match u.port with
  | some p => p
  | none => if u.kind = .local then 0 else 8500

/-- `rawUri.find("://")`, Uri.cpp:133-142: what is before and what is after it. -/
def splitScheme : Str → Option (Str × Str)
  | ':' :: '/' :: '/' :: rest => some ([], rest)
  | [] => none
  | ch :: rest => (splitScheme rest).map fun p => (ch :: p.1, p.2)

/-- Uri.cpp:144-156. -/
def kindOf (scheme : Str) : Kind :=
  if scheme = "tcp".toList then .tcp
  else if scheme = "silkit".toList then .silkit
  else if scheme = "local".toList then .local
  else .undefined

/-- `rawUri.rfind(":")`, Uri.cpp:185-187: what is before and what is after it. -/
def splitPort : Str → Option (Str × Str)
  | [] => none
  | ch :: rest =>
      match splitPort rest with
      | some p => some (ch :: p.1, p.2)
      | none => if ch = ':' then some ([], rest) else none

def isSpace (ch : Char) : Bool := ch == ' ' || ch == '\t' || ch == '\n' || ch == '\x0b' || ch == '\x0c' || ch == '\r'

def isDigit (ch : Char) : Bool := decide ('0' ≤ ch) && decide (ch ≤ '9')

def digitVal (acc : Nat) (ch : Char) : Nat := acc * 10 + (ch.toNat - '0'.toNat)

/-- The number at the beginning of a string. -/
def decimal (s : Str) : Option Nat := if s.takeWhile isDigit = [] then none else some ((s.takeWhile isDigit).foldl digitVal 0)

def bounded (n : Nat) : Option Nat := if n < 65536 then some n else none

/-- `portStr >> port` for a `uint16_t`, Uri.cpp:190-198: white space is skipped, there may be a sign, and what follows the digits is left in the stream
(`std::num_get` in the "C" locale; a negative number is taken modulo 65536). `none` if the stream fails. -/
def readPort (s : Str) : Option Nat :=
  match s.dropWhile isSpace with
  | '-' :: rest => (decimal rest).bind fun n => (bounded n).map fun n => (65536 - n) % 65536
  | '+' :: rest => (decimal rest).bind bounded
  | rest => (decimal rest).bind bounded

/-- The host and the port, Uri.cpp:184-210. An empty port string does not pass `readPort`. -/
def authority (s : Str) : Option (Str × Option Nat) :=
  match splitPort s with
  | none => if s = [] then none else some (s, none)
  | some (host, port) =>
      match readPort port with
      | none => none
      | some p => if host = [] then none else some (host, some p)

/-- The part of the string from the first `/` on, Uri.cpp:176-183. -/
def simulation (rest : Str) : Option Str := if rest = [] then some [] else validate rest

/-- `Uri::Parse`, Uri.cpp:125-213; `none` if it throws. -/
def parse (raw : Str) : Option Uri :=
  match splitScheme raw with
  | none => none
  | some (scheme, rest) =>
      if kindOf scheme = .local then some { kind := .local, scheme := scheme, path := rest, encoded := raw }
      else
        match simulation (rest.dropWhile (· != '/')) with
        | none => none
        | some path =>
            match authority (rest.takeWhile (· != '/')) with
            | none => none
            | some (host, port) => some { kind := kindOf scheme, scheme := scheme, host := host, port := port, path := path, encoded := raw }

/-- How `fmt` and streams print a `uint16_t`. -/
def print (port : Nat) : Str := Nat.toDigits 10 port

/-- `Uri::Uri(host, port)`, Uri.cpp:118-123. -/
def make (host : Str) (port : Nat) : Option Uri := parse ("silkit://".toList ++ host ++ ":".toList ++ print port)

/-- `Uri::MakeSilKit`, Uri.cpp:215-218. -/
def makeSilKit (host : Str) (port : Nat) (name : Str) : Option Uri :=
  match validate name with
  | none => none
  | some n => parse ("silkit://".toList ++ host ++ ":".toList ++ print port ++ "/".toList ++ n)

/-- `Uri::MakeTcp`, Uri.cpp:220-223. -/
def makeTcp (host : Str) (port : Nat) : Option Uri := parse ("tcp://".toList ++ host ++ ":".toList ++ print port)

end SilKit.Uri
