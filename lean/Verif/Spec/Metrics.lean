import Verif.Model.Metrics
import Verif.Spec.Logging
/-!
# Specification: metrics

docs/configuration/experimental-configuration.rst, "Metrics for participants": metrics "are collected and distributed to the configured
sinks at the given update interval"; the encoding of values and the lines of the JSON file sink.
-/
namespace SilKit.Metrics.Spec
open SilKit.Metrics
open SilKit.Logging (Text)
open SilKit.Logging.Spec (ws pString)

/-! ## Reports -/

/-- What a history makes of the metric called `name`: its value, and the time of the last change, if there has been one. The first
`get` decides on the kind. -/
def track (name : Text) : Option (Value × Option Nat) → Op → Option (Value × Option Nat)
  | none, .get n k => if joinName n = name then some (.fresh k, none) else none
  | some (v, t), .update n u now => if joinName n = name ∧ v.kind.offers u = true then some (v.apply u, some now) else some (v, t)
  | x, _ => x

def tracked (name : Text) (ops : List Op) : Option (Value × Option Nat) := ops.foldl (track name) none

/-- The clock goes on with every reading, starting after `t`. -/
def Clock : Nat → List Op → Prop
  | _, [] => True
  | t, .get _ _ :: l => Clock t l
  | t, .update _ _ now :: l => t < now ∧ Clock now l
  | t, .submit now :: l => t < now ∧ Clock now l

/-- The time of the last submission, `t` if there is none. -/
def lastSubmission (t : Nat) : List Op → Nat
  | [] => t
  | .submit now :: l => lastSubmission now l
  | _ :: l => lastSubmission t l

/-- The reports about one metric, in order. -/
def reportsOn (name : Text) (messages : List (List Data)) : List Data := messages.flatten.filter (fun d => d.name == name)

/-! ## Processor -/

/-- The data of one origin, one after the other. -/
def dataOf (origin : Text) (l : List (Text × List Data)) : List Data := (l.filter (fun e => e.1 == origin)).flatMap (·.2)

/-- What is handed to the processor; updates that come back from the participant itself do not count. -/
def handed (self : Text) (ops : List ProcOp) : List (Text × List Data) :=
  ops.filterMap (fun o => match o with
    | .process o d => some (o, d)
    | .received o d => if o = self then none else some (o, d)
    | .setSinks => none)

/-! ## Network -/

/-- The messages that a participant submits; empty ones are not passed on. -/
def submissions (p : Nat) (ops : List NetOp) : List (List Data) :=
  ops.filterMap (fun o => match o with | .submit x d => if x = p ∧ d ≠ [] then some d else none | .deliver _ _ => none)

/-- What the files of a participant contain from one origin. -/
def filed (n : Net) (q : Nat) (origin : Text) : List (List Data) := ((n.files q).filter (fun e => e.1 == origin)).map (·.2)

/-! ## JSON -/

inductive Json
  | num (t : Text)
  | str (t : Text)
  | arr (l : List Json)
  | obj (members : List (Text × Json))

def digit (c : Char) : Bool := '0' ≤ c && c ≤ '9'

/-- Digits, at least one. -/
def Digits (t : Text) : Prop := t ≠ [] ∧ ∀ c ∈ t, digit c = true

/-- A number of RFC 8259: sign, integer without leading zeros, fraction, exponent. -/
def Number (t : Text) : Prop :=
  ∃ sign int frac exp, t = sign ++ int ++ frac ++ exp ∧ (sign = [] ∨ sign = ['-']) ∧
    Digits int ∧ (int.head? = some '0' → int = ['0']) ∧
    (frac = [] ∨ ∃ ds, frac = '.' :: ds ∧ Digits ds) ∧
    (exp = [] ∨ ∃ e s ds, exp = e :: s ++ ds ∧ (e = 'e' ∨ e = 'E') ∧ (s = [] ∨ s = ['-'] ∨ s = ['+']) ∧ Digits ds)

/-- The characters of numbers; none of them can follow a number in a JSON text. -/
def numeric (c : Char) : Bool := digit c || c == '-' || c == '+' || c == '.' || c == 'e' || c == 'E'

mutual
/-- `Reads t v rest`: the text `t` starts with the JSON value `v`, what follows is `rest`. Whitespace between tokens is left out: the lines have none. -/
inductive Starts : Text → Json → Text → Prop
  | num {t rest} : Number t → (∀ c, rest.head? = some c → numeric c = false) → Starts (t ++ rest) (.num t) rest
  | str {s t rest} : pString s = some (t, rest) → Starts ('"' :: s) (.str t) rest
  | emptyArr {rest} : Starts ('[' :: ']' :: rest) (.arr []) rest
  | arr {s l rest} : Items s l rest → Starts ('[' :: s) (.arr l) rest
  | emptyObj {rest} : Starts ('{' :: '}' :: rest) (.obj []) rest
  | obj {s l rest} : Members s l rest → Starts ('{' :: s) (.obj l) rest
/-- The elements of an array, with the closing bracket. -/
inductive Items : Text → List Json → Text → Prop
  | last {s v rest} : Starts s v (']' :: rest) → Items s [v] rest
  | more {s v s' l rest} : Starts s v (',' :: s') → Items s' l rest → Items s (v :: l) rest
/-- The members of an object, with the closing brace. -/
inductive Members : Text → List (Text × Json) → Text → Prop
  | last {s k s' v rest} : pString s = some (k, ':' :: s') → Starts s' v ('}' :: rest) → Members ('"' :: s) [(k, v)] rest
  | more {s k s' v s'' l rest} : pString s = some (k, ':' :: s') → Starts s' v (',' :: s'') → Members s'' l rest →
      Members ('"' :: s) ((k, v) :: l) rest
end

/-- The text is a line with the JSON value `v`. -/
def Line (t : Text) (v : Json) : Prop := Starts t v ['\n']

/-- The values of the documentation: an integer, an array of four numbers, an array of strings, a string. -/
def Encodes (num : Stat → Text) : Value → Json → Prop
  | .counter n, j => j = .num (Nat.toDigits 10 n)
  | .statistic s, j => ∃ a b c d, num s = '[' :: a ++ ',' :: b ++ ',' :: c ++ ',' :: d ++ [']'] ∧ j = .arr [.num a, .num b, .num c, .num d]
  | .strings l, j => j = .arr (l.map .str)
  | .attribute t, j => j = .str t

/-- The object of a line, by the documentation. -/
def lineObject (d : Data) (origin : Text) (kind : Text) (value : Json) : Json :=
  .obj [(['t', 's'], .num (Nat.toDigits 10 d.timestamp)), (['p', 'n'], .str origin), (['m', 'n'], .str d.name), (['m', 'k'], .str kind),
    (['m', 'v'], value)]

/-- `num` writes four numbers. -/
def WritesNumbers (num : Stat → Text) : Prop :=
  ∀ s, ∃ a b c d, num s = '[' :: a ++ ',' :: b ++ ',' :: c ++ ',' :: d ++ [']'] ∧ Number a ∧ Number b ∧ Number c ∧ Number d

/-- No control characters. -/
def NoControl (t : Text) : Prop := ∀ c ∈ t, 32 ≤ c.toNat

end SilKit.Metrics.Spec
