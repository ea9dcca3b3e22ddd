/-!
# Model: the command line of the utilities

`SilKit/source/util/CommandlineParser.hpp`, and what `sil-kit-registry`, `sil-kit-monitor` and `sil-kit-system-controller` declare.

Simplifications: texts are lists of characters instead of bytes; what is assigned to an argument is kept as the list of all assignments, of which
the last one counts (a list takes all of them); usage texts are left out.
-/
namespace SilKit.CommandLine

abbrev Text := List Char

/-- `ArgumentKind`, CommandlineParser.hpp:161-167. -/
inductive Kind | positional | list | option | flag
deriving Repr, DecidableEq

/-- `Positional`, `PositionalList`, `Option`, `Flag`, CommandlineParser.hpp:226-371. -/
structure Decl where
  kind : Kind
  name : Text
  short : Text := []
  default_ : Text := []
deriving Repr, DecidableEq

/-- An assignment to the argument with this index. -/
inductive Assign
  /-- To a `Positional`, or an element of a `PositionalList`. -/
  | word (i : Nat) (v : Text)
  | option (i : Nat) (v : Text)
  | flag (i : Nat)
deriving Repr, DecidableEq

/-- The three exceptions. -/
inductive Error
  | bad (a : Text) | unknown (a : Text) | withoutValue (a : Text)
deriving Repr, DecidableEq

/-- `GetByName`, `GetByShortName`, CommandlineParser.hpp:373-392. -/
def find (ds : List Decl) (k : Kind) (short : Bool) (name : Text) : Option Nat :=
  ds.findIdx? (fun d => d.kind = k && if short then d.short ≠ [] && d.short = name else d.name = name)

def isPositional (d : Decl) : Bool := d.kind = .positional || d.kind = .list

/-- The next `Positional` or `PositionalList` from an index on, CommandlineParser.hpp:72-74, 97-99; the number of arguments stands for
`_arguments.end()`. -/
def nextPositional (ds : List Decl) (i : Nat) : Nat := i + (ds.drop i).findIdx isPositional

/-- The prefix of an argument: none for a positional argument; otherwise the rest, and whether it is the short form,
CommandlineParser.hpp:79-91. -/
def strip : Text → Option (Text × Bool)
  | '-' :: '-' :: c :: cs => some (c :: cs, false)
  | '-' :: c :: cs => some (c :: cs, true)
  | _ => none

/-- `ParseArguments`, CommandlineParser.hpp:70-153; `pos` is `positionalArgumentIt`. -/
def parse (ds : List Decl) : Nat → List Text → Except Error (List Assign)
  | _, [] => .ok []
  | pos, a :: rest =>
    match strip a with
    | none =>
      match ds[pos]? with
      | none => .error (.bad a)
      | some d => (parse ds (if d.kind = .positional then nextPositional ds (pos + 1) else pos) rest).map (.word pos a :: ·)
    | some (arg, short) =>
      if '=' ∈ arg then
        match find ds .option short (arg.takeWhile (· ≠ '=')) with
        | none => .error (.unknown a)
        | some i => (parse ds pos rest).map (.option i ((arg.dropWhile (· ≠ '=')).drop 1) :: ·)
      else
        match find ds .option short arg with
        | some i =>
          match rest with
          | [] => .error (.withoutValue a)
          | v :: rest => (parse ds pos rest).map (.option i v :: ·)
        | none =>
          match find ds .flag short arg with
          | some i => (parse ds pos rest).map (.flag i :: ·)
          | none => .error (.unknown a)

/-- The whole: `argv` without the name of the program. -/
def run (ds : List Decl) (argv : List Text) : Except Error (List Assign) := parse ds (nextPositional ds 0) argv

/-- `_value` of an option or a positional argument, and `_values` of a list. -/
def optionValues (as : List Assign) (i : Nat) : List Text :=
  as.filterMap (fun a => match a with | .option j v => if j = i then some v else none | _ => none)

def words (as : List Assign) (i : Nat) : List Text :=
  as.filterMap (fun a => match a with | .word j v => if j = i then some v else none | _ => none)

/-- `Get<Option>(name).Value()`, CommandlineParser.hpp:299-302; `none` models the exception for an unknown argument. -/
def optionValue (ds : List Decl) (as : List Assign) (name : Text) : Option Text :=
  (find ds .option false name).map (fun i =>
    let v := ((optionValues as i).getLast?).getD []
    if v = [] then ((ds[i]?).map (·.default_)).getD [] else v)

/-- `Get<Option>(name).HasValue()`, 303-306. -/
def optionGiven (ds : List Decl) (as : List Assign) (name : Text) : Option Bool :=
  (find ds .option false name).map (fun i => decide (((optionValues as i).getLast?).getD [] ≠ []))

/-- `Get<Flag>(name).Value()`, 359-362. -/
def flagValue (ds : List Decl) (as : List Assign) (name : Text) : Option Bool :=
  (find ds .flag false name).map (fun i => as.contains (.flag i))

/-- `Get<Positional>(name).Value()`, 238-241. -/
def positionalValue (ds : List Decl) (as : List Assign) (name : Text) : Option Text :=
  (find ds .positional false name).map (fun i => ((words as i).getLast?).getD [])

/-- `Get<PositionalList>(name).Values()`, 268-271. -/
def listValues (ds : List Decl) (as : List Assign) (name : Text) : Option (List Text) :=
  (find ds .list false name).map (fun i => words as i)

/-! ## The declarations of the utilities -/

/-- Registry.cpp:355-402 (without support for Windows services). -/
def registryArguments : List Decl :=
  [⟨.flag, "version".toList, "v".toList, []⟩, ⟨.flag, "help".toList, "h".toList, []⟩,
   ⟨.option, "listen-uri".toList, "u".toList, "silkit://localhost:8500".toList⟩, ⟨.option, "generate-configuration".toList, "g".toList, []⟩,
   ⟨.option, "dashboard-uri".toList, "d".toList, "http://localhost:8082".toList⟩, ⟨.option, "log".toList, "l".toList, "info".toList⟩,
   ⟨.option, "registry-configuration".toList, "c".toList, []⟩, ⟨.option, "directory".toList, "C".toList, []⟩,
   ⟨.flag, "enable-dashboard".toList, "Q".toList, []⟩, ⟨.flag, "use-signal-handler".toList, "s".toList, []⟩,
   ⟨.option, "x-status-file".toList, [], []⟩]

/-- PassiveSystemMonitor.cpp:59-81. -/
def monitorArguments : List Decl :=
  [⟨.flag, "version".toList, "v".toList, []⟩, ⟨.flag, "help".toList, "h".toList, []⟩,
   ⟨.option, "connect-uri".toList, "u".toList, "silkit://localhost:8500".toList⟩, ⟨.option, "name".toList, "n".toList, "SystemMonitor".toList⟩,
   ⟨.option, "loglevel".toList, "l".toList, []⟩, ⟨.option, "configuration".toList, "c".toList, []⟩,
   ⟨.flag, "autonomous".toList, "a".toList, []⟩, ⟨.flag, "coordinated".toList, "r".toList, []⟩, ⟨.flag, "sync".toList, "s".toList, []⟩]

/-- SystemController.cpp:273-300. -/
def controllerArguments : List Decl :=
  [⟨.flag, "version".toList, "v".toList, []⟩, ⟨.flag, "help".toList, "h".toList, []⟩,
   ⟨.option, "connect-uri".toList, "u".toList, "silkit://localhost:8500".toList⟩, ⟨.option, "name".toList, "n".toList, "SystemController".toList⟩,
   ⟨.option, "configuration".toList, "c".toList, []⟩, ⟨.option, "log".toList, "l".toList, "info".toList⟩,
   ⟨.list, "participantNames".toList, [], []⟩, ⟨.flag, "non-interactive".toList, "ni".toList, []⟩]

end SilKit.CommandLine
