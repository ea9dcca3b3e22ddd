import Verif.Model.RegistryTool
/-!
# Specification: what others can rely on when they start `sil-kit-registry` and look at its files
-/
namespace SilKit.RegistryTool.Spec
open SilKit SilKit.ConfigText SilKit.RegistryTool

/-- The files of several registries are different files, and the temporary names were not drawn twice. Registries may generate the same
configuration file. -/
structure Apart (os : Nat → CommandLine) (es : Nat → Luck) : Prop where
  tmps : ∀ i j, tmpPath (os i) (es i) = tmpPath (os j) (es j) → i = j
  tmpGenerated : ∀ i j, tmpPath (os i) (es i) ≠ (os j).generate
  tmpStatus : ∀ i j, tmpPath (os i) (es i) ≠ (os j).statusFile
  statusGenerated : ∀ i j, (os i).statusFile ≠ [] → (os i).statusFile ≠ (os j).generate
  statuses : ∀ i j, (os i).statusFile ≠ [] → (os i).statusFile = (os j).statusFile → i = j

/-- The users leave the temporary files and the status files alone; what they do with generated files does not matter. -/
def Polite (os : Nat → CommandLine) (es : Nat → Luck) (ops : List Op) : Prop :=
  ∀ op ∈ ops, ∀ p c, op = .user p c → ∀ i, p ≠ tmpPath (os i) (es i) ∧ p ≠ (os i).statusFile

/-- The complete text of the generated configuration of registry `i` when it listens on `uri`: JSON if the name of the file ends with ".json". -/
def IsCompleteText (o : CommandLine) (e : Luck) (uri text : Text) : Prop :=
  (['.', 'j', 's', 'o', 'n'] <:+ o.generate → text = e.json uri ++ ['\n']) ∧ (¬ ['.', 'j', 's', 'o', 'n'] <:+ o.generate → text = e.yaml uri ++ ['\n'])

/-- Everything could be written: the pieces add up to the text. -/
def WrittenInFull (w : Writing) (t : Text) : Prop := t.length ≤ w.pieces.sum

/-- What the status file of registry `p` may contain, as long as nothing else has been done to it since `before`. -/
def StatusTrue (o : CommandLine) (p : Proc) (before content : Option Text) : Prop :=
  (content = before ∧ p.listening = none)
  ∨ (content = none ∧ p.listening = none)
  ∨ content = some []
  ∨ (∃ t, content = some t ∧ t <+: "starting".toList ∧ p.waited = false)
  ∨ (∃ t, content = some t ∧ t <+: "running".toList ∧ (p.killed = false → p.listening.isSome ∨ p.waited) ∧ (o.generate ≠ [] → p.placed))
  ∨ (∃ t, content = some t ∧ t <+: "stopped".toList ∧ p.listening = none)

/-- A level by its name, in any case. -/
def levelNames : List (String × Level) :=
  [("trace", .trace), ("debug", .debug), ("info", .info), ("warn", .warn), ("error", .error), ("critical", .critical), ("off", .off)]

/-- Something on the way to a running registry has failed in this way. -/
def FailedBecause (o : CommandLine) (e : Luck) (x : Failure) : Prop :=
  (o.configuration ≠ [] ∧ e.file = .error x) ∨ e.creation = some x ∨ e.connection = some x ∨ (∃ u, e.listen u = .error x)
  ∨ (x = .other ∧ o.generate ≠ [] ∧ (e.generated.opens = false ∨ e.renames = false))

/-- What an exit code tells: the command line was refused (or the directory could not be entered), an error in a configuration, any other error. -/
def CodeTells (o : CommandLine) (e : Luck) (c : Int) : Prop :=
  (c = -1 → e.parses = false ∨ (o.directory ≠ [] ∧ e.changes = false)
    ∨ (o.log ≠ [] ∧ ∀ n l, (n, l) ∈ levelNames → o.log.map lower ≠ n.toList))
  ∧ (c = -2 → FailedBecause o e .configuration) ∧ (c = -3 → FailedBecause o e .other)

/-- The first of the values that is there. -/
def firstGiven (file : Option Text) (commandLine : Text) (default : Text) : Text :=
  match file with
  | some u => if u ≠ [] then u else if commandLine ≠ [] then commandLine else default
  | none => if commandLine ≠ [] then commandLine else default

end SilKit.RegistryTool.Spec
