import Verif.Model.ConfigFiles
/-!
# What including and merging configuration files should do

The rules are those of docs/configuration/includes-configuration.rst.
-/
namespace SilKit.ConfigFiles.Spec
open SilKit.ConfigFiles

/-- `p` is the name of a file that can be reached from the root by `n` includes; `read` are the files that were read, by the names by which they were included. -/
inductive Depth (root : File) (read : List (Path × File)) : Nat → Path → Prop
  | root {p : Path} : p ∈ root.includes → Depth root read 1 p
  | next {n : Nat} {p q : Path} {f : File} : Depth root read n p → (p, f) ∈ read → q ∈ f.includes → Depth root read (n + 1) q

/-- A search path as it is written, with a separator at the end. -/
def Separated (hint h : Path) : Prop :=
  hint ≠ [] ∧ ((h = hint ∧ (hint.getLast? = some 47 ∨ hint.getLast? = some 92)) ∨
    (h = hint ++ [47] ∧ hint.getLast? ≠ some 47 ∧ hint.getLast? ≠ some 92))

/-- The element has only the properties that its kind has. -/
def Proper (k : Kind) (e : Elem) : Prop :=
  match k with
  | .can | .lin | .ethernet => e.labels = 0 ∧ e.history = none ∧ e.params = 0 ∧ e.txBuffers = 0
  | .flexray => e.labels = 0 ∧ e.history = none
  | .publisher => e.params = 0 ∧ e.txBuffers = 0
  | .subscriber | .rpcServer | .rpcClient => e.history = none ∧ e.params = 0 ∧ e.txBuffers = 0
  | .traceSink | .traceSource => e.labels = 0 ∧ e.history = none ∧ e.traceSinks = [] ∧ e.replay = 0 ∧ e.txBuffers = 0

/-- All elements of a kind, in the order of the files. -/
def allElems (k : Kind) (fs : List File) : List Elem := fs.flatMap (fun f => f.elems k)

/-- The values other than the default that are written for an option. -/
def values (o : Opt) (fs : List File) : List Int := (fs.filterMap (fun f => f.opt o)).filter (fun v => decide (v ≠ o.default))

def allSinks (fs : List File) : List Sink := fs.flatMap (fun f => f.sinks)

def allMetricsSinks (fs : List File) : List MetricsSink := fs.flatMap (fun f => f.metricsSinks)

/-- There are no two different elements. -/
def AllEqual {α : Type} (l : List α) : Prop := ∀ a ∈ l, ∀ b ∈ l, a = b

/-- No element is followed by the same one. -/
def NoRepetition {α : Type} : List α → Prop
  | [] => True
  | [_] => True
  | a :: b :: l => a ≠ b ∧ NoRepetition (b :: l)

/-- Of which sinks there can be only one, and which must have different names. -/
structure SinksFit (ss : List Sink) : Prop where
  stdout : (ss.filter (fun s => decide (s.type = .stdout))).length ≤ 1
  remote : (ss.filter (fun s => decide (s.type = .remote))).length ≤ 1
  files : ((ss.filter (fun s => decide (s.type = .file))).map (·.logName)).Nodup

structure MetricsSinksFit (ss : List MetricsSink) : Prop where
  defined : ∀ s ∈ ss, s.type ≠ .undefined
  remote : (ss.filter (fun s => decide (s.type = .remote))).length ≤ 1
  files : ((ss.filter (fun s => decide (s.type = .jsonFile))).map (·.name)).Nodup

/-- The files can be merged. -/
structure Mergeable (fs : List File) : Prop where
  elems : ∀ k, ∀ a ∈ allElems k fs, ∀ b ∈ allElems k fs, a.name = b.name → same k a b = true
  soft : NoRepetition (fs.filterMap (·.softTimeout))
  hard : NoRepetition (fs.filterMap (·.hardTimeout))
  name : (fs.filterMap (·.participantName)).length ≤ 1
  acceptors : (fs.filter (fun f => decide (f.acceptorUris ≠ []))).length ≤ 1
  options : ∀ o, AllEqual (values o fs)
  dynamicStep : AllEqual (fs.filterMap (·.dynamicStep))
  sinks : SinksFit (allSinks fs)
  metrics : MetricsSinksFit (allMetricsSinks fs)
  notBoth : ¬ ((∃ s ∈ allMetricsSinks fs, s.type = .remote) ∧ some true ∈ fs.map (·.collectFromRemote))

/-- The configuration that the files make up, apart from `CollectFromRemote` and `UpdateInterval`. -/
structure Merged (fs : List File) (c : Config) : Prop where
  /-- The elements have different names, they are elements of the files in their order, and each element of a file is there. -/
  elems : ∀ k, ((c.elems k).map (·.name)).Nodup ∧ (c.elems k).Sublist (allElems k fs) ∧
    ∀ e ∈ allElems k fs, ∃ d ∈ c.elems k, d.name = e.name ∧ same k d e = true
  name : c.participantName = (fs.filterMap (·.participantName)).head?
  options : ∀ o, c.opt o = (values o fs).head?.getD o.default
  dynamicStep : c.dynamicStep = (fs.filterMap (·.dynamicStep)).head?
  acceptors : c.acceptorUris = fs.flatMap (·.acceptorUris)
  sinks : c.sinks.Perm (allSinks fs)
  soft : c.softTimeout = (fs.filterMap (·.softTimeout)).getLast?
  hard : c.hardTimeout = (fs.filterMap (·.hardTimeout)).getLast?
  extensions : c.extensionPaths = fs.flatMap (·.extensionPaths)
  metrics : c.metricsSinks.Perm (allMetricsSinks fs)

end SilKit.ConfigFiles.Spec
