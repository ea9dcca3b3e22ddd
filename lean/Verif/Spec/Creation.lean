import Verif.Model.Creation
/-!
# Specification: creating participants and services

docs/configuration/services-configuration.rst: settings of the configuration "take precedence" over parameters of the API; a section of
the configuration applies to the service with the same name.
-/
namespace SilKit.Creation.Spec
open SilKit.Creation SilKit.Labels

/-- `e` is the entry that applies to services called `name`: the first one with this name. -/
def Configured (entries : List Entry) (name : String) (e : Entry) : Prop :=
  ∃ before after, entries = before ++ e :: after ∧ e.name = name ∧ ∀ x ∈ before, x.name ≠ name

/-- There is no entry. -/
def Unconfigured (entries : List Entry) (name : String) : Prop := ∀ x ∈ entries, x.name ≠ name

/-- The value in effect: the configured one if there is an entry that sets it, otherwise the passed one. -/
def InEffect {α : Type} (entries : List Entry) (name : String) (setting : Entry → Option α) (passed value : α) : Prop :=
  (∀ e v, Configured entries name e → setting e = some v → value = v) ∧
  (∀ e, Configured entries name e → setting e = none → value = passed) ∧
  (Unconfigured entries name → value = passed)

/-- No key occurs twice. -/
def DistinctKeys (labels : List Label) : Prop := (labels.map Label.key).Nodup

/-- The labels in effect. -/
def labelsOf (entries : List Entry) (r : Request) : List Label :=
  match entries.find? (fun e => e.name == r.name) with
  | some e => e.labels.getD r.labels
  | none => r.labels

end SilKit.Creation.Spec
