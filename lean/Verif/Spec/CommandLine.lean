import Verif.Model.CommandLine
/-!
# Specification: how a command line is to be read

A command line is a sequence of items: options with a value, in the long or the short form, with the value after `=` or as the next argument; flags
in the long or the short form; and words.
-/
namespace SilKit.CommandLine.Spec
open SilKit.CommandLine

inductive Item
  | word (v : Text)
  | option (d : Decl) (long joined : Bool) (v : Text)
  | flag (d : Decl) (long : Bool)

/-- A word that is not taken for an option: it does not begin with `-`, or it is `-`. -/
def Plain (v : Text) : Prop := v.head? ≠ some '-' ∨ v = ['-']

/-- The name as it is written. -/
def written (d : Decl) (long : Bool) : Text := if long then '-' :: '-' :: d.name else '-' :: d.short

/-- How an item is written. -/
def Item.write : Item → List Text
  | .word v => [v]
  | .option d long true v => [written d long ++ '=' :: v]
  | .option d long false v => [written d long, v]
  | .flag d long => [written d long]

/-- The items that are possible with some declarations. -/
def Item.Allowed (ds : List Decl) : Item → Prop
  | .word v => Plain v
  | .option d long _ _ => d ∈ ds ∧ d.kind = .option ∧ (long = true ∨ d.short ≠ [])
  | .flag d long => d ∈ ds ∧ d.kind = .flag ∧ (long = true ∨ d.short ≠ [])

/-- The words of a command line. -/
def wordsOf (items : List Item) : List Text := items.filterMap (fun i => match i with | .word v => some v | _ => none)

/-- The values given for an option. -/
def given (d : Decl) (items : List Item) : List Text :=
  items.filterMap (fun i => match i with | .option e _ _ v => if e = d then some v else none | _ => none)

/-- The declared places for single words, and whether there is one for all further words. -/
def places (ds : List Decl) : Nat := (ds.filter (fun d => d.kind = .positional)).length

def takesAll (ds : List Decl) : Bool := ds.any (fun d => d.kind = .list)

/-- There is a place for every word. -/
def Fits (ds : List Decl) (items : List Item) : Prop := takesAll ds = true ∨ (wordsOf items).length ≤ places ds

/-- A reading of a command line. -/
def Reads (ds : List Decl) (argv : List Text) (items : List Item) : Prop :=
  (∀ i ∈ items, i.Allowed ds) ∧ argv = items.flatMap Item.write ∧ Fits ds items

/-- Sensible declarations: names of options and flags are unique and can be written; a list is the last place for words. -/
structure Declared (ds : List Decl) : Prop where
  names : ∀ d ∈ ds, ∀ e ∈ ds, d.name = e.name → d = e
  shorts : ∀ d ∈ ds, ∀ e ∈ ds, d.short ≠ [] → d.short = e.short → d = e
  nonempty : ∀ d ∈ ds, d.name ≠ []
  noEquals : ∀ d ∈ ds, '=' ∉ d.name ∧ '=' ∉ d.short
  noDash : ∀ d ∈ ds, d.short.head? ≠ some '-'
  listLast : ∀ a d c, ds = a ++ d :: c → d.kind = .list → ∀ e ∈ c, isPositional e = false
  noDup : ds.Nodup

end SilKit.CommandLine.Spec
