import Verif.Model.ConfigSchema
/-! # Specification: which documents the schema admits -/
namespace SilKit.ConfigText

/-- The node `y` can be reached from `d` through the keys `ks`; the items of a list are reached without a key. -/
inductive At : Yaml → List String → Yaml → Prop
  | here (d : Yaml) : At d [] d
  | item {l : List Yaml} {x : Yaml} {ks : List String} {y : Yaml} : x ∈ l → At x ks y → At (.seq l) ks y
  | entry {m : List (String × Yaml)} {k : String} {v : Yaml} {ks : List String} {y : Yaml} :
      (k, v) ∈ m → At v ks y → At (.map m) (k :: ks) y

/-- The text of a path: `/` for the root, else every key with a `/` in front. Empty keys leave no trace. -/
def pathText (ks : List String) : String :=
  let named := ks.filter (· ≠ "")
  if named = [] then "/" else String.join (named.map ("/" ++ ·))

/-- The parts of a text with slashes in between. -/
def joinSlash : List (List Char) → List Char
  | [] => []
  | [x] => x
  | x :: y :: l => x ++ '/' :: joinSlash (y :: l)

def Parts (text : String) (parts : List (List Char)) : Prop :=
  parts ≠ [] ∧ (∀ q ∈ parts, '/' ∉ q) ∧ joinSlash parts = text.toList

/-- A name is reserved if it is a part of a path of the schema. -/
def ReservedName (name : List Char) : Prop := ∃ p ∈ schemaPaths, ∃ parts, Parts p parts ∧ name ∈ parts

/-- The path of an element is one of the schema, or its last part is not the name of any element of the schema. -/
def Admitted (path : String) : Prop :=
  path ∈ schemaPaths ∨ ∀ parts name, Parts path (parts ++ [name]) → ¬ ReservedName name

/-- What makes a document valid. -/
structure WellFormed (d : Yaml) : Prop where
  /-- every node has a type -/
  typed : ∀ ks, ¬ At d ks .none
  /-- no map has a key twice -/
  unique : ∀ ks m, At d ks (.map m) → (m.map Prod.fst).Nodup
  /-- every key is admitted where it is -/
  keys : ∀ ks m k v, At d ks (.map m) → (k, v) ∈ m → Admitted (pathText (ks ++ [k]))
  /-- scalars are items only of lists that the schema knows -/
  items : ∀ ks l s, At d ks (.seq l) → .val s ∈ l → pathText ks ∈ schemaPaths

mutual

/-- The document without the elements that the schema does not know. -/
def strip (path : String) : Yaml → Yaml
  | .none => .none
  | .val s => .val s
  | .seq l => .seq (stripItems path l)
  | .map m => .map (stripEntries path m)

def stripItems (path : String) : List Yaml → List Yaml
  | [] => []
  | x :: l => strip path x :: stripItems path l

def stripEntries (path : String) : List (String × Yaml) → List (String × Yaml)
  | [] => []
  | (k, v) :: m =>
    if makePath path k ∈ schemaPaths then (k, strip (makePath path k) v) :: stripEntries path m else stripEntries path m

end

/-- The document without the elements that the schema does not know. -/
def known (d : Yaml) : Yaml := strip "/" d

end SilKit.ConfigText
