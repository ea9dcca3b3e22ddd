import Verif.Model.Names
/-! # Specification: what is told apart -/
namespace SilKit.Names.Spec
open SilKit SilKit.Names

/-- The bytes of the name are ASCII characters from a window of 33 consecutive ones that starts at `lo`. -/
def inWindow (lo : Nat) (n : Name) : Prop := lo + 33 ≤ 128 ∧ ∀ c ∈ n, lo ≤ c ∧ c < lo + 33

/-- The bytes of the name are printable ASCII characters. -/
def isPrintable (n : Name) : Prop := ∀ c ∈ n, 32 ≤ c ∧ c ≤ 126

/-- Different names have different identifiers. -/
def toldApart (ns : List Name) : Prop := ∀ a ∈ ns, ∀ b ∈ ns, nameId a = nameId b → a = b

/-- The names of all participants of a history. -/
def names (ops : List Op) : List Name := ops.map (fun o => match o with | .connect p => p.name | .subscribe p => p.name | .leave p => p.name)

/-- Who is connected. -/
def present (ops : List Op) : List Peer :=
  ops.foldl (fun ps o => match o with
    | .connect p => ps ++ [p]
    | .subscribe _ => ps
    | .leave p => ps.filter (fun q => q ≠ p)) []

/-- What can happen: nobody connects with the handle or under the name of somebody who is connected, and only those who are connected subscribe and leave. -/
def possible (before : List Op) : Op → Prop
  | .connect p => ∀ q ∈ present before, q.handle ≠ p.handle ∧ q.name ≠ p.name
  | .subscribe p => p ∈ present before
  | .leave p => p ∈ present before

def wellFormed (ops : List Op) : Prop := ∀ pre o post, ops = pre ++ o :: post → possible pre o

/-- Whether the participant is connected and has subscribed: from the last of its operations. -/
def listens (p : Peer) (ops : List Op) : Bool :=
  ops.foldl (fun b o => match o with
    | .connect _ => b
    | .subscribe q => b || q == p
    | .leave q => b && q != p) false

/-- The last configuration that the service with this identifier in this participant has sent. -/
def lastConfig {C : Type} (participant : Name) (id : Nat) (ms : List (Desc × C)) : Option C :=
  ((ms.filter (fun m => m.1.participant = participant ∧ m.1.id = id)).getLast?).map (·.2)

/-- The characters that may be in the name of a file. -/
def fileChars : Name := bytes "ABCDEFGHIJKLMNOPQRSTUVWXYZabcdefghijklmnopqrstuvwxyz0123456789_-.~"

/-- The name contains no slash. -/
def plain (n : Name) : Prop := slash ∉ n

end SilKit.Names.Spec
