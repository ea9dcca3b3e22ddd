import Verif.Model.Labels
/-!
# Specification of label matching, as documented in docs (pub/sub, "Labels"; `MatchingLabel::Kind` in datatypes.hpp)
-/
namespace SilKit.Spec
open Labels

/-- Keys are distinct within a list. -/
def DistinctKeys (ls : List Label) : Prop := ls.Pairwise (fun a b => a.key ≠ b.key)

/-- One side accepts the other: its mandatory labels are present there with equal value, and its optional labels are
absent there or have an equal value. -/
def Accepts (mine theirs : List Label) : Prop :=
  (∀ l ∈ mine, l.kind = .mandatory → ∃ t ∈ theirs, t.key = l.key ∧ t.value = l.value) ∧
  (∀ l ∈ mine, l.kind = .optional → (∀ t ∈ theirs, t.key ≠ l.key) ∨ ∃ t ∈ theirs, t.key = l.key ∧ t.value = l.value)

end SilKit.Spec
