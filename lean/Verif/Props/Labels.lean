import Verif.Lemmas.Labels
/-!
# C09 – label matching
-/
namespace SilKit.Props
open Labels Spec

/-- **C09.** Two label lists match exactly if each side accepts the other. -/
theorem C09_labels_match_iff (a b : List Label) (ha : DistinctKeys a) (hb : DistinctKeys b) :
    matchLabels a b = true ↔ Accepts a b ∧ Accepts b a := by
  unfold matchLabels
  rw [Bool.and_eq_true, List.all_eq_true, List.all_eq_true]
  constructor
  · intro ⟨h1, h2⟩
    refine ⟨⟨?_, ?_⟩, ⟨?_, ?_⟩⟩
    · intro l hl; exact ((labelMatchesList_iff hb).mp (h1 l hl)).1
    · intro l hl; exact ((labelMatchesList_iff hb).mp (h1 l hl)).2
    · intro l hl; exact ((labelMatchesList_iff ha).mp (h2 l hl)).1
    · intro l hl; exact ((labelMatchesList_iff ha).mp (h2 l hl)).2
  · intro ⟨⟨h1, h2⟩, ⟨h3, h4⟩⟩
    exact ⟨fun l hl => (labelMatchesList_iff hb).mpr ⟨h1 l hl, h2 l hl⟩,
           fun l hl => (labelMatchesList_iff ha).mpr ⟨h3 l hl, h4 l hl⟩⟩

/-- The hypotheses of `C09_labels_match_iff` hold for lists that do match and for lists that do not. -/
example :
    let a : List Label := [⟨"instance", "1", .mandatory⟩, ⟨"ns", "x", .optional⟩]
    let b : List Label := [⟨"ns", "x", .optional⟩, ⟨"instance", "1", .optional⟩, ⟨"color", "red", .optional⟩]
    let c : List Label := [⟨"ns", "y", .mandatory⟩, ⟨"instance", "1", .optional⟩]
    DistinctKeys a ∧ DistinctKeys b ∧ DistinctKeys c ∧ matchLabels a b = true ∧ matchLabels a c = false ∧
    matchLabels b c = false := by
  simp only [DistinctKeys]
  decide +kernel

/-- **C09 (symmetry).** Swapping the two sides never changes the answer, for all label lists. -/
theorem C09_matching_is_symmetric (a b : List Label) : matchLabels a b = matchLabels b a := by
  unfold matchLabels
  rw [Bool.and_comm]

/-- **C09 (empty lists).** A side without labels matches exactly the lists without mandatory labels. -/
theorem C09_no_labels (b : List Label) : matchLabels [] b = true ↔ ∀ l ∈ b, l.kind = .optional := by
  unfold matchLabels
  rw [List.all_nil, Bool.true_and, List.all_eq_true]
  constructor
  · intro h l hl
    have := h l hl
    simp only [labelMatchesList, tryFind, decide_eq_true_eq] at this
    cases hk : l.kind with
    | optional => rfl
    | mandatory => exact absurd hk this
  · intro h l hl
    simp [labelMatchesList, tryFind, h l hl]

/-- **C09 (repeated keys).** Without distinct keys the documented rule and the code differ: only the first label with a key
is considered, so a list that repeats a key with two values does not even match itself. -/
theorem C09_repeated_keys_do_not_match :
    ∃ a : List Label, Accepts a a ∧ matchLabels a a = false := by
  refine ⟨[⟨"k", "1", .mandatory⟩, ⟨"k", "2", .mandatory⟩], ⟨?_, ?_⟩, by decide +kernel⟩
  · intro l hl _
    exact ⟨l, hl, rfl, rfl⟩
  · intro l hl hk
    exact Or.inr ⟨l, hl, rfl, rfl⟩

end SilKit.Props
