import Verif.Spec.Labels
/-!
# Helper lemmas for label matching
-/
namespace SilKit.Labels
open Spec

theorem tryFind_mem {k : String} {ls : List Label} {l : Label} (h : tryFind k ls = some l) : l ∈ ls ∧ l.key = k := by
  induction ls with
  | nil => simp [tryFind] at h
  | cons a ls ih =>
    unfold tryFind at h
    split at h
    · rename_i hk
      cases h
      exact ⟨by simp, hk⟩
    · have := ih h
      exact ⟨by simp [this.1], this.2⟩

theorem tryFind_none {k : String} {ls : List Label} : tryFind k ls = none ↔ ∀ l ∈ ls, l.key ≠ k := by
  induction ls with
  | nil => simp [tryFind]
  | cons a ls ih =>
    unfold tryFind
    split
    · rename_i hk; simp [hk]
    · rename_i hk; simp [ih, hk]

theorem tryFind_unique {k : String} {ls : List Label} (hd : DistinctKeys ls) {l : Label} (hl : l ∈ ls) (hk : l.key = k) :
    tryFind k ls = some l := by
  induction ls with
  | nil => simp at hl
  | cons a ls ih =>
    obtain ⟨h1, h2⟩ := List.pairwise_cons.mp hd
    unfold tryFind
    rcases List.mem_cons.mp hl with rfl | hl
    · rw [if_pos hk]
    · rw [if_neg (by intro e; exact h1 l hl (by rw [e, hk]))]
      exact ih h2 hl

theorem labelMatchesList_iff {l : Label} {ls : List Label} (hd : DistinctKeys ls) :
    labelMatchesList l ls = true ↔
      (l.kind = .mandatory → ∃ t ∈ ls, t.key = l.key ∧ t.value = l.value) ∧
      (l.kind = .optional → (∀ t ∈ ls, t.key ≠ l.key) ∨ ∃ t ∈ ls, t.key = l.key ∧ t.value = l.value) := by
  unfold labelMatchesList
  split
  · rename_i h
    have hn := tryFind_none.mp h
    simp only [decide_eq_true_eq]
    constructor
    · intro hk
      exact ⟨fun h => absurd h hk, fun _ => Or.inl hn⟩
    · intro ⟨h1, _⟩ hk
      obtain ⟨t, ht, e, _⟩ := h1 hk
      exact hn t ht e
  · rename_i f h
    have ⟨hm, hk⟩ := tryFind_mem h
    simp only [decide_eq_true_eq]
    have hval : (∃ t ∈ ls, t.key = l.key ∧ t.value = l.value) ↔ l.value = f.value := by
      constructor
      · intro ⟨t, ht, e1, e2⟩
        have := tryFind_unique hd ht e1
        rw [h] at this
        cases this
        exact e2.symm
      · intro e
        exact ⟨f, hm, hk, e.symm⟩
    rw [hval]
    constructor
    · intro e; exact ⟨fun _ => e, fun _ => Or.inr e⟩
    · intro ⟨h1, h2⟩
      cases hkd : l.kind with
      | mandatory => exact h1 hkd
      | optional =>
        rcases h2 hkd with h2 | h2
        · exact absurd hk (h2 f hm)
        · exact h2

end SilKit.Labels
