/-! # Facts about lists used by several models -/
namespace SilKit.Util

/-- Where an element lies in a concatenation. -/
theorem split_append {α : Type} {t u a b : List α} {x : α} (h : t ++ u = a ++ x :: b) :
    (∃ b', t = a ++ x :: b' ∧ b = b' ++ u) ∨ (∃ a', a = t ++ a' ∧ u = a' ++ x :: b) := by
  rcases List.append_eq_append_iff.1 h with ⟨w, h1, h2⟩ | ⟨w, h1, h2⟩
  · exact Or.inr ⟨w, h1, h2⟩
  · cases w with
    | nil => exact Or.inr ⟨[], by simpa using h1.symm, by simpa using h2.symm⟩
    | cons o w =>
        simp only [List.cons_append, List.cons.injEq] at h2
        exact Or.inl ⟨w, by rw [h1, h2.1], h2.2⟩

/-- No two entries of an association list have the same key. -/
def UniqueKeys {α β : Type} (l : List (α × β)) : Prop := l.Pairwise (fun x y => x.1 ≠ y.1)

theorem UniqueKeys.eq {α β : Type} {l : List (α × β)} (h : UniqueKeys l) {k : α} {a b : β} (ha : (k, a) ∈ l) (hb : (k, b) ∈ l) : a = b := by
  induction l with
  | nil => cases ha
  | cons x l ih =>
      have h' := List.pairwise_cons.1 h
      rcases List.mem_cons.1 ha with ha | ha <;> rcases List.mem_cons.1 hb with hb | hb
      · rw [← ha] at hb; exact (Prod.mk.inj hb).2.symm
      · exact absurd (by rw [← ha]) (h'.1 _ hb)
      · exact absurd (by rw [← hb]) (h'.1 _ ha)
      · exact ih h'.2 ha hb

theorem UniqueKeys.filter {α β : Type} {l : List (α × β)} (h : UniqueKeys l) (f : α × β → Bool) : UniqueKeys (l.filter f) :=
  List.Pairwise.sublist List.filter_sublist h

theorem UniqueKeys.snoc {α β : Type} {l : List (α × β)} (h : UniqueKeys l) {k : α} {v : β} (hk : ∀ x ∈ l, x.1 ≠ k) : UniqueKeys (l ++ [(k, v)]) := by
  unfold UniqueKeys
  rw [List.pairwise_append]
  exact ⟨h, by simp, by intro a ha b hb; simp at hb; subst hb; exact hk a ha⟩

theorem find_mem {α β : Type} [BEq α] [LawfulBEq α] {l : List (α × β)} {k : α} {v : β}
    (h : (l.find? (·.1 == k)).map (·.2) = some v) : (k, v) ∈ l := by
  cases hf : l.find? (·.1 == k) with
  | none => rw [hf] at h; cases h
  | some x =>
      rw [hf] at h
      have h1 := List.mem_of_find?_eq_some hf
      have h2 := List.find?_some hf
      simp at h h2
      rw [← h, ← h2]
      exact h1

theorem find_none {α β : Type} [BEq α] [LawfulBEq α] {l : List (α × β)} {k : α}
    (h : (l.find? (·.1 == k)).map (·.2) = none) : ∀ x ∈ l, x.1 ≠ k := by
  cases hf : l.find? (·.1 == k) with
  | none =>
      intro x hx he
      have := List.find?_eq_none.1 hf x hx
      simp [he] at this
  | some x => rw [hf] at h; cases h

theorem find_some_of_mem {α β : Type} [BEq α] [LawfulBEq α] {l : List (α × β)} (hu : UniqueKeys l) {k : α} {v : β}
    (h : (k, v) ∈ l) : (l.find? (·.1 == k)).map (·.2) = some v := by
  cases hf : (l.find? (·.1 == k)).map (·.2) with
  | none => exact absurd rfl (find_none hf _ h)
  | some w => rw [hu.eq h (find_mem hf)]

/-! ## Masks -/

theorem two_pow_land (i m : Nat) : (2 ^ i &&& m != 0) = m.testBit i := by
  cases h : m.testBit i
  · have : 2 ^ i &&& m = 0 := by
      apply Nat.eq_of_testBit_eq
      intro j
      rw [Nat.testBit_and, Nat.testBit_two_pow, Nat.zero_testBit]
      by_cases hj : i = j
      · subst hj; simp [h]
      · simp [hj]
    rw [this]; rfl
  · have : 2 ^ i &&& m ≠ 0 := by
      intro e
      have := congrArg (·.testBit i) e
      simp [Nat.testBit_and, h] at this
    simpa using this

theorem three_land (m : Nat) : (3 &&& m != 0) = (m.testBit 0 || m.testBit 1) := by
  have h : (3 &&& m) = (2 ^ 0 &&& m) ||| (2 ^ 1 &&& m) := by rw [← Nat.and_or_distrib_right]; rfl
  rw [h, ← two_pow_land 0 m, ← two_pow_land 1 m]
  generalize 2 ^ 0 &&& m = x
  generalize 2 ^ 1 &&& m = y
  by_cases hx : x = 0
  · subst hx; simp
  · have : x ||| y ≠ 0 := fun e => hx (Nat.or_eq_zero_iff.1 e).1
    have e1 : (x ||| y != 0) = true := by simpa using this
    have e2 : (x != 0) = true := by simpa using hx
    rw [e1, e2]; rfl

end SilKit.Util
