import Verif.Spec.Uri
/-!
# Lemmas about connection URIs
-/
namespace SilKit.Uri
open Spec

/-! ## Simulation names -/

theorem alphabet_legal : ∀ ch ∈ alphabet, isLegal ch = true ∨ ch = '/' := by decide +kernel

theorem small_legal : ∀ n, n < 128 → isLegal (Char.ofNat n) = true ∨ Char.ofNat n = '/' → Char.ofNat n ∈ alphabet := by decide +kernel

theorem legal_small {ch : Char} (h : isLegal ch = true) : ch.toNat < 128 := by
  simp only [isLegal, Bool.or_eq_true, Bool.and_eq_true, decide_eq_true_eq, beq_iff_eq] at h
  have le : ∀ {a b : Char}, a ≤ b → a.toNat ≤ b.toNat := fun h => h
  rcases h with (((((h | h) | h) | h) | h) | h) | h
  · have := le h.2; have e : ('z' : Char).toNat = 122 := rfl; omega
  · have := le h.2; have e : ('Z' : Char).toNat = 90 := rfl; omega
  · have := le h.2; have e : ('9' : Char).toNat = 57 := rfl; omega
  all_goals subst h; decide

theorem mem_alphabet {ch : Char} : ch ∈ alphabet ↔ isLegal ch = true ∨ ch = '/' := by
  refine ⟨alphabet_legal ch, fun h => ?_⟩
  have hs : ch.toNat < 128 := by
    rcases h with h | h
    · exact legal_small h
    · subst h; decide
  have := small_legal ch.toNat hs
  rw [Char.ofNat_toNat] at this
  exact this h

theorem legal_nil : Legal [] := ⟨fun _ h => (by cases h), fun a b h => (by cases a <;> simp at h)⟩

theorem legal_cons {ch : Char} {rest : Str} : Legal (ch :: rest) ↔ ch ∈ alphabet ∧ Legal rest ∧ ¬ (ch = '/' ∧ rest.head? = some '/') := by
  constructor
  · rintro ⟨h1, h2⟩
    refine ⟨h1 ch (by simp), ⟨fun c hc => h1 c (by simp [hc]), fun a b e => h2 (ch :: a) b (by simp [e])⟩, ?_⟩
    rintro ⟨rfl, h⟩
    cases rest with
    | nil => cases h
    | cons c cs => simp at h; exact h2 [] cs (by simp [h])
  · rintro ⟨h1, h2, h3⟩
    refine ⟨fun c hc => ?_, fun a b e => ?_⟩
    · rcases List.mem_cons.1 hc with rfl | hc
      · exact h1
      · exact h2.1 c hc
    · cases a with
      | nil =>
        simp at e
        exact h3 ⟨e.1, by rw [e.2]; rfl⟩
      | cons x xs =>
        simp at e
        exact h2.2 xs b e.2

theorem validateFrom_false (s t : Str) : validateFrom false s = some t ↔ t = s ∧ Legal s := by
  induction s generalizing t with
  | nil =>
    simp only [validateFrom]
    exact ⟨fun h => ⟨(by injection h with h; exact h.symm), legal_nil⟩, fun h => by rw [h.1]⟩
  | cons ch rest ih =>
    rw [legal_cons, mem_alphabet]
    simp only [validateFrom]
    by_cases h1 : ch = '/'
    · rw [if_pos h1]
      by_cases h2 : rest.head? = some '/'
      · rw [if_pos h2]; simp [h1, h2]
      · rw [if_neg h2]
        simp only [Bool.false_eq_true, if_false, Option.map_eq_some_iff, ih]
        constructor
        · rintro ⟨x, ⟨rfl, hl⟩, rfl⟩
          exact ⟨rfl, .inr h1, hl, fun h => h2 h.2⟩
        · rintro ⟨rfl, _, hl, _⟩
          exact ⟨rest, ⟨rfl, hl⟩, rfl⟩
    · rw [if_neg h1]
      by_cases h2 : isLegal ch = true
      · rw [if_pos h2]
        simp only [Option.map_eq_some_iff, ih]
        constructor
        · rintro ⟨x, ⟨rfl, hl⟩, rfl⟩
          exact ⟨rfl, .inl h2, hl, fun h => h1 h.1⟩
        · rintro ⟨rfl, _, hl, _⟩
          exact ⟨rest, ⟨rfl, hl⟩, rfl⟩
      · rw [if_neg h2]
        simp [h1, h2]

theorem validate_iff (s t : Str) : validate s = some t ↔ Legal s ∧ t = dropRoot s := by
  unfold validate
  cases s with
  | nil => simp [validateFrom, legal_nil, dropRoot, eq_comm]
  | cons ch rest =>
    rw [legal_cons, mem_alphabet]
    simp only [validateFrom, dropRoot]
    by_cases h1 : ch = '/'
    · rw [if_pos h1]
      by_cases h2 : rest.head? = some '/'
      · rw [if_pos h2]; simp [h1, h2]
      · rw [if_neg h2, if_pos trivial, validateFrom_false]
        simp [h1, h2, and_comm]
    · rw [if_neg h1]
      by_cases h2 : isLegal ch = true
      · rw [if_pos h2]
        simp only [Option.map_eq_some_iff, validateFrom_false]
        constructor
        · rintro ⟨x, ⟨rfl, hl⟩, rfl⟩
          exact ⟨⟨.inl h2, hl, fun h => h1 h.1⟩, by simp [h1]⟩
        · rintro ⟨⟨_, hl, _⟩, rfl⟩
          exact ⟨rest, ⟨rfl, hl⟩, by simp [h1]⟩
      · rw [if_neg h2]
        simp [h1, h2]

/-- From a slash on. -/
theorem validate_slash (s t : Str) : validate ('/' :: s) = some t ↔ t = s ∧ Legal s ∧ NoRoot s := by
  rw [validate_iff, legal_cons]
  have : ('/' : Char) ∈ alphabet := by decide +kernel
  simp [dropRoot, NoRoot, this]
  constructor
  · rintro ⟨⟨h1, h2⟩, h3⟩; exact ⟨h3, h1, h2⟩
  · rintro ⟨h3, h1, h2⟩; exact ⟨⟨h1, h2⟩, h3⟩

theorem dropRoot_legal {s : Str} (h : Legal s) : Legal (dropRoot s) ∧ NoRoot (dropRoot s) := by
  unfold dropRoot
  by_cases hr : s.head? = some '/'
  · rw [if_pos hr]
    cases s with
    | nil => cases hr
    | cons ch rest =>
      simp at hr
      rw [legal_cons] at h
      exact ⟨h.2.1, fun hx => h.2.2 ⟨hr, hx⟩⟩
  · rw [if_neg hr]; exact ⟨h, hr⟩

theorem dropRoot_id {s : Str} (h : NoRoot s) : dropRoot s = s := if_neg h

/-! ## Parts of strings -/

theorem split_sound : ∀ {s a b : Str}, splitScheme s = some (a, b) → s = a ++ "://".toList ++ b := by
  intro s
  induction s with
  | nil => intro a b h; simp [splitScheme] at h
  | cons ch rest ih =>
    intro a b h
    unfold splitScheme at h
    split at h
    · rename_i r
      injection h with h
      injection h with h1 h2
      subst h1; subst h2; exact r
    · rename_i e; cases e
    · rename_i c r e e'
      injection e' with e1 e2
      subst e1; subst e2
      rw [Option.map_eq_some_iff] at h
      obtain ⟨p, hp, e⟩ := h
      injection e with e1 e2
      subst e1; subst e2
      rw [ih (a := p.1) (b := p.2) hp]; rfl

theorem split_complete : ∀ {a b : Str}, ∃ a' b', splitScheme (a ++ "://".toList ++ b) = some (a', b') ∧ a'.length ≤ a.length := by
  intro a
  induction a with
  | nil => intro b; exact ⟨[], b, rfl, Nat.le_refl _⟩
  | cons ch a ih =>
    intro b
    obtain ⟨a', b', h1, h2⟩ := ih (b := b)
    rw [List.cons_append, List.cons_append]
    unfold splitScheme
    split
    · rename_i r _; exact ⟨[], r, rfl, by simp⟩
    · rename_i e; cases e
    · rename_i c r e e'
      injection e' with e1 e2
      subst e1; subst e2
      rw [h1]
      exact ⟨ch :: a', b', rfl, by simp; omega⟩

theorem split_iff {s a b : Str} : splitScheme s = some (a, b) ↔ FirstSep s a b := by
  constructor
  · intro h
    refine ⟨split_sound h, fun a' b' e => ?_⟩
    obtain ⟨x, y, h1, h2⟩ := split_complete (a := a') (b := b')
    rw [← e, h] at h1
    injection h1 with h1
    injection h1 with h1
    subst h1; exact h2
  · rintro ⟨e, hm⟩
    obtain ⟨x, y, h1, h2⟩ := split_complete (a := a) (b := b)
    rw [← e] at h1
    have hs := split_sound h1
    have hl := hm x y hs
    rw [hs] at e
    have := List.append_inj e (by simp; omega)
    have h3 := List.append_inj this.1 (by omega)
    rw [h1, this.2, h3.1]

theorem port_none {s : Str} : splitPort s = none ↔ ':' ∉ s := by
  induction s with
  | nil => simp [splitPort]
  | cons ch rest ih =>
    simp only [splitPort]
    cases h : splitPort rest with
    | some p =>
      have : ':' ∈ rest := by
        apply Classical.byContradiction
        intro hn
        rw [ih.2 hn] at h; cases h
      simp [this]
    | none =>
      have := ih.1 h
      by_cases hc : ch = ':'
      · simp [hc]
      · simp [hc, this, Ne.symm hc]

theorem port_some {s a b : Str} : splitPort s = some (a, b) ↔ s = a ++ ':' :: b ∧ ':' ∉ b := by
  induction s generalizing a b with
  | nil => simp [splitPort]
  | cons ch rest ih =>
    simp only [splitPort]
    cases h : splitPort rest with
    | some p =>
      obtain ⟨e1, e2⟩ := (ih (a := p.1) (b := p.2)).1 h
      constructor
      · intro hx
        injection hx with hx
        injection hx with h1 h2
        subst h1; subst h2
        exact ⟨by rw [List.cons_append, ← e1], e2⟩
      · rintro ⟨hx, hb⟩
        cases a with
        | nil =>
          simp at hx
          rw [← hx.2, e1] at hb
          simp at hb
        | cons x xs =>
          simp at hx
          have := (ih (a := xs) (b := b)).2 ⟨hx.2, hb⟩
          rw [h] at this
          injection this with this
          rw [hx.1, this]
    | none =>
      have hn := port_none.1 h
      by_cases hc : ch = ':'
      · simp only [hc, if_true]
        constructor
        · intro hx
          injection hx with hx
          injection hx with h1 h2
          subst h1; subst h2
          exact ⟨rfl, hn⟩
        · rintro ⟨hx, hb⟩
          cases a with
          | nil => simp at hx; rw [hx]
          | cons x xs =>
            simp at hx
            exact absurd (by rw [hx.2]; simp) hn
      · simp only [hc, if_false]
        refine ⟨fun hx => (by cases hx), ?_⟩
        rintro ⟨hx, hb⟩
        cases a with
        | nil => simp at hx; exact absurd hx.1 hc
        | cons x xs =>
          simp at hx
          exact absurd (by rw [hx.2]; simp) hn

/-! ## Ports -/

theorem isDigit_eq (ch : Char) : isDigit ch = ch.isDigit := by
  unfold isDigit Char.isDigit
  rw [Bool.eq_iff_iff]
  simp only [Bool.and_eq_true, decide_eq_true_eq]
  exact Iff.rfl

theorem digits_fold (s : Str) (n : Nat) : s.foldl digitVal n = Nat.ofDigitChars 10 s n := by
  rw [Nat.ofDigitChars_eq_foldl]
  congr 1
  funext a c
  simp [digitVal, Nat.mul_comm]

theorem takeWhile_cut {p : Char → Bool} {a b : Str} (ha : ∀ ch ∈ a, p ch = true) (hb : ∀ ch, b.head? = some ch → p ch = false) :
    (a ++ b).takeWhile p = a ∧ (a ++ b).dropWhile p = b := by
  induction a with
  | nil =>
    cases b with
    | nil => exact ⟨rfl, rfl⟩
    | cons x xs =>
      have := hb x rfl
      rw [List.nil_append, List.takeWhile_cons_of_neg (by simp [this]), List.dropWhile_cons_of_neg (by simp [this])]
      exact ⟨rfl, rfl⟩
  | cons x a ih =>
    have h := ih fun ch hc => ha ch (by simp [hc])
    have hx := ha x (by simp)
    rw [List.cons_append, List.takeWhile_cons_of_pos hx, List.dropWhile_cons_of_pos hx, h.1, h.2]
    exact ⟨rfl, rfl⟩

theorem cut_takeWhile (p : Char → Bool) (s : Str) : s = s.takeWhile p ++ s.dropWhile p ∧ (∀ ch ∈ s.takeWhile p, p ch = true) ∧
    ∀ ch, (s.dropWhile p).head? = some ch → p ch = false := by
  induction s with
  | nil => simp
  | cons x s ih =>
    cases hx : p x with
    | true =>
      rw [List.takeWhile_cons_of_pos hx, List.dropWhile_cons_of_pos hx]
      refine ⟨by rw [List.cons_append, ← ih.1], fun ch hc => ?_, ih.2.2⟩
      rcases List.mem_cons.1 hc with rfl | hc
      · exact hx
      · exact ih.2.1 ch hc
    | false =>
      rw [List.takeWhile_cons_of_neg (by simp [hx]), List.dropWhile_cons_of_neg (by simp [hx])]
      refine ⟨rfl, fun ch hc => (by cases hc), fun ch hc => ?_⟩
      simp at hc
      rw [← hc]; exact hx

theorem decimal_iff {s : Str} {n : Nat} : decimal s = some n ↔ ∃ ds more : Str, s = ds ++ more ∧ ds ≠ [] ∧ (∀ ch ∈ ds, ch.isDigit = true) ∧
    (∀ ch, more.head? = some ch → ch.isDigit = false) ∧ n = Nat.ofDigitChars 10 ds 0 := by
  have hf : isDigit = Char.isDigit := funext isDigit_eq
  unfold decimal
  rw [hf]
  obtain ⟨h1, h2, h3⟩ := cut_takeWhile Char.isDigit s
  constructor
  · intro h
    split at h
    · cases h
    · rename_i hn
      injection h with h
      exact ⟨_, _, h1, hn, h2, h3, by rw [← h, digits_fold]⟩
  · rintro ⟨ds, more, rfl, hn, hd, hm, rfl⟩
    rw [(takeWhile_cut hd hm).1, if_neg hn, digits_fold]

theorem bounded_iff {n p : Nat} : bounded n = some p ↔ n < 65536 ∧ p = n := by
  unfold bounded
  split
  · rename_i h; simp [h, eq_comm]
  · rename_i h; simp [h]

theorem digit_not_space {ch : Char} (h : ch.isDigit = true) : isSpace ch = false := by
  cases hs : isSpace ch with
  | false => rfl
  | true =>
    simp only [isSpace, Bool.or_eq_true, beq_iff_eq] at hs
    rcases hs with ((((rfl | rfl) | rfl) | rfl) | rfl) | rfl <;> revert h <;> decide

/-- The text of a port after the white space. -/
def Tail (s : Str) (p : Nat) : Prop :=
  ∃ sign ds more : Str, s = sign ++ ds ++ more ∧ (sign = [] ∨ sign = ['+'] ∨ sign = ['-']) ∧ ds ≠ [] ∧
    (∀ ch ∈ ds, ch.isDigit = true) ∧ (∀ ch, more.head? = some ch → ch.isDigit = false) ∧
    Nat.ofDigitChars 10 ds 0 < 65536 ∧ p = if sign = ['-'] then (65536 - Nat.ofDigitChars 10 ds 0) % 65536 else Nat.ofDigitChars 10 ds 0

def readTail (s : Str) : Option Nat :=
  match s with
  | '-' :: rest => (decimal rest).bind fun n => (bounded n).map fun n => (65536 - n) % 65536
  | '+' :: rest => (decimal rest).bind bounded
  | rest => (decimal rest).bind bounded

theorem plain_iff {s : Str} {p : Nat} : (decimal s).bind bounded = some p ↔ ∃ ds more : Str, s = ds ++ more ∧ ds ≠ [] ∧ (∀ ch ∈ ds, ch.isDigit = true) ∧
    (∀ ch, more.head? = some ch → ch.isDigit = false) ∧ Nat.ofDigitChars 10 ds 0 < 65536 ∧ p = Nat.ofDigitChars 10 ds 0 := by
  rw [Option.bind_eq_some_iff]
  constructor
  · rintro ⟨n, hn, hb⟩
    obtain ⟨ds, more, h1, h2, h3, h4, h5⟩ := decimal_iff.1 hn
    obtain ⟨h6, h7⟩ := bounded_iff.1 hb
    exact ⟨ds, more, h1, h2, h3, h4, h5 ▸ h6, h7.trans h5⟩
  · rintro ⟨ds, more, h1, h2, h3, h4, h5, h6⟩
    exact ⟨_, decimal_iff.2 ⟨ds, more, h1, h2, h3, h4, rfl⟩, bounded_iff.2 ⟨h5, h6⟩⟩

theorem minus_iff {s : Str} {p : Nat} : ((decimal s).bind fun n => (bounded n).map fun n => (65536 - n) % 65536) = some p ↔
    ∃ ds more : Str, s = ds ++ more ∧ ds ≠ [] ∧ (∀ ch ∈ ds, ch.isDigit = true) ∧
    (∀ ch, more.head? = some ch → ch.isDigit = false) ∧ Nat.ofDigitChars 10 ds 0 < 65536 ∧ p = (65536 - Nat.ofDigitChars 10 ds 0) % 65536 := by
  rw [Option.bind_eq_some_iff]
  constructor
  · rintro ⟨n, hn, hb⟩
    obtain ⟨ds, more, h1, h2, h3, h4, h5⟩ := decimal_iff.1 hn
    obtain ⟨q, hq, e⟩ := Option.map_eq_some_iff.1 hb
    obtain ⟨h6, h7⟩ := bounded_iff.1 hq
    exact ⟨ds, more, h1, h2, h3, h4, h5 ▸ h6, by rw [← e, h7, h5]⟩
  · rintro ⟨ds, more, h1, h2, h3, h4, h5, h6⟩
    exact ⟨_, decimal_iff.2 ⟨ds, more, h1, h2, h3, h4, rfl⟩, Option.map_eq_some_iff.2 ⟨_, bounded_iff.2 ⟨h5, rfl⟩, h6.symm⟩⟩

theorem readTail_iff {s : Str} {p : Nat} : readTail s = some p ↔ Tail s p := by
  unfold readTail
  split
  · rename_i rest
    rw [minus_iff]
    constructor
    · rintro ⟨ds, more, rfl, h2, h3, h4, h5, h6⟩
      exact ⟨['-'], ds, more, by simp, by simp, h2, h3, h4, h5, by simpa using h6⟩
    · rintro ⟨sign, ds, more, h1, hs, h2, h3, h4, h5, h6⟩
      rcases hs with rfl | rfl | rfl
      · cases ds with
        | nil => exact absurd rfl h2
        | cons x xs =>
          simp at h1
          have := h3 x (by simp)
          rw [← h1.1] at this
          exact absurd this (by decide)
      · simp at h1
      · simp at h1 h6
        exact ⟨ds, more, h1, h2, h3, h4, h5, h6⟩
  · rename_i rest
    rw [plain_iff]
    constructor
    · rintro ⟨ds, more, rfl, h2, h3, h4, h5, h6⟩
      exact ⟨['+'], ds, more, by simp, by simp, h2, h3, h4, h5, by simpa using h6⟩
    · rintro ⟨sign, ds, more, h1, hs, h2, h3, h4, h5, h6⟩
      rcases hs with rfl | rfl | rfl
      · cases ds with
        | nil => exact absurd rfl h2
        | cons x xs =>
          simp at h1
          have := h3 x (by simp)
          rw [← h1.1] at this
          exact absurd this (by decide)
      · simp at h1 h6
        exact ⟨ds, more, h1, h2, h3, h4, h5, h6⟩
      · simp at h1
  · rename_i n1 n2
    rw [plain_iff]
    constructor
    · rintro ⟨ds, more, h1, h2, h3, h4, h5, h6⟩
      exact ⟨[], ds, more, by simpa using h1, by simp, h2, h3, h4, h5, by simpa using h6⟩
    · rintro ⟨sign, ds, more, h1, hs, h2, h3, h4, h5, h6⟩
      rcases hs with rfl | rfl | rfl
      · exact ⟨ds, more, by simpa using h1, h2, h3, h4, h5, by simpa using h6⟩
      · exact absurd h1 (n2 _)
      · exact absurd h1 (n1 _)

theorem tail_head {s : Str} {p : Nat} (h : Tail s p) : ∀ ch, s.head? = some ch → isSpace ch = false := by
  obtain ⟨sign, ds, more, rfl, hs, h2, h3, _⟩ := h
  intro ch hc
  rcases hs with rfl | rfl | rfl
  · cases ds with
    | nil => exact absurd rfl h2
    | cons x xs =>
      simp at hc
      exact digit_not_space (h3 ch (by simp [hc]))
  · simp at hc; rw [← hc]; decide
  · simp at hc; rw [← hc]; decide

theorem mem_spaces {ch : Char} : ch ∈ spaces ↔ isSpace ch = true := by simp [spaces, isSpace, or_assoc]

theorem kind_schemes (s : Str) : kindOf s = (schemes.lookup s).getD .undefined := by
  unfold kindOf schemes
  by_cases h1 : s = "tcp".toList
  · subst h1; rfl
  · by_cases h2 : s = "silkit".toList
    · subst h2; rfl
    · by_cases h3 : s = "local".toList
      · subst h3; rfl
      · rw [if_neg h1, if_neg h2, if_neg h3]
        simp only [List.lookup, beq_eq_false_iff_ne.2 h1, beq_eq_false_iff_ne.2 h2, beq_eq_false_iff_ne.2 h3]
        rfl

theorem readPort_iff {s : Str} {p : Nat} : readPort s = some p ↔ PortText s p := by
  have e : readPort s = readTail (s.dropWhile isSpace) := rfl
  rw [e, readTail_iff]
  constructor
  · rintro ⟨sign, ds, more, h1, h⟩
    obtain ⟨c1, c2, _⟩ := cut_takeWhile isSpace s
    exact ⟨_, sign, ds, more, by rw [h1] at c1; simpa using c1, fun ch hc => mem_spaces.2 (c2 ch hc), h⟩
  · rintro ⟨sp, sign, ds, more, h1, hsp, h⟩
    have ht : Tail (sign ++ ds ++ more) p := ⟨sign, ds, more, rfl, h⟩
    have e : s = sp ++ (sign ++ ds ++ more) := by rw [h1]; simp
    rw [e, (takeWhile_cut (fun ch hc => mem_spaces.1 (hsp ch hc)) (tail_head ht)).2]
    exact ht

theorem portText_lt {s : Str} {p : Nat} (h : PortText s p) : p < 65536 := by
  obtain ⟨sp, sign, ds, more, _, _, _, _, _, _, h5, rfl⟩ := h
  split
  · exact Nat.mod_lt _ (by decide)
  · exact h5

theorem print_text {p : Nat} (h : p < 65536) : PortText (print p) p := by
  refine ⟨[], [], print p, [], by simp, fun _ h => (by cases h), .inl rfl, Nat.toDigits_ne_nil, fun ch hc => ?_, fun ch hc => (by cases hc), ?_, ?_⟩
  · exact Nat.isDigit_of_mem_toDigits (by decide) (by decide) hc
  · unfold print; rw [Nat.ofDigitChars_ten_toDigits]; exact h
  · unfold print; rw [Nat.ofDigitChars_ten_toDigits]; simp

theorem print_digit {p : Nat} {ch : Char} (h : ch ∈ print p) : ch.isDigit = true := Nat.isDigit_of_mem_toDigits (by decide) (by decide) h

/-! ## URIs -/

theorem authority_iff {s host : Str} {port : Option Nat} : authority s = some (host, port) ↔ host ≠ [] ∧
    ((':' ∉ s ∧ host = s ∧ port = none) ∨ ∃ text p, s = host ++ ':' :: text ∧ ':' ∉ text ∧ PortText text p ∧ port = some p) := by
  unfold authority
  cases hs : splitPort s with
  | none =>
    have hn := port_none.1 hs
    simp only
    constructor
    · intro h
      split at h
      · cases h
      · rename_i hne
        injection h with h
        injection h with h1 h2
        subst h1; subst h2
        exact ⟨hne, .inl ⟨hn, rfl, rfl⟩⟩
    · rintro ⟨hne, ⟨_, rfl, rfl⟩ | ⟨text, p, rfl, _⟩⟩
      · rw [if_neg hne]
      · exact absurd (by simp) hn
  | some q =>
    obtain ⟨a, b⟩ := q
    obtain ⟨e1, e2⟩ := port_some.1 hs
    simp only
    constructor
    · intro h
      cases hr : readPort b with
      | none => rw [hr] at h; cases h
      | some p =>
        rw [hr] at h
        simp only at h
        split at h
        · cases h
        · rename_i hne
          injection h with h
          injection h with h1 h2
          subst h1; subst h2
          exact ⟨hne, .inr ⟨b, p, e1, e2, readPort_iff.1 hr, rfl⟩⟩
    · rintro ⟨hne, ⟨hn, _⟩ | ⟨text, p, h1, h2, h3, rfl⟩⟩
      · exact absurd (by rw [e1]; simp) hn
      · have := port_some.2 ⟨h1, h2⟩
        rw [hs] at this
        injection this with this
        injection this with t1 t2
        subst t1; subst t2
        rw [readPort_iff.2 h3]
        simp only
        rw [if_neg hne]

theorem grammar_iff {rest host path : Str} {port : Option Nat} :
    (simulation (rest.dropWhile (· != '/')) = some path ∧ authority (rest.takeWhile (· != '/')) = some (host, port)) ↔ Grammar rest host port path := by
  obtain ⟨c1, c2, c3⟩ := cut_takeWhile (· != '/') rest
  unfold Grammar
  constructor
  · rintro ⟨h1, h2⟩
    obtain ⟨hne, h2⟩ := authority_iff.1 h2
    refine ⟨hne, _, _, c1, fun hm => ?_, ?_, h2⟩
    · have := c2 _ hm
      simp at this
    · unfold simulation at h1
      split at h1
      · rename_i e
        injection h1 with h1
        exact .inl ⟨e, h1.symm⟩
      · right
        rename_i hnn
        cases hd : rest.dropWhile (· != '/') with
        | nil => exact absurd hd hnn
        | cons x xs =>
          rw [hd] at h1
          have := c3 x (by rw [hd]; rfl)
          simp at this
          subst this
          obtain ⟨rfl, hl⟩ := (validate_slash _ _).1 h1
          exact ⟨rfl, hl⟩
  · rintro ⟨hne, auth, slash, rfl, hn, hsl, ha⟩
    have hh : ∀ ch, slash.head? = some ch → (ch != '/') = false := by
      intro ch hc
      rcases hsl with ⟨rfl, _⟩ | ⟨rfl, _⟩
      · cases hc
      · simp at hc; simp [hc.symm]
    have := takeWhile_cut (p := (· != '/')) (a := auth) (b := slash) (fun ch hc => by
      simp only [bne_iff_ne]
      intro he
      subst he
      exact hn hc) hh
    rw [this.1, this.2]
    refine ⟨?_, authority_iff.2 ⟨hne, ha⟩⟩
    unfold simulation
    rcases hsl with ⟨rfl, rfl⟩ | ⟨rfl, hl⟩
    · rfl
    · rw [if_neg (by simp)]
      exact (validate_slash _ _).2 ⟨rfl, hl⟩

theorem parse_iff {s : Str} {u : Uri} (hk : u.kind ≠ .local) : parse s = some u ↔ ∃ rest, FirstSep s u.scheme rest ∧ u.kind = kindOf u.scheme ∧
    Grammar rest u.host u.port u.path ∧ u.encoded = s := by
  unfold parse
  constructor
  · intro h
    cases hs : splitScheme s with
    | none => rw [hs] at h; cases h
    | some q =>
      obtain ⟨scheme, rest⟩ := q
      rw [hs] at h
      simp only at h
      split at h
      · injection h with h
        exact absurd (by rw [← h]) hk
      · cases h1 : simulation (rest.dropWhile (· != '/')) with
        | none => rw [h1] at h; cases h
        | some path =>
          rw [h1] at h
          simp only at h
          cases h2 : authority (rest.takeWhile (· != '/')) with
          | none => rw [h2] at h; cases h
          | some a =>
            obtain ⟨host, port⟩ := a
            rw [h2] at h
            simp only at h
            injection h with h
            subst h
            exact ⟨rest, split_iff.1 hs, rfl, grammar_iff.1 ⟨h1, h2⟩, rfl⟩
  · rintro ⟨rest, h1, h2, h3, h4⟩
    obtain ⟨g1, g2⟩ := grammar_iff.2 h3
    rw [split_iff.2 h1]
    simp only
    rw [if_neg (h2 ▸ hk), g1]
    simp only
    rw [g2]
    simp only
    rw [← h2, ← h4]

theorem firstSep_silkit (rest : Str) : FirstSep ("silkit://".toList ++ rest) "silkit".toList rest := split_iff.1 rfl
theorem firstSep_tcp (rest : Str) : FirstSep ("tcp://".toList ++ rest) "tcp".toList rest := split_iff.1 rfl

/-- What can be made of a host and a port, and what not. -/
theorem make_grammar {host slash n : Str} {p : Nat} {port : Option Nat} {path : Str} {h' : Str} (hp : p < 65536)
    (hs : (slash = [] ∧ n = []) ∨ (slash = '/' :: n ∧ Legal n ∧ NoRoot n)) :
    Grammar (host ++ ':' :: print p ++ slash) h' port path ↔ host ≠ [] ∧ '/' ∉ host ∧ h' = host ∧ port = some p ∧ path = n := by
  have pd : ∀ ch : Char, ch.isDigit = false → ch ∉ print p := fun ch h hm => by rw [print_digit hm] at h; cases h
  have fwd : host ≠ [] → '/' ∉ host → Grammar (host ++ ':' :: print p ++ slash) host (some p) n := by
    intro h1 h2
    refine ⟨h1, host ++ ':' :: print p, slash, rfl, ?_, hs, .inr ⟨print p, p, rfl, pd _ rfl, print_text hp, rfl⟩⟩
    simp only [List.mem_append, List.mem_cons]
    rintro (h | h | h)
    · exact h2 h
    · cases h
    · exact pd _ rfl h
  have uniq : ∀ {rest h1 h2 : Str} {p1 p2 : Option Nat} {q1 q2 : Str}, Grammar rest h1 p1 q1 → Grammar rest h2 p2 q2 → h1 = h2 ∧ p1 = p2 ∧ q1 = q2 := by
    intro rest h1 h2 p1 p2 q1 q2 g1 g2
    obtain ⟨a1, a2⟩ := grammar_iff.2 g1
    obtain ⟨b1, b2⟩ := grammar_iff.2 g2
    rw [a1] at b1
    rw [a2] at b2
    injection b1 with b1
    injection b2 with b2
    injection b2 with b2 b3
    exact ⟨b2, b3, b1⟩
  constructor
  · intro g
    have hh : '/' ∉ host := by
      intro hm
      obtain ⟨g0, auth, sl, e, hna, hsl, hau⟩ := g
      -- the first slash is in the host, so that the colon is in the path
      obtain ⟨c1, c2, c3⟩ := cut_takeWhile (· != '/') host
      have hd : host.dropWhile (· != '/') ≠ [] := by
        intro hnil
        rw [hnil, List.append_nil] at c1
        rw [c1] at hm
        have := c2 _ hm
        simp at this
      cases hx : host.dropWhile (· != '/') with
      | nil => exact hd hx
      | cons x xs =>
        have hxs := c3 x (by rw [hx]; rfl)
        simp at hxs
        subst hxs
        rw [hx] at c1
        have e' : host.takeWhile (· != '/') ++ ('/' :: (xs ++ (':' :: print p ++ slash))) = auth ++ sl := by
          rw [← e]
          conv => rhs; rw [c1]
          simp
        have t1 := takeWhile_cut (p := (· != '/')) (a := host.takeWhile (· != '/')) (b := '/' :: (xs ++ (':' :: print p ++ slash))) c2 (by
          intro ch hc
          simp at hc; simp [hc.symm])
        have t2 := takeWhile_cut (p := (· != '/')) (a := auth) (b := sl) (fun ch hc => by
          simp only [bne_iff_ne]; intro he; subst he; exact hna hc) (by
          intro ch hc
          rcases hsl with ⟨rfl, _⟩ | ⟨rfl, _⟩
          · cases hc
          · simp at hc; simp [hc.symm])
        rw [e'] at t1
        have hsl' := t1.2.symm.trans t2.2
        rcases hsl with ⟨rfl, _⟩ | ⟨rfl, hl, _⟩
        · cases hsl'
        · injection hsl' with _ hp'
          have := hl.1 ':' (by rw [← hp']; simp)
          revert this; decide +kernel
    have hne : host ≠ [] := by
      intro hnil
      subst hnil
      obtain ⟨g0, auth, sl, e, hna, hsl, hau⟩ := g
      have hf : ∀ ch, slash.head? = some ch → (ch != '/') = false := by
        intro ch hc
        rcases hs with ⟨rfl, _⟩ | ⟨rfl, _⟩
        · cases hc
        · simp at hc; simp [hc.symm]
      have t1 := takeWhile_cut (p := (· != '/')) (a := [] ++ ':' :: print p) (b := slash) (fun ch hc => by
        simp only [bne_iff_ne]; intro he; subst he
        simp only [List.nil_append, List.mem_cons] at hc
        rcases hc with hc | hc
        · cases hc
        · exact pd _ rfl hc) hf
      have t2 := takeWhile_cut (p := (· != '/')) (a := auth) (b := sl) (fun ch hc => by
          simp only [bne_iff_ne]; intro he; subst he; exact hna hc) (by
          intro ch hc
          rcases hsl with ⟨rfl, _⟩ | ⟨rfl, _⟩
          · cases hc
          · simp at hc; simp [hc.symm])
      rw [e] at t1
      have ha := t1.1.symm.trans t2.1
      rcases hau with ⟨hc, _⟩ | ⟨text, q, hq, hnt, _⟩
      · exact hc (by rw [← ha]; simp)
      · have s1 := port_some.2 ⟨hq, hnt⟩
        have s2 := port_some.2 ⟨ha.symm, pd ':' rfl⟩
        rw [s1] at s2
        injection s2 with s2
        injection s2 with s2
        exact g0 s2
    obtain ⟨e1, e2, e3⟩ := uniq g (fwd hne hh)
    exact ⟨hne, hh, e1, e2, e3⟩
  · rintro ⟨h1, h2, rfl, rfl, rfl⟩
    exact fwd h1 h2

end SilKit.Uri
