import Verif.Spec.Metrics
import Verif.Lemmas.Logging
/-! # Lemmas: the JSON texts of metrics -/
namespace SilKit.Metrics
open SilKit.Metrics.Spec
open SilKit.Logging (Text escape quoted)
open SilKit.Logging.Spec (pString Plain)
open SilKit.Logging (pString_end pString_char pString_control pString_esc pString_escape)

/-! ## Numbers -/

theorem digit_of_isDigit {c : Char} (h : c.isDigit = true) : digit c = true := by
  unfold Char.isDigit at h
  unfold digit
  simp only [Bool.and_eq_true, decide_eq_true_eq] at h ⊢
  exact ⟨h.1, h.2⟩

theorem digits_toDigits (n : Nat) : Digits (Nat.toDigits 10 n) :=
  ⟨Nat.toDigits_ne_nil, fun c hc => digit_of_isDigit (Nat.isDigit_of_mem_toDigits (by decide) (by decide) hc)⟩

theorem toDigits_head (n : Nat) : (Nat.toDigits 10 n).head? = some '0' → Nat.toDigits 10 n = ['0'] := by
  induction n using Nat.strongRecOn with
  | _ n ih =>
    by_cases h : n < 10
    · rw [Nat.toDigits_of_lt_base h]
      intro hx
      rw [List.head?_cons, Option.some.injEq] at hx
      rw [hx]
    · rw [Nat.toDigits_of_base_le (by decide) (Nat.le_of_not_lt h)]
      intro hx
      have hx' : (Nat.toDigits 10 (n / 10)).head? = some '0' := by
        cases hd : Nat.toDigits 10 (n / 10) with
        | nil => exact absurd hd Nat.toDigits_ne_nil
        | cons c l => rw [hd] at hx; exact hx
      have h0 := ih (n / 10) (by omega) hx'
      have h1 := congrArg (fun l => Nat.ofDigitChars 10 l 0) h0
      simp only [Nat.ofDigitChars_toDigits (by decide : 1 < 10) (by decide)] at h1
      have : Nat.ofDigitChars 10 ['0'] 0 = 0 := by decide
      rw [this] at h1
      omega

theorem number_toDigits (n : Nat) : Number (Nat.toDigits 10 n) :=
  ⟨[], Nat.toDigits 10 n, [], [], by simp, Or.inl rfl, digits_toDigits n, toDigits_head n, Or.inl rfl, Or.inl rfl⟩

theorem numeric_digit {c : Char} (h : digit c = true) : numeric c = true := by unfold numeric; rw [h]; rfl

theorem number_chars {t : Text} (h : Number t) : ∀ c ∈ t, numeric c = true := by
  obtain ⟨sign, int, frac, exp, rfl, hs, hi, _, hf, he⟩ := h
  intro c hc
  simp only [List.mem_append] at hc
  rcases hc with ((hc | hc) | hc) | hc
  · rcases hs with rfl | rfl
    · cases hc
    · rw [List.mem_singleton] at hc; subst hc; rfl
  · exact numeric_digit (hi.2 c hc)
  · rcases hf with rfl | ⟨ds, rfl, hd⟩
    · cases hc
    · rcases List.mem_cons.mp hc with rfl | hc
      · rfl
      · exact numeric_digit (hd.2 c hc)
  · rcases he with rfl | ⟨e, s, ds, rfl, he, hs, hd⟩
    · cases hc
    · rw [List.cons_append] at hc
      rcases List.mem_cons.mp hc with rfl | hc
      · rcases he with rfl | rfl <;> rfl
      · rcases List.mem_append.mp hc with hc | hc
        · rcases hs with rfl | rfl | rfl
          · cases hc
          · rw [List.mem_singleton] at hc; subst hc; rfl
          · rw [List.mem_singleton] at hc; subst hc; rfl
        · exact numeric_digit (hd.2 c hc)

theorem number_ne_nil {t : Text} (h : Number t) : t ≠ [] := by
  obtain ⟨sign, int, frac, exp, rfl, _, hi, _⟩ := h
  intro hx
  simp only [List.append_eq_nil_iff] at hx
  exact hi.1 hx.1.1.2

/-- A text cannot start with a number in two ways. -/
theorem number_split {a b r s : Text} (ha : ∀ c ∈ a, numeric c = true) (hb : ∀ c ∈ b, numeric c = true)
    (hr : ∀ c, r.head? = some c → numeric c = false) (hs : ∀ c, s.head? = some c → numeric c = false) (h : a ++ r = b ++ s) :
    a = b ∧ r = s := by
  induction a generalizing b with
  | nil =>
    cases b with
    | nil => exact ⟨rfl, h⟩
    | cons c b =>
      rw [List.nil_append, List.cons_append] at h
      have := hr c (by rw [h]; rfl)
      rw [hb c List.mem_cons_self] at this; cases this
  | cons c a ih =>
    cases b with
    | nil =>
      rw [List.nil_append, List.cons_append] at h
      have := hs c (by rw [← h]; rfl)
      rw [ha c List.mem_cons_self] at this; cases this
    | cons c' b =>
      rw [List.cons_append, List.cons_append] at h
      obtain ⟨h1, h2⟩ := List.cons.inj h
      obtain ⟨h3, h4⟩ := ih (fun c hc => ha c (List.mem_cons_of_mem _ hc)) (fun c hc => hb c (List.mem_cons_of_mem _ hc)) h2
      exact ⟨by rw [h1, h3], h4⟩

/-! ## A text has one meaning -/

theorem starts_cases {x : Text} {v : Json} {r : Text} (h : Starts x v r) :
    (∃ t, x = t ++ r ∧ Number t ∧ (∀ c, r.head? = some c → numeric c = false) ∧ v = .num t) ∨
    (∃ s t, x = '"' :: s ∧ pString s = some (t, r) ∧ v = .str t) ∨
    (x = '[' :: ']' :: r ∧ v = .arr []) ∨ (∃ s l, x = '[' :: s ∧ Items s l r ∧ v = .arr l) ∨
    (x = '{' :: '}' :: r ∧ v = .obj []) ∨ (∃ s l, x = '{' :: s ∧ Members s l r ∧ v = .obj l) := by
  cases h with
  | num h1 h2 => exact Or.inl ⟨_, rfl, h1, h2, rfl⟩
  | str h => exact Or.inr (Or.inl ⟨_, _, rfl, h, rfl⟩)
  | emptyArr => exact Or.inr (Or.inr (Or.inl ⟨rfl, rfl⟩))
  | arr h => exact Or.inr (Or.inr (Or.inr (Or.inl ⟨_, _, rfl, h, rfl⟩)))
  | emptyObj => exact Or.inr (Or.inr (Or.inr (Or.inr (Or.inl ⟨rfl, rfl⟩))))
  | obj h => exact Or.inr (Or.inr (Or.inr (Or.inr (Or.inr ⟨_, _, rfl, h, rfl⟩))))

theorem number_head {t r : Text} (h : Number t) {c : Char} {s : Text} (he : t ++ r = c :: s) : numeric c = true := by
  cases t with
  | nil => exact absurd rfl (number_ne_nil h)
  | cons d t =>
    rw [List.cons_append] at he
    rw [← (List.cons.inj he).1]
    exact number_chars h d List.mem_cons_self

/-- By the first character. -/
theorem starts_str {s : Text} {v : Json} {r : Text} (h : Starts ('"' :: s) v r) : ∃ t, pString s = some (t, r) ∧ v = .str t := by
  rcases starts_cases h with ⟨t, h1, h2, _⟩ | ⟨s', t, h1, h2, h3⟩ | ⟨h1, _⟩ | ⟨_, _, h1, _⟩ | ⟨h1, _⟩ | ⟨_, _, h1, _⟩
  · exact absurd (number_head h2 h1.symm) (by decide)
  · cases h1; exact ⟨t, h2, h3⟩
  all_goals exact absurd (List.cons.inj h1).1 (by decide)

theorem starts_arr {s : Text} {v : Json} {r : Text} (h : Starts ('[' :: s) v r) : (s = ']' :: r ∧ v = .arr []) ∨ ∃ l, Items s l r ∧ v = .arr l := by
  rcases starts_cases h with ⟨t, h1, h2, _⟩ | ⟨s', t, h1, h2, h3⟩ | ⟨h1, h2⟩ | ⟨_, l, h1, h2, h3⟩ | ⟨h1, _⟩ | ⟨_, _, h1, _⟩
  · exact absurd (number_head h2 h1.symm) (by decide)
  · exact absurd (List.cons.inj h1).1 (by decide)
  · cases h1; exact Or.inl ⟨rfl, h2⟩
  · cases h1; exact Or.inr ⟨l, h2, h3⟩
  all_goals exact absurd (List.cons.inj h1).1 (by decide)

theorem starts_obj {s : Text} {v : Json} {r : Text} (h : Starts ('{' :: s) v r) : (s = '}' :: r ∧ v = .obj []) ∨ ∃ l, Members s l r ∧ v = .obj l := by
  rcases starts_cases h with ⟨t, h1, h2, _⟩ | ⟨s', t, h1, h2, h3⟩ | ⟨h1, h2⟩ | ⟨_, l, h1, h2, h3⟩ | ⟨h1, h2⟩ | ⟨_, l, h1, h2, h3⟩
  · exact absurd (number_head h2 h1.symm) (by decide)
  · exact absurd (List.cons.inj h1).1 (by decide)
  · exact absurd (List.cons.inj h1).1 (by decide)
  · exact absurd (List.cons.inj h1).1 (by decide)
  · cases h1; exact Or.inl ⟨rfl, h2⟩
  · cases h1; exact Or.inr ⟨l, h2, h3⟩

theorem starts_num {t r : Text} (ht : Number t) (hr : ∀ c, r.head? = some c → numeric c = false) {v : Json} {r' : Text}
    (h : Starts (t ++ r) v r') : v = .num t ∧ r' = r := by
  rcases starts_cases h with ⟨t', h1, h2, h3, h4⟩ | ⟨s', t', h1, _⟩ | ⟨h1, _⟩ | ⟨_, _, h1, _⟩ | ⟨h1, _⟩ | ⟨_, _, h1, _⟩
  · obtain ⟨e1, e2⟩ := number_split (number_chars ht) (number_chars h2) hr h3 h1
    exact ⟨by rw [h4, e1], e2.symm⟩
  all_goals exact absurd (number_head ht h1) (by decide)

theorem not_starts_close {c : Char} {s : Text} (hc : c = ']' ∨ c = '}') {v : Json} {r : Text} : ¬ Starts (c :: s) v r := by
  intro h
  rcases starts_cases h with ⟨t, h1, h2, _⟩ | ⟨s', t, h1, _⟩ | ⟨h1, _⟩ | ⟨_, _, h1, _⟩ | ⟨h1, _⟩ | ⟨_, _, h1, _⟩
  · have := number_head h2 h1.symm
    rcases hc with rfl | rfl <;> exact absurd this (by decide)
  all_goals
    rcases hc with rfl | rfl <;> exact absurd (List.cons.inj h1).1 (by decide)

theorem items_close {s : Text} {l : List Json} {r : Text} : ¬ Items (']' :: s) l r := by
  intro h
  cases h with
  | last h => exact not_starts_close (Or.inl rfl) h
  | more h _ => exact not_starts_close (Or.inl rfl) h

theorem members_close {s : Text} {l : List (Text × Json)} {r : Text} : ¬ Members ('}' :: s) l r := by
  intro h; cases h

mutual
theorem starts_unique {x : Text} {v : Json} {r : Text} : Starts x v r → ∀ {v' r'}, Starts x v' r' → v = v' ∧ r = r'
  | .num ht hr, _, _, h => by obtain ⟨h1, h2⟩ := starts_num ht hr h; exact ⟨h1.symm, h2.symm⟩
  | .str hs, _, _, h => by
    obtain ⟨t, h1, h2⟩ := starts_str h
    rw [hs] at h1; cases h1; exact ⟨h2.symm, rfl⟩
  | .emptyArr, _, _, h => by
    rcases starts_arr h with ⟨h1, h2⟩ | ⟨l, h1, _⟩
    · cases h1; exact ⟨h2.symm, rfl⟩
    · exact absurd h1 items_close
  | .arr hi, _, _, h => by
    rcases starts_arr h with ⟨h1, h2⟩ | ⟨l, h1, h2⟩
    · subst h1; exact absurd hi items_close
    · obtain ⟨e1, e2⟩ := items_unique hi h1
      exact ⟨by rw [h2, e1], e2⟩
  | .emptyObj, _, _, h => by
    rcases starts_obj h with ⟨h1, h2⟩ | ⟨l, h1, _⟩
    · cases h1; exact ⟨h2.symm, rfl⟩
    · exact absurd h1 members_close
  | .obj hi, _, _, h => by
    rcases starts_obj h with ⟨h1, h2⟩ | ⟨l, h1, h2⟩
    · subst h1; exact absurd hi members_close
    · obtain ⟨e1, e2⟩ := members_unique hi h1
      exact ⟨by rw [h2, e1], e2⟩
theorem items_unique {x : Text} {l : List Json} {r : Text} : Items x l r → ∀ {l' r'}, Items x l' r' → l = l' ∧ r = r'
  | .last h, _, _, h' => by
    cases h' with
    | last h2 =>
      obtain ⟨e1, e2⟩ := starts_unique h h2
      cases e2; exact ⟨by rw [e1], rfl⟩
    | more h2 _ =>
      obtain ⟨_, e2⟩ := starts_unique h h2
      exact absurd (List.cons.inj e2).1 (by decide)
  | .more h hi, _, _, h' => by
    cases h' with
    | last h2 =>
      obtain ⟨_, e2⟩ := starts_unique h h2
      exact absurd (List.cons.inj e2).1 (by decide)
    | more h2 hi2 =>
      obtain ⟨e1, e2⟩ := starts_unique h h2
      cases e2
      obtain ⟨e3, e4⟩ := items_unique hi hi2
      exact ⟨by rw [e1, e3], e4⟩
theorem members_unique {x : Text} {l : List (Text × Json)} {r : Text} : Members x l r → ∀ {l' r'}, Members x l' r' → l = l' ∧ r = r'
  | .last hp h, _, _, h' => by
    cases h' with
    | last hp2 h2 =>
      rw [hp] at hp2; cases hp2
      obtain ⟨e1, e2⟩ := starts_unique h h2
      cases e2; exact ⟨by rw [e1], rfl⟩
    | more hp2 h2 _ =>
      rw [hp] at hp2; cases hp2
      obtain ⟨_, e2⟩ := starts_unique h h2
      exact absurd (List.cons.inj e2).1 (by decide)
  | .more hp h hi, _, _, h' => by
    cases h' with
    | last hp2 h2 =>
      rw [hp] at hp2; cases hp2
      obtain ⟨_, e2⟩ := starts_unique h h2
      exact absurd (List.cons.inj e2).1 (by decide)
    | more hp2 h2 hi2 =>
      rw [hp] at hp2; cases hp2
      obtain ⟨e1, e2⟩ := starts_unique h h2
      cases e2
      obtain ⟨e3, e4⟩ := members_unique hi hi2
      exact ⟨by rw [e1, e3], e4⟩
end

/-! ## Lists of strings -/

theorem pString_listEscape {t : Text} (h : NoControl t) (r : Text) : pString (t.flatMap listEscapeChar ++ '"' :: r) = some (t, r) := by
  induction t with
  | nil => exact pString_end r
  | cons c t ih =>
    have hc := h c List.mem_cons_self
    have ih := ih (fun d hd => h d (List.mem_cons_of_mem _ hd))
    rw [List.flatMap_cons, List.append_assoc]
    rw [show listEscapeChar c = if c = '\\' then ['\\', '\\'] else if c = '"' then ['\\', '"'] else [c] from rfl]
    by_cases hb : c = '\\'
    · rw [if_pos hb, hb]
      rw [show (['\\', '\\'] : Text) ++ (t.flatMap listEscapeChar ++ '"' :: r) = '\\' :: '\\' :: (t.flatMap listEscapeChar ++ '"' :: r) from rfl,
        pString_esc (d := '\\') (by decide) (by decide), ih]; rfl
    · rw [if_neg hb]
      by_cases hq : c = '"'
      · rw [if_pos hq, hq]
        rw [show (['\\', '"'] : Text) ++ (t.flatMap listEscapeChar ++ '"' :: r) = '\\' :: '"' :: (t.flatMap listEscapeChar ++ '"' :: r) from rfl,
          pString_esc (d := '"') (by decide) (by decide), ih]; rfl
      · rw [if_neg hq]
        rw [show ([c] : Text) ++ (t.flatMap listEscapeChar ++ '"' :: r) = c :: (t.flatMap listEscapeChar ++ '"' :: r) from rfl,
          pString_char hq hb hc, ih]; rfl

theorem pString_listEscape_control {t : Text} (h : ¬ NoControl t) (r : Text) : pString (t.flatMap listEscapeChar ++ r) = none := by
  induction t with
  | nil => exact absurd (fun c hc => nomatch hc) h
  | cons c t ih =>
    rw [List.flatMap_cons, List.append_assoc]
    by_cases hc : 32 ≤ c.toNat
    · have ih := ih (fun hh => h fun d hd => by
        rcases List.mem_cons.mp hd with rfl | hd
        · exact hc
        · exact hh d hd)
      rw [show listEscapeChar c = if c = '\\' then ['\\', '\\'] else if c = '"' then ['\\', '"'] else [c] from rfl]
      by_cases hb : c = '\\'
      · rw [if_pos hb]
        rw [show (['\\', '\\'] : Text) ++ (t.flatMap listEscapeChar ++ r) = '\\' :: '\\' :: (t.flatMap listEscapeChar ++ r) from rfl,
          pString_esc (d := '\\') (by decide) (by decide), ih]; rfl
      · rw [if_neg hb]
        by_cases hq : c = '"'
        · rw [if_pos hq]
          rw [show (['\\', '"'] : Text) ++ (t.flatMap listEscapeChar ++ r) = '\\' :: '"' :: (t.flatMap listEscapeChar ++ r) from rfl,
            pString_esc (d := '"') (by decide) (by decide), ih]; rfl
        · rw [if_neg hq]
          rw [show ([c] : Text) ++ (t.flatMap listEscapeChar ++ r) = c :: (t.flatMap listEscapeChar ++ r) from rfl,
            pString_char hq hb hc, ih]; rfl
    · have hb : c ≠ '\\' := by rintro rfl; exact hc (by decide)
      have hq : c ≠ '"' := by rintro rfl; exact hc (by decide)
      rw [show listEscapeChar c = if c = '\\' then ['\\', '\\'] else if c = '"' then ['\\', '"'] else [c] from rfl]
      rw [if_neg hb, if_neg hq]
      exact pString_control (by omega)

theorem starts_listString {t : Text} (h : NoControl t) (r : Text) : Starts (listString t ++ r) (.str t) r := by
  have : listString t ++ r = '"' :: (t.flatMap listEscapeChar ++ '"' :: r) := by simp [listString, quoted]
  rw [this]
  exact .str (pString_listEscape h r)

theorem items_list {l : List Text} (hl : l ≠ []) (h : ∀ t ∈ l, NoControl t) (r : Text) : Items (listItems l ++ ']' :: r) (l.map .str) r := by
  induction l with
  | nil => exact absurd rfl hl
  | cons t l ih =>
    cases l with
    | nil => exact .last (starts_listString (h t List.mem_cons_self) _)
    | cons t' l =>
      have : listItems (t :: t' :: l) ++ ']' :: r = listString t ++ ',' :: (listItems (t' :: l) ++ ']' :: r) := by simp [listItems]
      rw [this]
      exact .more (starts_listString (h t List.mem_cons_self) _) (ih (by simp) (fun x hx => h x (List.mem_cons_of_mem _ hx)))

theorem starts_number {t : Text} (h : Number t) {c : Char} (hc : numeric c = false) (r : Text) : Starts (t ++ c :: r) (.num t) (c :: r) :=
  .num h (fun d hd => by rw [List.head?_cons, Option.some.injEq] at hd; rw [← hd]; exact hc)

/-! ## Lines -/

theorem starts_escaped {t : Text} (h : Plain t) (r : Text) : Starts (quoted (escape t) ++ r) (.str t) r := by
  have : quoted (escape t) ++ r = '"' :: (escape t ++ '"' :: r) := by simp [quoted]
  rw [this]
  exact .str (pString_escape h r)

theorem pString_two {a b : Char} (ha : 32 ≤ a.toNat ∧ a ≠ '"' ∧ a ≠ '\\') (hb : 32 ≤ b.toNat ∧ b ≠ '"' ∧ b ≠ '\\') (r : Text) :
    pString (a :: b :: '"' :: r) = some ([a, b], r) := by
  rw [pString_char ha.2.1 ha.2.2 ha.1, pString_char hb.2.1 hb.2.2 hb.1, pString_end]; rfl

theorem kind_plain (k : Kind) : Plain k.text ∧ escape k.text = k.text := by
  cases k <;> exact ⟨by unfold Plain; decide +kernel, by decide +kernel⟩

theorem starts_value {num : Stat → Text} (hnum : WritesNumbers num) {v : Value} (hp : ∀ t, v = .attribute t → Plain t)
    (hl : ∀ l, v = .strings l → ∀ t ∈ l, NoControl t) (r : Text) :
    ∃ j, Encodes num v j ∧ Starts ((if v.kind = .attribute then quoted (escape (format num v)) else format num v) ++ '}' :: r) j ('}' :: r) := by
  cases v with
  | counter n => exact ⟨_, rfl, starts_number (number_toDigits n) (by decide) r⟩
  | «attribute» t => exact ⟨_, rfl, starts_escaped (hp t rfl) _⟩
  | strings l =>
    refine ⟨_, rfl, ?_⟩
    cases l with
    | nil => exact .emptyArr
    | cons t l =>
      have : (if (Value.strings (t :: l)).kind = Kind.attribute then quoted (escape (format num (.strings (t :: l)))) else
          format num (.strings (t :: l))) ++ '}' :: r = '[' :: (listItems (t :: l) ++ ']' :: '}' :: r) := by
        simp [Value.kind, format]
      rw [this]
      exact .arr (items_list (by simp) (hl _ rfl) _)
  | statistic s =>
    obtain ⟨a, b, c, d, hs, ha, hb, hc, hd⟩ := hnum s
    refine ⟨_, ⟨a, b, c, d, hs, rfl⟩, ?_⟩
    have : (if (Value.statistic s).kind = Kind.attribute then quoted (escape (format num (.statistic s))) else format num (.statistic s)) ++ '}' :: r =
        '[' :: (a ++ ',' :: (b ++ ',' :: (c ++ ',' :: (d ++ ']' :: '}' :: r)))) := by
      simp [Value.kind, format, hs]
    rw [this]
    exact .arr (.more (starts_number ha (by decide) _) (.more (starts_number hb (by decide) _) (.more (starts_number hc (by decide) _)
      (.last (starts_number hd (by decide) _)))))

theorem jsonLine_eq (num : Stat → Text) (origin : Text) (d : Data) :
    jsonLine num origin d = '{' :: ('"' :: ('t' :: 's' :: '"' :: ':' :: (Nat.toDigits 10 d.timestamp ++ ',' :: ('"' :: ('p' :: 'n' :: '"' :: ':' ::
      (quoted (escape origin) ++ ',' :: ('"' :: ('m' :: 'n' :: '"' :: ':' :: (quoted (escape d.name) ++ ',' :: ('"' :: ('m' :: 'k' :: '"' :: ':' ::
      (quoted d.value.kind.text ++ ',' :: ('"' :: ('m' :: 'v' :: '"' :: ':' ::
      ((if d.value.kind = .attribute then quoted (escape (format num d.value)) else format num d.value) ++ '}' :: ['\n']))))))))))))))) := by
  simp [jsonLine, quoted]

theorem line_reads {num : Stat → Text} (hnum : WritesNumbers num) {origin : Text} {d : Data} (ho : Plain origin) (hn : Plain d.name)
    (hp : ∀ t, d.value = .attribute t → Plain t) (hl : ∀ l, d.value = .strings l → ∀ t ∈ l, NoControl t) :
    ∃ j, Encodes num d.value j ∧ Line (jsonLine num origin d) (lineObject d origin d.value.kind.text j) := by
  obtain ⟨j, hj, hs⟩ := starts_value hnum hp hl ['\n']
  refine ⟨j, hj, ?_⟩
  unfold Line lineObject
  rw [jsonLine_eq]
  have hk : Starts (quoted d.value.kind.text ++ ',' :: ('"' :: ('m' :: 'v' :: '"' :: ':' ::
      ((if d.value.kind = .attribute then quoted (escape (format num d.value)) else format num d.value) ++ '}' :: ['\n'])))) (.str d.value.kind.text)
      (',' :: ('"' :: ('m' :: 'v' :: '"' :: ':' ::
      ((if d.value.kind = .attribute then quoted (escape (format num d.value)) else format num d.value) ++ '}' :: ['\n'])))) := by
    have := starts_escaped (kind_plain d.value.kind).1
    rw [(kind_plain d.value.kind).2] at this
    exact this _
  exact .obj (.more (pString_two (by decide) (by decide) _) (starts_number (number_toDigits _) (by decide) _)
    (.more (pString_two (by decide) (by decide) _) (starts_escaped ho _)
    (.more (pString_two (by decide) (by decide) _) (starts_escaped hn _)
    (.more (pString_two (by decide) (by decide) _) hk
    (.last (pString_two (by decide) (by decide) _) hs)))))

end SilKit.Metrics
