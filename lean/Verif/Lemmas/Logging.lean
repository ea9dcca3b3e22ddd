import Verif.Spec.Logging
/-!
# Lemmas: logging
-/
namespace SilKit.Logging
open Spec

/-! ## JSON -/

theorem pString_end (r : Text) : pString ('"' :: r) = some ([], r) := by rw [pString]

theorem pString_char {c : Char} {r : Text} (h1 : c ≠ '"') (h2 : c ≠ '\\') (h3 : 32 ≤ c.toNat) :
    pString (c :: r) = (pString r).map (fun x => (c :: x.1, x.2)) := by
  rw [pString.eq_def]
  split
  · next heq => cases heq
  · next heq => cases heq; exact absurd rfl h1
  · next heq => cases heq; exact absurd rfl h2
  · next heq => cases heq; exact absurd rfl h2
  · next heq => cases heq; exact if_neg (fun hx => hx.elim (by omega) h2)

theorem pString_control {c : Char} {r : Text} (h3 : c.toNat < 32) : pString (c :: r) = none := by
  have h1 : c ≠ '"' := by rintro rfl; revert h3; decide
  have h2 : c ≠ '\\' := by rintro rfl; revert h3; decide
  rw [pString.eq_def]
  split
  · next heq => cases heq
  · next heq => cases heq; exact absurd rfl h1
  · next heq => cases heq; exact absurd rfl h2
  · next heq => cases heq; exact absurd rfl h2
  · next heq => cases heq; exact if_pos (Or.inl h3)

theorem pString_esc {c d : Char} {r : Text} (hu : c ≠ 'u') (h : unescape c = some d) :
    pString ('\\' :: c :: r) = (pString r).map (fun x => (d :: x.1, x.2)) := by
  rw [pString.eq_def]
  split
  · next heq => cases heq
  · next heq => cases heq
  · next heq => cases heq; exact absurd rfl hu
  · next heq => cases heq; rw [h]
  · next hn heq => cases heq; exact absurd rfl (hn _ _ rfl)

theorem char_of_toNat {c : Char} {n : Nat} (h : c.toNat = n) : c = Char.ofNat n := by rw [← h, Char.ofNat_toNat]

theorem escape_cons (c : Char) (t : Text) : escape (c :: t) = escapeChar c ++ escape t := rfl

theorem pString_escapeChar {c : Char} (hc : 32 ≤ c.toNat ∨ c.toNat = 8 ∨ c.toNat = 9 ∨ c.toNat = 10 ∨ c.toNat = 12 ∨ c.toNat = 13)
    (s : Text) : pString (escapeChar c ++ s) = (pString s).map (fun x => (c :: x.1, x.2)) := by
  unfold escapeChar
  by_cases h8 : c.toNat = 8
  · rw [if_pos h8, char_of_toNat h8]; exact pString_esc (by decide) (by decide)
  rw [if_neg h8]
  by_cases h9 : c.toNat = 9
  · rw [if_pos h9, char_of_toNat h9]; exact pString_esc (by decide) (by decide)
  rw [if_neg h9]
  by_cases h10 : c.toNat = 10
  · rw [if_pos h10, char_of_toNat h10]; exact pString_esc (by decide) (by decide)
  rw [if_neg h10]
  by_cases h12 : c.toNat = 12
  · rw [if_pos h12, char_of_toNat h12]; exact pString_esc (by decide) (by decide)
  rw [if_neg h12]
  by_cases h13 : c.toNat = 13
  · rw [if_pos h13, char_of_toNat h13]; exact pString_esc (by decide) (by decide)
  rw [if_neg h13]
  by_cases hq : c = '"'
  · rw [if_pos hq, hq]; exact pString_esc (by decide) (by decide)
  rw [if_neg hq]
  by_cases hb : c = '\\'
  · rw [if_pos hb, hb]; exact pString_esc (by decide) (by decide)
  rw [if_neg hb]
  exact pString_char hq hb (by omega)

/-- What `EscapeString` makes of a text is read back as the text. -/
theorem pString_escape {t : Text} (h : Plain t) (r : Text) : pString (escape t ++ '"' :: r) = some (t, r) := by
  induction t with
  | nil => exact pString_end r
  | cons c t ih =>
    rw [escape_cons, List.append_assoc, pString_escapeChar (h c List.mem_cons_self), ih (fun c hc => h c (List.mem_cons_of_mem _ hc))]
    rfl

/-- A text that needs no escapes is read as it is. -/
theorem pString_clean {t : Text} (h : Clean t) (r : Text) : pString (t ++ '"' :: r) = some (t, r) := by
  induction t with
  | nil => exact pString_end r
  | cons c t ih =>
    have hc := h c List.mem_cons_self
    rw [List.cons_append, pString_char hc.2.1 hc.2.2 hc.1, ih (fun c hc => h c (List.mem_cons_of_mem _ hc))]; rfl

/-- A text with another control character is not read at all. -/
theorem pString_not_plain {t : Text} (h : ¬ Plain t) (r : Text) : pString (escape t ++ r) = none := by
  induction t with
  | nil => exact absurd (nofun) h
  | cons c t ih =>
    rw [escape_cons, List.append_assoc]
    by_cases hc : 32 ≤ c.toNat ∨ c.toNat = 8 ∨ c.toNat = 9 ∨ c.toNat = 10 ∨ c.toNat = 12 ∨ c.toNat = 13
    · have ih := ih (fun hp => h (fun x hx => by
        rcases List.mem_cons.mp hx with rfl | hx
        · exact hc
        · exact hp x hx))
      rw [pString_escapeChar hc, ih]; rfl
    · have : escapeChar c = [c] := by
        unfold escapeChar
        have hq : c ≠ '"' := by rintro rfl; exact hc (by decide)
        have hb : c ≠ '\\' := by rintro rfl; exact hc (by decide)
        rw [if_neg (by omega), if_neg (by omega), if_neg (by omega), if_neg (by omega), if_neg (by omega), if_neg hq, if_neg hb]
      rw [this]
      exact pString_control (by omega)

/-! ### More fuel does not change the result -/

theorem parse_mono (f : Nat) :
    (∀ s x, pValue f s = some x → pValue (f + 1) s = some x) ∧ (∀ s x, pMembers f s = some x → pMembers (f + 1) s = some x) := by
  induction f with
  | zero =>
    constructor
    · intro s x h; rw [pValue] at h; cases h
    · intro s x h; rw [pMembers] at h; cases h
  | succ f ih =>
    obtain ⟨ihv, ihm⟩ := ih
    constructor
    · intro s x h
      rw [pValue] at h ⊢
      split at h
      · exact h
      · split at h
        · exact h
        · obtain ⟨y, hy, rfl⟩ := Option.map_eq_some_iff.mp h
          rw [ihm _ _ hy]; rfl
      · cases h
    · intro s x h
      rw [pMembers] at h ⊢
      split at h
      · split at h
        · cases h
        · split at h
          · split at h
            · cases h
            · next hv =>
              rw [ihv _ _ hv]
              dsimp only
              split at h
              · obtain ⟨y, hy, rfl⟩ := Option.map_eq_some_iff.mp h
                rw [ihm _ _ hy]; rfl
              · exact h
              · cases h
          · cases h
      · cases h

theorem pValue_mono {f g : Nat} {s x} (hfg : f ≤ g) (h : pValue f s = some x) : pValue g s = some x := by
  induction hfg with
  | refl => exact h
  | step _ ih => exact (parse_mono _).1 _ _ ih

/-- A text has at most one value. -/
theorem reads_unique {t : Text} {v w : Json} (h1 : Reads t v) (h2 : Reads t w) : v = w := by
  obtain ⟨f, r, h1, _⟩ := h1
  obtain ⟨g, r', h2, _⟩ := h2
  have a := pValue_mono (Nat.le_max_left f g) h1
  have b := pValue_mono (Nat.le_max_right f g) h2
  rw [a] at b
  cases b
  rfl

/-! ### Lines -/

theorem value_str {f : Nat} {s t x r : Text} (hs : ws s = '"' :: t) (ht : pString t = some (x, r)) :
    pValue (f + 1) s = some (.str x, r) := by
  simp only [pValue, hs, ht, Option.map_some]

theorem value_obj {f : Nat} {s r r' rest : Text} {ms} (hs : ws s = '{' :: r) (hr : ws r = '"' :: r') (hm : pMembers f ('"' :: r') = some (ms, rest)) :
    pValue (f + 1) s = some (.obj ms, rest) := by
  simp only [pValue, hs, hr]
  split
  · next heq => simp at heq
  · rw [hm]; rfl

theorem members_more {f : Nat} {s kt k r0 r1 r2 r3 rest : Text} {x : Json} {ms} (hs : ws s = '"' :: kt) (hk : pString kt = some (k, r0))
    (h0 : ws r0 = ':' :: r1) (hv : pValue f r1 = some (x, r2)) (h2 : ws r2 = ',' :: r3) (hm : pMembers f r3 = some (ms, rest)) :
    pMembers (f + 1) s = some ((k, x) :: ms, rest) := by
  simp only [pMembers, hs, hk, h0, hv, h2, hm, Option.map_some]

theorem members_last {f : Nat} {s kt k r0 r1 r2 r3 : Text} {x : Json} (hs : ws s = '"' :: kt) (hk : pString kt = some (k, r0))
    (h0 : ws r0 = ':' :: r1) (hv : pValue f r1 = some (x, r2)) (h2 : ws r2 = '}' :: r3) :
    pMembers (f + 1) s = some ([(k, x)], r3) := by
  simp only [pMembers, hs, hk, h0, hv, h2]

theorem ws_cons {c : Char} {r : Text} (h : ¬(c = ' ' ∨ c = '\t' ∨ c = '\n' ∨ c = '\r')) : ws (c :: r) = c :: r := by
  rw [ws, if_neg h]

theorem ws_space (r : Text) : ws (' ' :: r) = ws r := by rw [ws, if_pos (Or.inl rfl)]

theorem ws_quote (r : Text) : ws ('"' :: r) = '"' :: r := ws_cons (by decide)
theorem ws_colon (r : Text) : ws (':' :: r) = ':' :: r := ws_cons (by decide)
theorem ws_comma (r : Text) : ws (',' :: r) = ',' :: r := ws_cons (by decide)
theorem ws_brace (r : Text) : ws ('}' :: r) = '}' :: r := ws_cons (by decide)
theorem ws_open (r : Text) : ws ('{' :: r) = '{' :: r := ws_cons (by decide)

theorem jsonLine_eq (time : Nat) (name : Text) (spd : Nat) (v : Text) :
    jsonLine time name spd v = '{' :: '"' :: 't' :: 's' :: '"' :: ':' :: '"' :: (micros time ++ '"' :: ',' :: '"' :: 'l' :: 'o' :: 'g' ::
      '"' :: ':' :: '"' :: (name ++ '"' :: ',' :: '"' :: 'l' :: 'v' :: 'l' :: '"' :: ':' :: '"' :: (levelName spd ++ '"' :: ',' :: ' ' ::
      (v ++ [' ', '}'])))) := by
  unfold jsonLine
  rw [show "{\"ts\":\"".toList = ['{', '"', 't', 's', '"', ':', '"'] from rfl,
    show "\",\"log\":\"".toList = ['"', ',', '"', 'l', 'o', 'g', '"', ':', '"'] from rfl,
    show "\",\"lvl\":\"".toList = ['"', ',', '"', 'l', 'v', 'l', '"', ':', '"'] from rfl,
    show "\", ".toList = ['"', ',', ' '] from rfl, show " }".toList = [' ', '}'] from rfl]
  simp only [List.append_assoc, List.cons_append, List.nil_append]

theorem jsonText_eq (topic : Nat) (text : Text) (kvs) (r : Text) :
    jsonText topic text kvs ++ r =
      (if topic = topicNone then [] else '"' :: 't' :: 'o' :: 'p' :: 'i' :: 'c' :: '"' :: ':' :: ' ' :: '"' :: (escape (topicName topic) ++
        ['"', ',', ' '])) ++ '"' :: 'm' :: 's' :: 'g' :: '"' :: ':' :: ' ' :: '"' :: (escape text ++ '"' ::
      ((if kvs = [] then [] else ',' :: ' ' :: '"' :: 'k' :: 'v' :: '"' :: ':' :: ' ' :: '{' :: (kvsJsonBody kvs ++ ['}'])) ++ r)) := by
  unfold jsonText kvsJson quoted
  rw [show "\"topic\": ".toList = ['"', 't', 'o', 'p', 'i', 'c', '"', ':', ' '] from rfl,
    show "\"msg\": ".toList = ['"', 'm', 's', 'g', '"', ':', ' '] from rfl,
    show ", \"kv\": ".toList = [',', ' ', '"', 'k', 'v', '"', ':', ' '] from rfl, show ", ".toList = [',', ' '] from rfl]
  split <;> split <;> simp only [List.append_assoc, List.cons_append, List.nil_append]

theorem kvJson_eq {e : Text × Text} (h : e.1 ≠ keyRaw) (r : Text) :
    kvJson e ++ r = '"' :: (escape e.1 ++ '"' :: ':' :: '"' :: (escape e.2 ++ '"' :: r)) := by
  unfold kvJson quoted
  rw [if_neg h]
  simp only [List.append_assoc, List.cons_append, List.nil_append]

theorem kvs_members {kvs : List (Text × Text)} (h : PlainPairs kvs) (hne : kvs ≠ []) (f : Nat) (r : Text) :
    pMembers (f + kvs.length + 1) (kvsJsonBody kvs ++ '}' :: r) = some (kvs.map (fun e => (e.1, .str e.2)), r) := by
  induction kvs with
  | nil => exact absurd rfl hne
  | cons e l ih =>
    have he := h e List.mem_cons_self
    cases l with
    | nil =>
      rw [kvsJsonBody, kvJson_eq he.2.2]
      exact members_last (ws_quote _) (pString_escape he.1 _) (ws_colon _) (value_str (f := f) (ws_quote _) (pString_escape he.2.1 _))
        (ws_brace _)
    | cons e' l =>
      have ih := ih (fun x hx => h x (List.mem_cons_of_mem _ hx)) (by simp)
      rw [kvsJsonBody, List.append_assoc, kvJson_eq he.2.2]
      · exact members_more (ws_quote _) (pString_escape he.1 _) (ws_colon _)
          (value_str (f := f + (e' :: l).length) (ws_quote _) (pString_escape he.2.1 _)) (ws_comma _) ih
      · simp

theorem kvsJsonBody_quote {kvs : List (Text × Text)} (hne : kvs ≠ []) (r : Text) : ∃ r', kvsJsonBody kvs ++ r = '"' :: r' := by
  match kvs, hne with
  | [e], _ => exact ⟨_, rfl⟩
  | e :: e' :: l, _ => exact ⟨_, rfl⟩

theorem topicName_clean (t : Nat) : Clean (topicName t) := by
  unfold topicName
  cases h : Wire.topicNames.find? (fun e => e.1 == t) with
  | none => unfold Clean; decide
  | some e =>
    have hm := List.mem_of_find?_eq_some h
    have : ∀ e ∈ Wire.topicNames, ∀ c ∈ e.2, 32 ≤ c.toNat ∧ c ≠ '"' ∧ c ≠ '\\' := by decide
    exact this e hm

theorem clean_plain {t : Text} (h : Clean t) : Plain t := fun c hc => Or.inl (h c hc).1

theorem clean_escape {t : Text} (h : Clean t) : escape t = t := by
  induction t with
  | nil => rfl
  | cons c t ih =>
    have hc := h c List.mem_cons_self
    rw [escape_cons, ih (fun c hc => h c (List.mem_cons_of_mem _ hc))]
    have : escapeChar c = [c] := by
      unfold escapeChar
      rw [if_neg (by omega), if_neg (by omega), if_neg (by omega), if_neg (by omega), if_neg (by omega), if_neg hc.2.1, if_neg hc.2.2]
    rw [this]; rfl

theorem levelName_clean (n : Nat) : Clean (levelName n) := by
  unfold levelName Clean
  split <;> decide

theorem digits_clean (n : Nat) : Clean (Nat.toDigits 10 n) := by
  intro c hc
  have h : c.isDigit = true := Nat.isDigit_of_mem_toDigits (by decide) (by decide) hc
  simp only [Char.isDigit, Bool.and_eq_true, decide_eq_true_eq] at h
  have h1 : (48 : Nat) ≤ c.toNat := h.1
  have h2 : c.toNat ≤ 57 := h.2
  refine ⟨by omega, ?_, ?_⟩
  · rintro rfl; revert h1; decide
  · rintro rfl; revert h2; decide

/-- The end of a line from the member `kv` on. -/
theorem kv_member {kvs : List (Text × Text)} (h : PlainPairs kvs) (hne : kvs ≠ []) (f : Nat) :
    pMembers (f + kvs.length + 3) (' ' :: '"' :: 'k' :: 'v' :: '"' :: ':' :: ' ' :: '{' :: (kvsJsonBody kvs ++ ['}', ' ', '}'])) =
      some ([(['k', 'v'], .obj (kvs.map (fun e => (e.1, .str e.2))))], []) := by
  obtain ⟨r', hr'⟩ := kvsJsonBody_quote hne ['}', ' ', '}']
  refine members_last (kt := 'k' :: 'v' :: '"' :: _) (by rw [ws_space, ws_quote])
    (pString_clean (t := ['k', 'v']) (by unfold Clean; decide) _) (ws_colon _) (r2 := [' ', '}'])
    (value_obj (f := f + kvs.length + 1) (s := ' ' :: '{' :: (kvsJsonBody kvs ++ ['}', ' ', '}'])) (r' := r') (by rw [ws_space, ws_open])
      (by rw [hr', ws_quote]) ?_) (by rw [ws_space, ws_brace])
  rw [← hr']
  exact kvs_members h hne f [' ', '}']

/-- The end of a line from the member `msg` on. -/
theorem msg_member {text : Text} {kvs : List (Text × Text)} (ht : Plain text) (h : PlainPairs kvs) (f : Nat) (s : Text)
    (hs : ws s = '"' :: 'm' :: 's' :: 'g' :: '"' :: ':' :: ' ' :: '"' :: (escape text ++ '"' ::
      ((if kvs = [] then [] else ',' :: ' ' :: '"' :: 'k' :: 'v' :: '"' :: ':' :: ' ' :: '{' :: (kvsJsonBody kvs ++ ['}'])) ++ [' ', '}']))) :
    pMembers (f + kvs.length + 4) s =
      some ((['m', 's', 'g'], .str text) :: (if kvs = [] then [] else [(['k', 'v'], .obj (kvs.map (fun e => (e.1, .str e.2))))]), []) := by
  by_cases hk : kvs = []
  · rw [if_pos hk] at hs ⊢
    exact members_last hs (pString_clean (t := ['m', 's', 'g']) (by unfold Clean; decide) _) (ws_colon _)
      (value_str (f := f + kvs.length + 2) (by rw [ws_space, ws_quote]) (pString_escape ht _)) (by rw [List.nil_append, ws_space, ws_brace])
  · rw [if_neg hk] at hs ⊢
    refine members_more hs (pString_clean (t := ['m', 's', 'g']) (by unfold Clean; decide) _) (ws_colon _)
      (value_str (f := f + kvs.length + 2) (by rw [ws_space, ws_quote]) (pString_escape ht _)) (by rw [List.cons_append, ws_comma]) ?_
    have := kv_member h hk f
    simpa only [List.append_assoc, List.cons_append, List.nil_append] using this

/-- The end of a line from the text of the message on. -/
theorem text_members {topic : Nat} {text : Text} {kvs : List (Text × Text)} (ht : Plain text) (h : PlainPairs kvs) (f : Nat) :
    pMembers (f + kvs.length + 5) (' ' :: (jsonText topic text kvs ++ [' ', '}'])) =
      some ((if topic = topicNone then [] else [("topic".toList, .str (topicName topic))]) ++ [("msg".toList, .str text)] ++
        (if kvs = [] then [] else [("kv".toList, .obj (kvs.map (fun e => (e.1, .str e.2))))]), []) := by
  rw [show "topic".toList = ['t', 'o', 'p', 'i', 'c'] from rfl, show "msg".toList = ['m', 's', 'g'] from rfl,
    show "kv".toList = ['k', 'v'] from rfl, jsonText_eq]
  by_cases hn : topic = topicNone
  · rw [if_pos hn, if_pos hn]
    exact msg_member ht h (f + 1) _ (by rw [ws_space, List.nil_append, ws_quote]) |> fun x => by
      rw [show f + kvs.length + 5 = f + 1 + kvs.length + 4 by omega]; exact x
  · rw [if_neg hn, if_neg hn]
    simp only [List.cons_append, List.nil_append, List.append_assoc]
    refine members_more (kt := 't' :: 'o' :: 'p' :: 'i' :: 'c' :: '"' :: _) (by rw [ws_space, ws_quote]) (pString_clean (t := ['t', 'o', 'p', 'i', 'c']) (by unfold Clean; decide) _)
      (ws_colon _) (value_str (f := f + kvs.length + 3) (by rw [ws_space, ws_quote]) (pString_escape (clean_plain (topicName_clean topic)) _))
      (by rw [ws_comma]) ?_
    exact msg_member ht h f _ (by rw [ws_space, ws_quote])

/-- A line in JSON format stands for its entry. -/
theorem jsonLine_reads {time spd topic : Nat} {name text : Text} {kvs : List (Text × Text)} (hn : Clean name) (ht : Plain text)
    (hk : PlainPairs kvs) : Reads (jsonLine time name spd (jsonText topic text kvs)) (entry time name spd topic text kvs) := by
  refine ⟨kvs.length + 9, [], ?_, rfl⟩
  rw [jsonLine_eq]
  unfold entry
  rw [show "ts".toList = ['t', 's'] from rfl, show "log".toList = ['l', 'o', 'g'] from rfl, show "lvl".toList = ['l', 'v', 'l'] from rfl]
  refine value_obj (f := kvs.length + 8) (ws_open _) (ws_quote _) ?_
  refine members_more (f := kvs.length + 7) (ws_quote _) (pString_clean (t := ['t', 's']) (by unfold Clean; decide) _) (ws_colon _)
    (value_str (ws_quote _) (pString_clean (digits_clean _) _)) (ws_comma _) ?_
  refine members_more (f := kvs.length + 6) (ws_quote _) (pString_clean (t := ['l', 'o', 'g']) (by unfold Clean; decide) _) (ws_colon _)
    (value_str (ws_quote _) (pString_clean hn _)) (ws_comma _) ?_
  refine members_more (f := kvs.length + 5) (ws_quote _) (pString_clean (t := ['l', 'v', 'l']) (by unfold Clean; decide) _) (ws_colon _)
    (value_str (ws_quote _) (pString_clean (levelName_clean _) _)) (ws_comma _) ?_
  have := text_members (topic := topic) ht hk 0
  rw [Nat.zero_add] at this
  exact this

theorem no_newline_escape (t : Text) : '\n' ∉ escape t := by
  intro h
  obtain ⟨c, _, hc⟩ := List.mem_flatMap.mp h
  unfold escapeChar at hc
  have key : ∀ a b : Char, a ≠ '\n' → b ≠ '\n' → '\n' ∉ [a, b] := by
    intro a b ha hb hx
    rcases List.mem_cons.mp hx with rfl | hx
    · exact ha rfl
    · exact hb (List.mem_singleton.mp hx).symm
  split at hc
  · exact key _ _ (by decide) (by decide) hc
  split at hc
  · exact key _ _ (by decide) (by decide) hc
  split at hc
  · exact key _ _ (by decide) (by decide) hc
  next h10 =>
  split at hc
  · exact key _ _ (by decide) (by decide) hc
  split at hc
  · exact key _ _ (by decide) (by decide) hc
  split at hc
  · exact key _ _ (by decide) (by decide) hc
  split at hc
  · exact key _ _ (by decide) (by decide) hc
  · rw [← List.mem_singleton.mp hc] at h10; exact h10 rfl

theorem clean_no_newline {t : Text} (h : Clean t) : '\n' ∉ t := fun hx => by have := (h _ hx).1; revert this; decide

theorem no_newline_kvs {kvs : List (Text × Text)} (h : PlainPairs kvs) : '\n' ∉ kvsJsonBody kvs := by
  have hkv : ∀ e : Text × Text, e.1 ≠ keyRaw → '\n' ∉ kvJson e := by
    intro e he hx
    have := kvJson_eq he []
    rw [List.append_nil] at this
    rw [this] at hx
    simp [no_newline_escape] at hx
  induction kvs with
  | nil => simp [kvsJsonBody]
  | cons e l ih =>
    have he := hkv e (h e List.mem_cons_self).2.2
    cases l with
    | nil => exact he
    | cons e' l =>
      have ih := ih (fun x hx => h x (List.mem_cons_of_mem _ hx))
      rw [kvsJsonBody]
      · intro hx
        rcases List.mem_append.mp hx with hx | hx
        · exact he hx
        · rcases List.mem_cons.mp hx with hx | hx
          · exact absurd hx (by decide)
          · exact ih hx
      · simp

/-- A line in JSON format is one line. -/
theorem jsonLine_no_newline {time spd topic : Nat} {name text : Text} {kvs : List (Text × Text)} (hn : '\n' ∉ name)
    (hk : PlainPairs kvs) : '\n' ∉ jsonLine time name spd (jsonText topic text kvs) := by
  rw [jsonLine_eq, jsonText_eq]
  have h1 := clean_no_newline (digits_clean (time / 1000))
  have h2 := clean_no_newline (levelName_clean spd)
  have h3 := no_newline_escape (topicName topic)
  have h4 := no_newline_escape text
  have h5 := no_newline_kvs hk
  split <;> split <;> simp [micros, h1, h2, h3, h4, h5, hn]

/-! ### What cannot be read -/

/-- An unescaped text, up to the next quote that follows `",`: it is read as it is, or something shorter, or something that goes on
behind the closing quote. -/
theorem pString_raw (n : Nat) : ∀ (name r x rest : Text), name.length ≤ n → pString (name ++ '"' :: ',' :: '"' :: r) = some (x, rest) →
    (Clean name ∧ x = name) ∨ x.length < name.length ∨ ((∃ x', x = x' ++ [',']) ∧ ∃ n', name = n' ++ ['\\']) := by
  induction n with
  | zero =>
    intro name r x rest hl h
    rw [List.length_eq_zero_iff.mp (Nat.le_zero.mp hl)] at h ⊢
    rw [List.nil_append, pString_end] at h
    cases h
    exact Or.inl ⟨nofun, rfl⟩
  | succ n ih =>
    intro name r x rest hl h
    cases name with
    | nil =>
      rw [List.nil_append, pString_end] at h
      cases h
      exact Or.inl ⟨nofun, rfl⟩
    | cons c t =>
      have hlt : t.length ≤ n := Nat.le_of_succ_le_succ hl
      rw [List.cons_append] at h
      by_cases hq : c = '"'
      · subst hq
        rw [pString_end] at h
        cases h
        exact Or.inr (Or.inl (Nat.zero_lt_succ _))
      by_cases hb : c = '\\'
      · subst hb
        have lift : ∀ {t' x' : Text} {d : Char}, t'.length < t.length → (Clean t' ∧ x' = t') ∨ x'.length < t'.length ∨
            ((∃ y, x' = y ++ [',']) ∧ ∃ n', t' = n' ++ ['\\']) → (∃ pre, '\\' :: t = pre ++ t') →
            (Clean ('\\' :: t) ∧ d :: x' = '\\' :: t) ∨ (d :: x').length < ('\\' :: t).length ∨
              ((∃ y, d :: x' = y ++ [',']) ∧ ∃ n', '\\' :: t = n' ++ ['\\']) := by
          intro t' x' d hlen hx hp
          rcases hx with ⟨_, rfl⟩ | hx | ⟨⟨y, rfl⟩, n', rfl⟩
          · exact Or.inr (Or.inl (Nat.succ_lt_succ hlen))
          · exact Or.inr (Or.inl (Nat.succ_lt_succ (Nat.lt_trans hx hlen)))
          · obtain ⟨pre, hp⟩ := hp
            exact Or.inr (Or.inr ⟨⟨d :: y, rfl⟩, pre ++ n', by rw [hp, List.append_assoc]⟩)
        cases t with
        | nil =>
          rw [List.nil_append, pString_esc (d := '"') (by decide) (by decide), pString_char (by decide) (by decide) (by decide), pString_end] at h
          cases h
          exact Or.inr (Or.inr ⟨⟨['"'], rfl⟩, [], rfl⟩)
        | cons d t =>
          rw [List.cons_append] at h
          by_cases hu : d = 'u'
          · subst hu
            match t with
            | [] =>
              rw [List.nil_append, pString.eq_def] at h
              split at h
              · next heq => cases heq
              · next heq => cases heq
              · next heq =>
                cases heq
                split at h
                · next hx _ _ _ => simp [hexDigit] at hx
                · cases h
              · next heq => cases heq; simp [unescape] at h
              · next hn heq => cases heq; exact absurd rfl (hn _ _ rfl)
            | [a] =>
              rw [List.cons_append, List.nil_append, pString] at h
              split at h
              · next hx _ _ => simp [hexDigit] at hx
              · cases h
            | [a, b] =>
              rw [List.cons_append, List.cons_append, List.nil_append, pString] at h
              split at h
              · next hx _ => simp [hexDigit] at hx
              · cases h
            | [a, b, e] =>
              rw [List.cons_append, List.cons_append, List.cons_append, List.nil_append, pString] at h
              split at h
              · next hx => simp [hexDigit] at hx
              · cases h
            | a :: b :: e :: g :: t' =>
              rw [List.cons_append, List.cons_append, List.cons_append, List.cons_append, pString] at h
              split at h
              · obtain ⟨⟨x', rest'⟩, hy, hxy⟩ := Option.map_eq_some_iff.mp h
                cases hxy
                exact lift (by simp; omega) (ih t' r x' _ (by simp at hlt; omega) hy) ⟨['\\', 'u', a, b, e, g], rfl⟩
              · cases h
          · cases hd : unescape d with
            | none =>
              rw [pString.eq_def] at h
              split at h
              · next heq => cases heq
              · next heq => cases heq
              · next heq => exact absurd (List.cons.inj (List.cons.inj heq).2).1 hu
              · next heq => cases heq; rw [hd] at h; cases h
              · next hn heq => cases heq; exact absurd rfl (hn _ _ rfl)
            | some d' =>
              rw [pString_esc hu hd] at h
              obtain ⟨⟨x', rest'⟩, hy, hxy⟩ := Option.map_eq_some_iff.mp h
              cases hxy
              exact lift (Nat.lt_succ_self _) (ih t r x' _ (by simp at hlt; omega) hy) ⟨['\\', d], rfl⟩
      by_cases hc : c.toNat < 32
      · rw [pString_control hc] at h; cases h
      · rw [pString_char hq hb (by omega)] at h
        obtain ⟨⟨x', rest'⟩, hy, hxy⟩ := Option.map_eq_some_iff.mp h
        cases hxy
        rcases ih t r x' _ hlt hy with ⟨h1, rfl⟩ | h1 | ⟨⟨y, rfl⟩, n', rfl⟩
        · refine Or.inl ⟨fun a ha => ?_, rfl⟩
          rcases List.mem_cons.mp ha with rfl | ha
          · exact ⟨by omega, hq, hb⟩
          · exact h1 a ha
        · exact Or.inr (Or.inl (Nat.succ_lt_succ h1))
        · exact Or.inr (Or.inr ⟨⟨c :: y, rfl⟩, c :: n', rfl⟩)

/-- An unescaped text is read as itself only if it needs no escapes. -/
theorem pString_raw_clean {name r rest : Text} (h : pString (name ++ '"' :: ',' :: '"' :: r) = some (name, rest)) : Clean name := by
  rcases pString_raw name.length name r name rest (Nat.le_refl _) h with h | h | ⟨⟨x', h1⟩, n', h2⟩
  · exact h.1
  · exact absurd h (Nat.lt_irrefl _)
  · have := congrArg List.getLast? (h1.symm.trans h2)
    simp at this

theorem members_step {f : Nat} {s kt k r0 r1 r2 r3 : Text} {x : Json} (hs : ws s = '"' :: kt) (hk : pString kt = some (k, r0))
    (h0 : ws r0 = ':' :: r1) (hv : pValue f r1 = some (x, r2)) (h2 : ws r2 = ',' :: r3) :
    pMembers (f + 1) s = (pMembers f r3).map (fun y => ((k, x) :: y.1, y.2)) := by
  simp only [pMembers, hs, hk, h0, hv, h2]

theorem members_bad {f : Nat} {s kt k r0 r1 : Text} (hs : ws s = '"' :: kt) (hk : pString kt = some (k, r0))
    (h0 : ws r0 = ':' :: r1) (hv : pValue f r1 = none) : pMembers (f + 1) s = none := by
  simp only [pMembers, hs, hk, h0, hv]

theorem members_value {f : Nat} {s kt k r0 r1 rest : Text} {ms : List (Text × Json)} (hs : ws s = '"' :: kt) (hk : pString kt = some (k, r0))
    (h0 : ws r0 = ':' :: r1) (h : pMembers (f + 1) s = some (ms, rest)) : ∃ x r2 tl, pValue f r1 = some (x, r2) ∧ ms = (k, x) :: tl := by
  simp only [pMembers, hs, hk, h0] at h
  split at h
  · cases h
  · next v r2 hv =>
    split at h
    · obtain ⟨y, hy, hz⟩ := Option.map_eq_some_iff.mp h
      cases hz
      exact ⟨v, r2, y.1, hv, rfl⟩
    · cases h
      exact ⟨v, r2, [], hv, rfl⟩
    · cases h

theorem value_bad {f : Nat} {s t : Text} (hs : ws s = '"' :: t) (ht : pString t = none) : pValue (f + 1) s = none := by
  simp only [pValue, hs, ht, Option.map_none]

theorem text_members_bad {topic : Nat} {text : Text} {kvs : List (Text × Text)} (ht : ¬ Plain text) (f : Nat) :
    pMembers (f + 3) (' ' :: (jsonText topic text kvs ++ [' ', '}'])) = none := by
  rw [jsonText_eq]
  have hmsg : ∀ f s r, ws s = '"' :: 'm' :: 's' :: 'g' :: '"' :: ':' :: ' ' :: '"' :: (escape text ++ r) → pMembers (f + 2) s = none := by
    intro f s r hs
    exact members_bad hs (pString_clean (t := ['m', 's', 'g']) (by unfold Clean; decide) _) (ws_colon _)
      (value_bad (by rw [ws_space, ws_quote]) (pString_not_plain ht _))
  by_cases hn : topic = topicNone
  · rw [if_pos hn]
    exact hmsg (f + 1) _ _ (by rw [ws_space, List.nil_append, ws_quote])
  · rw [if_neg hn]
    simp only [List.cons_append, List.nil_append, List.append_assoc]
    rw [members_step (kt := 't' :: 'o' :: 'p' :: 'i' :: 'c' :: '"' :: _) (by rw [ws_space, ws_quote])
      (pString_clean (t := ['t', 'o', 'p', 'i', 'c']) (by unfold Clean; decide) _)
      (ws_colon _) (value_str (f := f + 1) (by rw [ws_space, ws_quote]) (pString_escape (clean_plain (topicName_clean topic)) _))
      (by rw [ws_comma]), hmsg f _ _ (by rw [ws_space, ws_quote])]
    rfl

theorem reads_fuel {t : Text} {v : Json} (h : Reads t v) (k : Nat) : ∃ f rest, pValue (f + k) t = some (v, rest) := by
  obtain ⟨f, rest, h, _⟩ := h
  exact ⟨f, rest, pValue_mono (Nat.le_add_right _ _) h⟩

/-- A line stands for its entry only if the name needs no escapes and the text has no other control characters. -/
theorem jsonLine_reads_only {time spd topic : Nat} {name text : Text} {kvs : List (Text × Text)}
    (h : Reads (jsonLine time name spd (jsonText topic text kvs)) (entry time name spd topic text kvs)) : Clean name ∧ Plain text := by
  obtain ⟨f, rest, h⟩ := reads_fuel h 7
  rw [jsonLine_eq] at h
  unfold entry micros at h
  rw [show "ts".toList = ['t', 's'] from rfl, show "log".toList = ['l', 'o', 'g'] from rfl, show "lvl".toList = ['l', 'v', 'l'] from rfl] at h
  have hv : ∀ {f : Nat} {r r' : Text} {v : Json} {rest : Text}, ws r = '"' :: r' → pValue (f + 1) ('{' :: r) = some (v, rest) →
      ∃ ms, pMembers f ('"' :: r') = some (ms, rest) ∧ v = .obj ms := by
    intro f r r' v rest hr h
    simp only [pValue, ws_open, hr] at h
    split at h
    · next heq => simp at heq
    · obtain ⟨y, hy, hz⟩ := Option.map_eq_some_iff.mp h
      cases hz
      exact ⟨y.1, hy, rfl⟩
  obtain ⟨ms, hm, hms⟩ := hv (f := f + 6) (ws_quote _) h
  simp only [List.cons_append, List.nil_append] at hms
  cases hms
  rw [members_step (f := f + 5) (kt := 't' :: 's' :: '"' :: _) (ws_quote _) (pString_clean (t := ['t', 's']) (by unfold Clean; decide) _) (ws_colon _)
    (value_str (ws_quote _) (pString_clean (digits_clean _) _)) (ws_comma _)] at hm
  obtain ⟨⟨ms', rest'⟩, hm2, hms⟩ := Option.map_eq_some_iff.mp hm
  simp only [Prod.mk.injEq, List.cons.injEq] at hms
  obtain ⟨⟨_, rfl⟩, rfl⟩ := hms
  have hname : ∃ rest, pString (name ++ '"' :: ',' :: '"' :: 'l' :: 'v' :: 'l' :: '"' :: ':' :: '"' :: (levelName spd ++ '"' :: ',' :: ' ' ::
      (jsonText topic text kvs ++ [' ', '}']))) = some (name, rest) := by
    cases hp : pString (name ++ '"' :: ',' :: '"' :: 'l' :: 'v' :: 'l' :: '"' :: ':' :: '"' :: (levelName spd ++ '"' :: ',' :: ' ' ::
      (jsonText topic text kvs ++ [' ', '}']))) with
    | none =>
      rw [members_bad (kt := 'l' :: 'o' :: 'g' :: '"' :: _) (f := f + 4) (ws_quote _)
        (pString_clean (t := ['l', 'o', 'g']) (by unfold Clean; decide) _) (ws_colon _) (value_bad (ws_quote _) hp)] at hm2
      cases hm2
    | some x =>
      obtain ⟨v, r2, tl, hv, hcons⟩ := members_value (f := f + 4) (kt := 'l' :: 'o' :: 'g' :: '"' :: _) (ws_quote _)
        (pString_clean (t := ['l', 'o', 'g']) (by unfold Clean; decide) _) (ws_colon _) hm2
      rw [value_str (f := f + 3) (x := x.1) (r := x.2) (ws_quote _) hp] at hv
      cases hv
      rw [List.cons.injEq, Prod.mk.injEq, Json.str.injEq] at hcons
      exact ⟨x.2, by rw [hcons.1.2]⟩
  obtain ⟨_, hname⟩ := hname
  have hc := pString_raw_clean hname
  refine ⟨hc, Classical.byContradiction fun ht => ?_⟩
  rw [members_step (f := f + 4) (kt := 'l' :: 'o' :: 'g' :: '"' :: _) (ws_quote _) (pString_clean (t := ['l', 'o', 'g']) (by unfold Clean; decide) _) (ws_colon _)
    (value_str (ws_quote _) (pString_clean hc _)) (ws_comma _),
    members_step (f := f + 3) (kt := 'l' :: 'v' :: 'l' :: '"' :: _) (ws_quote _) (pString_clean (t := ['l', 'v', 'l']) (by unfold Clean; decide) _) (ws_colon _)
    (value_str (ws_quote _) (pString_clean (levelName_clean _) _)) (ws_comma _), text_members_bad ht f] at hm2
  cases hm2

/-- A line with another control character in the text is no JSON at all. -/
theorem jsonLine_unreadable {time spd topic : Nat} {name text : Text} {kvs : List (Text × Text)} (hc : Clean name) (ht : ¬ Plain text) (v : Json) :
    ¬ Reads (jsonLine time name spd (jsonText topic text kvs)) v := by
  intro h
  obtain ⟨f, rest, h⟩ := reads_fuel h 7
  rw [jsonLine_eq] at h
  unfold micros at h
  have hv : ∀ {f : Nat} {r r' : Text}, ws r = '"' :: r' → pMembers f ('"' :: r') = none → pValue (f + 1) ('{' :: r) = none := by
    intro f r r' hr h
    simp only [pValue, ws_open, hr]
    split
    · next heq => simp at heq
    · rw [h]; rfl
  rw [hv (f := f + 6) (ws_quote _)] at h
  · cases h
  · rw [members_step (f := f + 5) (kt := 't' :: 's' :: '"' :: _) (ws_quote _) (pString_clean (t := ['t', 's']) (by unfold Clean; decide) _) (ws_colon _)
      (value_str (ws_quote _) (pString_clean (digits_clean _) _)) (ws_comma _),
      members_step (f := f + 4) (kt := 'l' :: 'o' :: 'g' :: '"' :: _) (ws_quote _) (pString_clean (t := ['l', 'o', 'g']) (by unfold Clean; decide) _) (ws_colon _)
      (value_str (ws_quote _) (pString_clean hc _)) (ws_comma _),
      members_step (f := f + 3) (kt := 'l' :: 'v' :: 'l' :: '"' :: _) (ws_quote _) (pString_clean (t := ['l', 'v', 'l']) (by unfold Clean; decide) _) (ws_colon _)
      (value_str (ws_quote _) (pString_clean (levelName_clean _) _)) (ws_comma _), text_members_bad ht f]
    rfl

end SilKit.Logging
