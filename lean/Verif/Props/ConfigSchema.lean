import Verif.Lemmas.ConfigKnown
import Verif.Lemmas.ConfigSchemaChars
/-! # C54: what the validation of a configuration accepts, and what it says about the elements that are ignored -/
namespace SilKit.Props.ConfigSchema
open SilKit SilKit.ConfigText

/-- Exactly the well-formed documents are accepted, besides empty documents and single scalars. -/
theorem accepted_iff_well_formed (d : Yaml) : isValid d = true ↔ d = .none ∨ (∃ s, d = .val s) ∨ WellFormed d := by
  rw [isValid_iff, wf_iff]
  cases d with
  | none => simp [issues, clean_nil]
  | val s => simp [issues, clean_nil]
  | seq l =>
    show Clean (visit "/" (.seq l)) ↔ _
    rw [clean_visit]
    simp
  | map m =>
    show Clean (visit "/" (.map m)) ↔ _
    rw [clean_visit]
    simp

/-- Every configuration that the library writes is accepted without any message. -/
theorem written_configuration_is_accepted_silently (c : Participant) : ∃ d, serialize c = .ok d ∧ issues d = [] ∧ isValid d = true := by
  have h : issues (yParticipant c) = [] := good_Participant k_Participant c
  exact ⟨yParticipant c, w_Participant c, h, by rw [isValid, h]; rfl⟩

/-- The elements that the schema does not know have no effect on what is read, neither on the values nor on the errors. -/
theorem unknown_elements_have_no_effect (d : Yaml) : deserialize (known d) = deserialize d := strip_Participant k_Participant {} d

/-- A valid document without its unknown elements is accepted without any message and read in the same way. -/
theorem valid_document_is_its_known_part (d : Yaml) (h : isValid d = true) :
    issues (known d) = [] ∧ readChecked (known d) = readChecked d := by
  have h1 : issues (known d) = [] := issues_known ((isValid_iff d).1 h)
  refine ⟨h1, ?_⟩
  have h2 : isValid (known d) = true := by rw [isValid, h1]; rfl
  rw [readChecked, readChecked, if_pos h, if_pos h2, unknown_elements_have_no_effect]

/-- Every element that the schema does not know is reported with its name and the path of the map it is in, as an error exactly if its name is
reserved. -/
theorem unknown_elements_are_reported {d : Yaml} {ks : List String} {m : List (String × Yaml)} {k : String} {v : Yaml} (hm : At d ks (.map m))
    (hk : (k, v) ∈ m) (hu : pathText (ks ++ [k]) ∉ schemaPaths) :
    (¬ Admitted (pathText (ks ++ [k])) → .notAllowed k (pathText ks) ∈ issues d) ∧
    (Admitted (pathText (ks ++ [k])) → .ignored k (pathText ks) ∈ issues d) := by
  have hs : ∀ i ∈ checkKey (pathText ks) k, i ∈ issues d := by
    intro i hi
    have := reported hm hk "/" i (by rw [pathText_eq]; exact hi)
    cases d with
    | none => cases hm
    | val s => cases hm
    | seq l => exact this
    | map m => exact this
  rw [pathText_concat] at hu ⊢
  have hf : ¬ isSchemaPath (makePath (pathText ks) k) = true := by rw [isSchemaPath_iff]; exact hu
  rw [admitted_iff]
  unfold checkKey at hs
  rw [if_neg hf] at hs
  constructor
  · intro h
    have hr : isReserved (makePath (pathText ks) k) = true := by
      cases e : isReserved (makePath (pathText ks) k) with
      | true => rfl
      | false => exact absurd (Or.inr e) h
    rw [if_pos hr] at hs
    exact hs _ (by simp)
  · intro h
    have hr : isReserved (makePath (pathText ks) k) = false := h.resolve_left hf
    rw [if_neg (by rw [hr]; simp)] at hs
    exact hs _ (by simp)

/-- Only what the schema does not know is reported as ignored. -/
theorem ignored_elements_are_unknown {d : Yaml} {k p : String} (h : Issue.ignored k p ∈ issues d) :
    ∃ ks m v, At d ks (.map m) ∧ (k, v) ∈ m ∧ p = pathText ks ∧ pathText (ks ++ [k]) ∉ schemaPaths := by
  have h' : Issue.ignored k p ∈ visit "/" d := by
    cases d with
    | none => cases h
    | val s => cases h
    | seq l => exact h
    | map m => exact h
  obtain ⟨ks, m, v, h1, h2, h3, h4⟩ := ignored_visit "/" d h'
  rw [pathText_eq] at h3
  rw [h3] at h4
  exact ⟨ks, m, v, h1, h2, h3, by rw [pathText_concat, ← isSchemaPath_iff, h4]; simp⟩

/-! ## The theorems apply -/

theorem foo_is_ignored : checkKey "/" "Foo" = [.ignored "Foo" "/"] := by
  unfold checkKey
  rw [isSchemaPath_chars, isReserved_chars]
  decide +kernel

theorem bar_is_ignored : checkKey "/Foo" "Bar" = [.ignored "Bar" "/Foo"] := by
  unfold checkKey
  rw [isSchemaPath_chars, isReserved_chars]
  decide +kernel

theorem name_is_not_allowed : checkKey "/Foo" "Name" = [.notAllowed "Name" "/Foo"] := by
  unfold checkKey
  rw [isSchemaPath_chars, isReserved_chars]
  decide +kernel

/-- A document with a name, a sink, and an unknown element. -/
def sample : Yaml :=
  .map [("ParticipantName", .val "A"), ("Foo", .map [("Bar", .val "1")]), ("Logging", .map [("Sinks", .seq [.map [("Type", .val "Stdout")]])])]

theorem sample_issues : issues sample = [.ignored "Foo" "/", .ignored "Bar" "/Foo"] := by
  have e1 : makePath "/" "Foo" = "/Foo" := by decide +kernel
  have k1 : checkKey "/" "ParticipantName" = [] := by
    unfold checkKey; rw [if_pos ((isSchemaPath_iff _).2 k_Participant.keys.2.2.2.1)]
  have k2 : checkKey "/" "Logging" = [] := by
    unfold checkKey; rw [if_pos ((isSchemaPath_iff _).2 k_Participant.keys.2.2.2.2.2.2.2.2.2.2.2.2.2.1)]
  have k3 : checkKey (makePath "/" "Logging") "Sinks" = [] := by
    unfold checkKey; rw [if_pos ((isSchemaPath_iff _).2 k_Logging.keys.2.2.1)]
  have k4 : checkKey (makePath (makePath "/" "Logging") "Sinks") "Type" = [] := by
    unfold checkKey; rw [if_pos ((isSchemaPath_iff _).2 k_Logging.Sinks.keys.1)]
  simp [sample, issues, visit, visitEntries, visitKeyed, visitItems, duplicates, k1, k2, k3, k4, foo_is_ignored, e1, bar_is_ignored]

example : isValid sample = true ∧ WellFormed sample := by
  have h : isValid sample = true := by rw [isValid, sample_issues]; rfl
  refine ⟨h, ?_⟩
  rcases (accepted_iff_well_formed sample).1 h with h | ⟨s, h⟩ | h
  · cases h
  · cases h
  · exact h

example : deserialize sample = .ok { participantName := "A", logging := { sinks := [{ type := .stdout }] } } := by decide +kernel

example : known sample ≠ sample := by
  intro h
  have h1 := (valid_document_is_its_known_part sample (by rw [isValid, sample_issues]; rfl)).1
  rw [h, sample_issues] at h1
  cases h1

example : At sample ["Foo"] (.map [("Bar", .val "1")]) ∧ pathText ["Foo", "Bar"] = "/Foo/Bar" ∧ pathText ["Foo", "Bar"] ∉ schemaPaths :=
  ⟨.entry (k := "Foo") (v := .map [("Bar", .val "1")]) (by simp) (.here _), by decide +kernel, by rw [mem_schemaChars]; decide +kernel⟩

example : ∃ ks m v, At sample ks (.map m) ∧ ("Bar", v) ∈ m ∧ "/Foo" = pathText ks ∧ pathText (ks ++ ["Bar"]) ∉ schemaPaths :=
  ignored_elements_are_unknown (by rw [sample_issues]; simp)

/-! ## Where the code deviates -/

/-- An unknown element is only ignored if it is a scalar or a map: a list of scalars below any unknown element is an error. -/
theorem list_below_unknown_element_is_rejected (k s : String) (hk : pathText [k] ∉ schemaPaths) : isValid (.map [(k, .seq [.val s])]) = false := by
  cases e : isValid (.map [(k, .seq [.val s])]) with
  | false => rfl
  | true =>
    rcases (accepted_iff_well_formed _).1 e with h | ⟨_, h⟩ | h
    · cases h
    · cases h
    · exact absurd (h.items [k] [.val s] s (.entry (by simp) (.here _)) (by simp)) hk

example : isValid (.map [("Foo", .seq [.val "x"])]) = false :=
  list_below_unknown_element_is_rejected "Foo" "x" (by rw [mem_schemaChars]; decide +kernel)

/-- The scalar alone is accepted. -/
theorem scalar_of_unknown_element_is_accepted (s : String) : isValid (.map [("Foo", .val s)]) = true := by
  simp [isValid, issues, visit, visitEntries, visitKeyed, duplicates, foo_is_ignored, Issue.isError]

/-- The names of the schema are also forbidden below elements that are ignored as a whole. -/
theorem reserved_name_below_unknown_element_is_rejected (s : String) : isValid (.map [("Foo", .map [("Name", .val s)])]) = false := by
  have e1 : makePath "/" "Foo" = "/Foo" := by decide +kernel
  simp [isValid, issues, visit, visitEntries, visitKeyed, duplicates, foo_is_ignored, e1, name_is_not_allowed, Issue.isError]

/-- A key that contains the separator is taken for the path of a nested element: no message, but no effect either. -/
theorem key_with_separator_is_silently_without_effect (s : String) :
    issues (.map [("Logging/FlushLevel", .val s)]) = [] ∧ deserialize (.map [("Logging/FlushLevel", .val s)]) = deserialize (.map []) := by
  have k : checkKey "/" "Logging/FlushLevel" = [] := by
    unfold checkKey; rw [isSchemaPath_chars]; decide +kernel
  refine ⟨by simp [issues, visit, visitEntries, visitKeyed, duplicates, k], ?_⟩
  simp [deserialize, readParticipant, optRead, optReadDeprecated, deprecatedConflict, readEach, child, hasKey, List.lookup]

/-- So is an empty key anywhere but at the root. -/
theorem empty_key_is_silently_without_effect (s : String) :
    issues (.map [("Logging", .map [("", .val s)])]) = [] ∧ deserialize (.map [("Logging", .map [("", .val s)])]) = deserialize (.map []) := by
  have k1 : checkKey "/" "Logging" = [] := by
    unfold checkKey; rw [if_pos ((isSchemaPath_iff _).2 k_Participant.keys.2.2.2.2.2.2.2.2.2.2.2.2.2.1)]
  have e : makePath "/" "Logging" = "/Logging" := by decide +kernel
  have k2 : checkKey "/Logging" "" = [] := by
    unfold checkKey; rw [isSchemaPath_chars]; decide +kernel
  refine ⟨by simp [issues, visit, visitEntries, visitKeyed, duplicates, k1, e, k2], ?_⟩
  simp [deserialize, readParticipant, readLogging, optRead, optReadDeprecated, deprecatedConflict, readEach, child, hasKey, List.lookup]

/-- At the root, the empty key is "reserved". -/
theorem empty_key_at_the_root_is_rejected (y : Yaml) : isValid (.map [("", y)]) = false := by
  have k : checkKey "/" "" = [.notAllowed "" "/"] := by
    unfold checkKey; rw [isSchemaPath_chars, isReserved_chars]; decide +kernel
  simp [isValid, issues, visit, visitEntries, k, Issue.isError]

/-- The message about a key that occurs twice names the path of the surrounding map. -/
theorem duplicate_message_names_the_wrong_path (s t : String) :
    issues (.map [("Logging", .map [("FlushLevel", .val s), ("FlushLevel", .val t)])]) = [.duplicate "FlushLevel" "/"] := by
  have k1 : checkKey "/" "Logging" = [] := by
    unfold checkKey; rw [if_pos ((isSchemaPath_iff _).2 k_Participant.keys.2.2.2.2.2.2.2.2.2.2.2.2.2.1)]
  have k2 : checkKey (makePath "/" "Logging") "FlushLevel" = [] := by
    unfold checkKey; rw [if_pos ((isSchemaPath_iff _).2 k_Logging.keys.2.1)]
  simp [issues, visit, visitEntries, visitKeyed, duplicates, k1, k2]

/-- The schema does not tell lists from maps: a map in the place of a list is accepted without a message and then cannot be read. -/
theorem accepted_document_may_be_unreadable :
    issues (.map [("CanControllers", .map [("Name", .val "C")])]) = [] ∧
    readChecked (.map [("CanControllers", .map [("Name", .val "C")])]) = .throw "Expected a sequence." := by
  have k1 : checkKey "/" "CanControllers" = [] := by
    unfold checkKey; rw [if_pos ((isSchemaPath_iff _).2 k_Participant.keys.2.2.2.2.1)]
  have k2 : checkKey (makePath "/" "CanControllers") "Name" = [] := by
    unfold checkKey; rw [if_pos ((isSchemaPath_iff _).2 k_CanControllers.keys.1)]
  have h : issues (.map [("CanControllers", .map [("Name", .val "C")])]) = [] := by
    simp [issues, visit, visitEntries, visitKeyed, duplicates, k1, k2]
  refine ⟨h, ?_⟩
  rw [readChecked, isValid, h]
  simp [deserialize, readParticipant, readVec, optRead, child, List.lookup]

end SilKit.Props.ConfigSchema
