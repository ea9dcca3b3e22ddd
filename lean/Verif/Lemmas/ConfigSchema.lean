import Verif.Spec.ConfigSchema
/-! # Lemmas: validation against the schema -/
namespace SilKit.ConfigText

/-! ## Paths -/

theorem splitChars_part {q : List Char} (h : '/' ∉ q) (acc r : List Char) :
    splitChars acc (q ++ '/' :: r) = (acc.reverse ++ q) :: splitChars [] r := by
  induction q generalizing acc with
  | nil => simp [splitChars]
  | cons c q ih =>
    have hc : c ≠ '/' := fun e => h (by simp [e])
    have hq : '/' ∉ q := fun e => h (by simp [e])
    rw [List.cons_append, splitChars, if_neg hc, ih hq]
    simp

theorem splitChars_last {q : List Char} (h : '/' ∉ q) (acc : List Char) : splitChars acc q = [acc.reverse ++ q] := by
  induction q generalizing acc with
  | nil => simp [splitChars]
  | cons c q ih =>
    have hc : c ≠ '/' := fun e => h (by simp [e])
    have hq : '/' ∉ q := fun e => h (by simp [e])
    rw [splitChars, if_neg hc, ih hq]
    simp

theorem splitChars_join {parts : List (List Char)} (hne : parts ≠ []) (h : ∀ q ∈ parts, '/' ∉ q) : splitChars [] (joinSlash parts) = parts := by
  induction parts with
  | nil => exact absurd rfl hne
  | cons x l ih =>
    cases l with
    | nil => simpa [joinSlash] using splitChars_last (h x (by simp)) []
    | cons y l =>
      rw [joinSlash, splitChars_part (h x (by simp)), ih (by simp) (fun q hq => h q (by simp [hq]))]
      simp

theorem splitChars_ne_nil (acc l : List Char) : splitChars acc l ≠ [] := by
  induction l generalizing acc with
  | nil => simp [splitChars]
  | cons c l ih =>
    rw [splitChars]
    by_cases hc : c = '/'
    · rw [if_pos hc]; simp
    · rw [if_neg hc]; exact ih _

theorem joinSlash_cons {x : List Char} {l : List (List Char)} (h : l ≠ []) : joinSlash (x :: l) = x ++ '/' :: joinSlash l := by
  cases l with
  | nil => exact absurd rfl h
  | cons y l => rfl

theorem join_splitChars (acc l : List Char) : joinSlash (splitChars acc l) = acc.reverse ++ l := by
  induction l generalizing acc with
  | nil => simp [splitChars, joinSlash]
  | cons c l ih =>
    rw [splitChars]
    by_cases hc : c = '/'
    · rw [if_pos hc, joinSlash_cons (splitChars_ne_nil _ _), ih, hc]; simp
    · rw [if_neg hc, ih]; simp

theorem splitChars_clean {acc l : List Char} (h : '/' ∉ acc) : ∀ q ∈ splitChars acc l, '/' ∉ q := by
  induction l generalizing acc with
  | nil => intro q hq; simp [splitChars] at hq; simpa [hq] using h
  | cons c l ih =>
    rw [splitChars]
    by_cases hc : c = '/'
    · rw [if_pos hc]
      intro q hq
      rcases List.mem_cons.1 hq with e | hq'
      · simpa [e] using h
      · exact ih (by simp) q hq'
    · rw [if_neg hc]
      refine ih ?_
      simp only [List.mem_cons, not_or]
      exact ⟨fun e => hc e.symm, h⟩

theorem parts_splitChars (s : String) : Parts s (splitChars [] s.toList) :=
  ⟨splitChars_ne_nil _ _, splitChars_clean (by simp), by simpa using join_splitChars [] s.toList⟩

theorem parts_unique {s : String} {parts : List (List Char)} (h : Parts s parts) : parts = splitChars [] s.toList := by
  rw [← h.2.2, splitChars_join h.1 h.2.1]

theorem ofList_inj {a b : List Char} (h : String.ofList a = String.ofList b) : a = b := by
  have := congrArg String.toList h
  simpa using this

theorem mem_reservedNames (n : List Char) : String.ofList n ∈ reservedNames ↔ ReservedName n := by
  simp only [reservedNames, ReservedName, List.mem_flatMap, splitString, List.mem_map]
  constructor
  · rintro ⟨p, hp, q, hq, e⟩
    exact ⟨p, hp, _, parts_splitChars p, (ofList_inj e) ▸ hq⟩
  · rintro ⟨p, hp, parts, hparts, hn⟩
    exact ⟨p, hp, n, (parts_unique hparts) ▸ hn, rfl⟩

theorem takeWhile_part (q r : List Char) (h : '/' ∉ q) : (q ++ '/' :: r).takeWhile (· ≠ '/') = q := by
  induction q with
  | nil => simp
  | cons c q ih =>
    have hc : c ≠ '/' := fun e => h (by simp [e])
    have hq : '/' ∉ q := fun e => h (by simp [e])
    rw [List.cons_append, List.takeWhile_cons, if_pos (by simpa using hc), ih hq]

theorem takeWhile_all (q : List Char) (h : '/' ∉ q) : q.takeWhile (· ≠ '/') = q := by
  induction q with
  | nil => simp
  | cons c q ih =>
    have hc : c ≠ '/' := fun e => h (by simp [e])
    have hq : '/' ∉ q := fun e => h (by simp [e])
    rw [List.takeWhile_cons, if_pos (by simpa using hc), ih hq]

theorem joinSlash_concat (parts : List (List Char)) (x : List Char) (h : parts ≠ []) :
    joinSlash (parts ++ [x]) = joinSlash parts ++ '/' :: x := by
  induction parts with
  | nil => exact absurd rfl h
  | cons y l ih =>
    cases l with
    | nil => rfl
    | cons z l =>
      rw [List.cons_append, joinSlash_cons (x := y) (by simp), ih (by simp), joinSlash_cons (x := y) (l := z :: l) (by simp)]
      simp

theorem elementName_parts {s : String} {parts : List (List Char)} {name : List Char} (h : Parts s (parts ++ [name])) :
    elementName s = String.ofList name := by
  have hn : '/' ∉ name := h.2.1 name (by simp)
  have hr : '/' ∉ name.reverse := by simpa using hn
  unfold elementName
  rw [← h.2.2]
  congr 1
  by_cases hp : parts = []
  · subst hp
    simp only [List.nil_append, joinSlash]
    rw [takeWhile_all _ hr, List.reverse_reverse]
  · rw [joinSlash_concat _ _ hp]
    simp only [List.reverse_append, List.reverse_cons, List.append_assoc, List.singleton_append]
    rw [takeWhile_part _ _ hr, List.reverse_reverse]

theorem exists_last (s : String) : ∃ parts name, Parts s (parts ++ [name]) := by
  rcases List.eq_nil_or_concat (splitChars [] s.toList) with e | ⟨l, x, e⟩
  · exact absurd e (splitChars_ne_nil _ _)
  · refine ⟨l, x, ?_⟩
    rw [← List.concat_eq_append, ← e]
    exact parts_splitChars s

theorem isReserved_iff (p : String) : isReserved p = true ↔ ∃ parts name, Parts p (parts ++ [name]) ∧ ReservedName name := by
  simp only [isReserved, decide_eq_true_eq]
  constructor
  · intro h
    obtain ⟨parts, name, hp⟩ := exists_last p
    rw [elementName_parts hp, mem_reservedNames] at h
    exact ⟨parts, name, hp, h⟩
  · rintro ⟨parts, name, hp, h⟩
    rw [elementName_parts hp, mem_reservedNames]
    exact h

theorem isSchemaPath_iff (p : String) : isSchemaPath p = true ↔ p ∈ schemaPaths := by simp [isSchemaPath]

/-- HandleKeyVal finds no error. -/
def KeyOk (P k : String) : Prop := isSchemaPath (makePath P k) = true ∨ isReserved (makePath P k) = false

theorem admitted_iff (p : String) : Admitted p ↔ isSchemaPath p = true ∨ isReserved p = false := by
  rw [isSchemaPath_iff, Admitted]
  refine or_congr Iff.rfl ?_
  constructor
  · intro h
    cases e : isReserved p with
    | false => rfl
    | true =>
      obtain ⟨parts, name, hp, hr⟩ := (isReserved_iff p).1 e
      exact absurd hr (h parts name hp)
  · intro h parts name hp hr
    have := (isReserved_iff p).2 ⟨parts, name, hp, hr⟩
    rw [h] at this
    cases this

/-! ## The path of a node -/

def pathFrom (P : String) (ks : List String) : String := ks.foldl makePath P

theorem pathFrom_concat (P : String) (ks : List String) (k : String) : pathFrom P (ks ++ [k]) = makePath (pathFrom P ks) k := by
  simp [pathFrom]

theorem join_snoc (l : List String) (x : String) : String.join (l ++ [x]) = String.join l ++ x := by
  simp [String.join]

theorem join_slash_ne {l : List String} (h : l ≠ []) (hn : ∀ k ∈ l, k ≠ "") : String.join (l.map ("/" ++ ·)) ≠ "/" := by
  cases l with
  | nil => exact absurd rfl h
  | cons k t =>
    intro e
    have hk := hn k (by simp)
    have e' := congrArg String.toList e
    rw [List.map_cons, String.join_cons] at e'
    simp only [String.toList_append] at e'
    apply hk
    have : k.toList = [] := by
      have h2 : "/".toList = ['/'] := by decide
      rw [h2] at e'
      simp at e'
      simp [e'.1]
    simpa using this

theorem pathText_concat (ks : List String) (k : String) : pathText (ks ++ [k]) = makePath (pathText ks) k := by
  by_cases hk : k = ""
  · simp [pathText, makePath, hk]
  · rw [makePath, if_neg hk]
    unfold pathText
    have e : (ks ++ [k]).filter (· ≠ "") = ks.filter (· ≠ "") ++ [k] := by simp [hk]
    simp only [e]
    rw [if_neg (by simp)]
    by_cases hn : ks.filter (· ≠ "") = []
    · simp only [hn, if_true, List.nil_append, List.map_cons, List.map_nil]
      simp [String.join]
    · rw [if_neg hn, if_neg (join_slash_ne hn (fun x hx => by simpa using (List.mem_filter.1 hx).2)), List.map_append, List.map_cons, List.map_nil, join_snoc, String.append_assoc]

theorem pathText_eq (ks : List String) : pathFrom "/" ks = pathText ks := by
  suffices h : ∀ l : List String, pathFrom "/" l.reverse = pathText l.reverse by simpa using h ks.reverse
  intro l
  induction l with
  | nil => rfl
  | cons k l ih => rw [List.reverse_cons, pathFrom_concat, pathText_concat, ih]

/-! ## Valid documents -/

def Clean (l : List Issue) : Prop := l.any Issue.isError = false

theorem clean_append (a b : List Issue) : Clean (a ++ b) ↔ Clean a ∧ Clean b := by
  simp only [Clean, List.any_append, Bool.or_eq_false_iff]

theorem clean_nil : Clean [] := rfl

theorem clean_checkKey (P k : String) : Clean (checkKey P k) ↔ KeyOk P k := by
  unfold checkKey KeyOk
  by_cases h1 : isSchemaPath (makePath P k) = true
  · rw [if_pos h1]; simp [h1, clean_nil]
  · rw [if_neg h1]
    by_cases h2 : isReserved (makePath P k) = true
    · rw [if_pos h2]; simp [h1, h2, Clean, Issue.isError]
    · rw [if_neg h2]; simp [h2, Clean, Issue.isError]

theorem clean_checkScalar (P s : String) : Clean (checkScalar P s) ↔ isSchemaPath P = true := by
  unfold checkScalar
  by_cases h1 : isSchemaPath P = true
  · rw [if_pos h1]; simp [h1, clean_nil]
  · rw [if_neg h1]; simp [h1, Clean, Issue.isError]

theorem clean_duplicates (P : String) (seen ks : List String) : Clean (duplicates P seen ks) ↔ ks.Nodup ∧ ∀ k ∈ ks, k ∉ seen := by
  induction ks generalizing seen with
  | nil => simp [duplicates, clean_nil]
  | cons k ks ih =>
    rw [duplicates]
    by_cases h : k ∈ seen
    · rw [if_pos h]; simp [Clean, Issue.isError, h]
    · rw [if_neg h, ih]
      simp only [List.nodup_cons, List.mem_cons, not_or]
      constructor
      · rintro ⟨h1, h2⟩
        refine ⟨⟨fun hk => (h2 k hk).1 rfl, h1⟩, ?_⟩
        rintro x (rfl | hx)
        · exact h
        · exact (h2 x hx).2
      · rintro ⟨⟨h1, h2⟩, h3⟩
        exact ⟨h2, fun x hx => ⟨fun e => h1 (e ▸ hx), h3 x (Or.inr hx)⟩⟩

/-- WellFormed for a part of a document that is found at a path. -/
structure WF (P : String) (d : Yaml) : Prop where
  typed : ∀ ks, ¬ At d ks .none
  unique : ∀ ks m, At d ks (.map m) → (m.map Prod.fst).Nodup
  keys : ∀ ks m k v, At d ks (.map m) → (k, v) ∈ m → KeyOk (pathFrom P ks) k
  items : ∀ ks l s, At d ks (.seq l) → .val s ∈ l → isSchemaPath (pathFrom P ks) = true

theorem wf_iff (d : Yaml) : WellFormed d ↔ WF "/" d := by
  constructor
  · intro h
    refine ⟨h.typed, h.unique, fun ks m k v ha hm => ?_, fun ks l s ha hm => ?_⟩
    · have := (admitted_iff _).1 (h.keys ks m k v ha hm)
      rwa [← pathText_eq, pathFrom_concat] at this
    · rw [isSchemaPath_iff, pathText_eq]; exact h.items ks l s ha hm
  · intro h
    refine ⟨h.typed, h.unique, fun ks m k v ha hm => ?_, fun ks l s ha hm => ?_⟩
    · rw [admitted_iff, ← pathText_eq, pathFrom_concat]
      exact h.keys ks m k v ha hm
    · rw [← pathText_eq, ← isSchemaPath_iff]; exact h.items ks l s ha hm

theorem wf_none (P : String) : ¬ WF P .none := fun h => h.typed [] (.here _)

theorem wf_val (P s : String) : WF P (.val s) := by
  refine ⟨fun ks h => ?_, fun ks m h => ?_, fun ks m k v h => ?_, fun ks l t h => ?_⟩ <;> cases h

theorem wf_seq (P : String) (l : List Yaml) :
    WF P (.seq l) ↔ ∀ x ∈ l, (∀ s, x = .val s → isSchemaPath P = true) ∧ WF P x := by
  constructor
  · intro h x hx
    refine ⟨fun s e => h.items [] l s (.here _) (e ▸ hx), fun ks ha => h.typed ks (.item hx ha), fun ks m ha => h.unique ks m (.item hx ha),
      fun ks m k v ha => h.keys ks m k v (.item hx ha), fun ks l' s ha => h.items ks l' s (.item hx ha)⟩
  · intro h
    refine ⟨fun ks ha => ?_, fun ks m ha => ?_, fun ks m k v ha => ?_, fun ks l' s ha => ?_⟩
    · cases ha with | item hx ha => exact (h _ hx).2.typed _ ha
    · cases ha with | item hx ha => exact (h _ hx).2.unique _ _ ha
    · cases ha with | item hx ha => exact (h _ hx).2.keys _ _ _ _ ha
    · cases ha with
      | here => exact fun hs => (h _ hs).1 s rfl
      | item hx ha => exact (h _ hx).2.items _ _ _ ha

theorem wf_map (P : String) (m : List (String × Yaml)) :
    WF P (.map m) ↔ (m.map Prod.fst).Nodup ∧ ∀ k v, (k, v) ∈ m → KeyOk P k ∧ WF (makePath P k) v := by
  constructor
  · intro h
    refine ⟨h.unique [] m (.here _), fun k v hx => ⟨h.keys [] m k v (.here _) hx, ?_⟩⟩
    exact ⟨fun ks ha => h.typed (k :: ks) (.entry hx ha), fun ks m' ha => h.unique (k :: ks) m' (.entry hx ha),
      fun ks m' k' v' ha => h.keys (k :: ks) m' k' v' (.entry hx ha), fun ks l' s ha => h.items (k :: ks) l' s (.entry hx ha)⟩
  · rintro ⟨hu, h⟩
    refine ⟨fun ks ha => ?_, fun ks m' ha => ?_, fun ks m' k v ha => ?_, fun ks l' s ha => ?_⟩
    · cases ha with | entry hx ha => exact (h _ _ hx).2.typed _ ha
    · cases ha with
      | here => exact hu
      | entry hx ha => exact (h _ _ hx).2.unique _ _ ha
    · cases ha with
      | here => exact fun hx => (h _ _ hx).1
      | entry hx ha => exact (h _ _ hx).2.keys _ _ _ _ ha
    · cases ha with | entry hx ha => exact (h _ _ hx).2.items _ _ _ ha

mutual

theorem clean_visit (P : String) : ∀ y : Yaml, Clean (visit P y) ↔ (∀ s, y = .val s → isSchemaPath P = true) ∧ WF P y
  | .none => by
    rw [visit]
    simp [Clean, Issue.isError, wf_none]
  | .val s => by
    rw [visit, clean_checkScalar]
    constructor
    · intro h; exact ⟨fun _ _ => h, wf_val _ _⟩
    · intro h; exact h.1 s rfl
  | .seq l => by
    rw [visit, clean_visitItems P l, wf_seq]
    simp
  | .map m => by
    rw [visit, clean_append, clean_duplicates, clean_visitEntries P m, wf_map]
    simp

theorem clean_visitItems (P : String) : ∀ l : List Yaml, Clean (visitItems P l) ↔ ∀ x ∈ l, (∀ s, x = .val s → isSchemaPath P = true) ∧ WF P x
  | [] => by simp [visitItems, clean_nil]
  | x :: l => by
    rw [visitItems, clean_append, clean_visit P x, clean_visitItems P l, List.forall_mem_cons]

theorem clean_visitEntries (P : String) : ∀ m : List (String × Yaml),
    Clean (visitEntries P m) ↔ ∀ k v, (k, v) ∈ m → KeyOk P k ∧ WF (makePath P k) v
  | [] => by simp [visitEntries, clean_nil]
  | (k, v) :: m => by
    rw [visitEntries, clean_append, clean_append, clean_checkKey, clean_visitKeyed P k v, clean_visitEntries P m]
    constructor
    · rintro ⟨h1, h2⟩ k' v' h
      rcases List.mem_cons.1 h with e | h
      · cases e; exact h1
      · exact h2 k' v' h
    · intro h
      exact ⟨h k v (by simp), fun k' v' hm => h k' v' (by simp [hm])⟩

theorem clean_visitKeyed (P k : String) : ∀ y : Yaml, Clean (visitKeyed P k y) ↔ WF (makePath P k) y
  | .none => by
    rw [visitKeyed]
    simp [Clean, Issue.isError, wf_none]
  | .val s => by
    rw [visitKeyed]
    exact ⟨fun _ => wf_val _ _, fun _ => clean_nil⟩
  | .seq l => by
    rw [visitKeyed, clean_visitItems (makePath P k) l, wf_seq]
  | .map m => by
    rw [visitKeyed, clean_append, clean_duplicates, clean_visitEntries (makePath P k) m, wf_map]
    simp

end

theorem isValid_iff (d : Yaml) : isValid d = true ↔ Clean (issues d) := by
  simp only [isValid, Clean, Bool.not_eq_true']

/-! ## Messages about keys -/

theorem mem_visitItems {P : String} {l : List Yaml} {x : Yaml} (hx : x ∈ l) {i : Issue} (h : i ∈ visit P x) : i ∈ visitItems P l := by
  induction l with
  | nil => cases hx
  | cons y l ih =>
    rw [visitItems, List.mem_append]
    rcases List.mem_cons.1 hx with rfl | hx
    · exact .inl h
    · exact .inr (ih hx)

theorem mem_visitEntries {P : String} {m : List (String × Yaml)} {k : String} {v : Yaml} (hx : (k, v) ∈ m) {i : Issue}
    (h : i ∈ checkKey P k ∨ i ∈ visitKeyed P k v) : i ∈ visitEntries P m := by
  induction m with
  | nil => cases hx
  | cons e m ih =>
    obtain ⟨k', v'⟩ := e
    rw [visitEntries, List.mem_append, List.mem_append]
    rcases List.mem_cons.1 hx with e | hx
    · cases e; exact .inl h
    · exact .inr (ih hx)

theorem reported' {d : Yaml} {ks : List String} {y : Yaml} (ha : At d ks y) : ∀ {m : List (String × Yaml)} {k : String} {v : Yaml}, y = .map m →
    (k, v) ∈ m → ∀ (P : String) (i : Issue), i ∈ checkKey (pathFrom P ks) k →
    i ∈ visit P d ∧ ∀ P' K, makePath P' K = P → i ∈ visitKeyed P' K d := by
  induction ha with
  | here d =>
    rintro m k v rfl hk P i hi
    refine ⟨?_, fun P' K e => ?_⟩
    · rw [visit, List.mem_append]; exact .inr (mem_visitEntries hk (.inl hi))
    · rw [visitKeyed, List.mem_append, e]; exact .inr (mem_visitEntries hk (.inl hi))
  | item hx _ ih =>
    intro m k v e hk P i hi
    have h := ih e hk P i hi
    refine ⟨?_, fun P' K e' => ?_⟩
    · rw [visit]; exact mem_visitItems hx h.1
    · rw [visitKeyed, e']; exact mem_visitItems hx h.1
  | @entry m' k0 v0 ks y hx _ ih =>
    intro m k v e hk P i hi
    have h := (ih e hk (makePath P k0) i hi).2 P k0 rfl
    refine ⟨?_, fun P' K e' => ?_⟩
    · rw [visit, List.mem_append]; exact .inr (mem_visitEntries hx (.inr h))
    · rw [visitKeyed, List.mem_append, e']; exact .inr (mem_visitEntries hx (.inr h))

theorem reported {d : Yaml} {ks : List String} {m : List (String × Yaml)} {k : String} {v : Yaml} (ha : At d ks (.map m)) (hk : (k, v) ∈ m)
    (P : String) (i : Issue) (hi : i ∈ checkKey (pathFrom P ks) k) : i ∈ visit P d := (reported' ha rfl hk P i hi).1

theorem ignored_duplicates {P k p : String} {seen ks : List String} : Issue.ignored k p ∉ duplicates P seen ks := by
  induction ks generalizing seen with
  | nil => simp [duplicates]
  | cons x ks ih =>
    rw [duplicates]
    by_cases h : x ∈ seen
    · rw [if_pos h]; simp [ih]
    · rw [if_neg h]; exact ih

theorem ignored_checkScalar {P k p s : String} : Issue.ignored k p ∉ checkScalar P s := by
  unfold checkScalar
  by_cases h : isSchemaPath P = true
  · rw [if_pos h]; simp
  · rw [if_neg h]; simp

theorem ignored_checkKey {P K k p : String} (h : Issue.ignored k p ∈ checkKey P K) : K = k ∧ P = p ∧ isSchemaPath (makePath p k) = false := by
  unfold checkKey at h
  by_cases h1 : isSchemaPath (makePath P K) = true
  · rw [if_pos h1] at h; cases h
  · rw [if_neg h1] at h
    by_cases h2 : isReserved (makePath P K) = true
    · rw [if_pos h2] at h; simp at h
    · rw [if_neg h2] at h
      simp only [List.mem_singleton, Issue.ignored.injEq] at h
      obtain ⟨rfl, rfl⟩ := h
      exact ⟨rfl, rfl, by simpa using h1⟩

/-- A message about an ignored element has its cause below the node. -/
def Cause (P : String) (d : Yaml) (k p : String) : Prop :=
  ∃ ks m v, At d ks (.map m) ∧ (k, v) ∈ m ∧ p = pathFrom P ks ∧ isSchemaPath (makePath p k) = false

theorem cause_item {P : String} {l : List Yaml} {x : Yaml} {k p : String} (hx : x ∈ l) (h : Cause P x k p) : Cause P (.seq l) k p := by
  obtain ⟨ks, m, v, h1, h2, h3, h4⟩ := h
  exact ⟨ks, m, v, .item hx h1, h2, h3, h4⟩

theorem cause_entry {P : String} {m : List (String × Yaml)} {K : String} {x : Yaml} {k p : String} (hx : (K, x) ∈ m) (h : Cause (makePath P K) x k p) :
    Cause P (.map m) k p := by
  obtain ⟨ks, m', v, h1, h2, h3, h4⟩ := h
  exact ⟨K :: ks, m', v, .entry hx h1, h2, h3, h4⟩

mutual

theorem ignored_visit (P : String) {k p : String} : ∀ y : Yaml, Issue.ignored k p ∈ visit P y → Cause P y k p
  | .none => by rw [visit]; simp
  | .val s => by rw [visit]; exact fun h => absurd h ignored_checkScalar
  | .seq l => by
    rw [visit]
    intro h
    obtain ⟨x, hx, hc⟩ := ignored_visitItems P l h
    exact cause_item hx hc
  | .map m => by
    rw [visit, List.mem_append]
    rintro (h | h)
    · exact absurd h ignored_duplicates
    · obtain ⟨K, x, hx, hc | hc⟩ := ignored_visitEntries P m h
      · obtain ⟨rfl, rfl, h3⟩ := ignored_checkKey hc
        exact ⟨[], m, x, .here _, hx, rfl, h3⟩
      · exact cause_entry hx hc

theorem ignored_visitItems (P : String) {k p : String} : ∀ l : List Yaml, Issue.ignored k p ∈ visitItems P l → ∃ x ∈ l, Cause P x k p
  | [] => by rw [visitItems]; simp
  | x :: l => by
    rw [visitItems, List.mem_append]
    rintro (h | h)
    · exact ⟨x, by simp, ignored_visit P x h⟩
    · obtain ⟨y, hy, hc⟩ := ignored_visitItems P l h
      exact ⟨y, by simp [hy], hc⟩

theorem ignored_visitEntries (P : String) {k p : String} : ∀ m : List (String × Yaml), Issue.ignored k p ∈ visitEntries P m →
    ∃ K x, (K, x) ∈ m ∧ (Issue.ignored k p ∈ checkKey P K ∨ Cause (makePath P K) x k p)
  | [] => by rw [visitEntries]; simp
  | (K, x) :: m => by
    rw [visitEntries, List.mem_append, List.mem_append]
    rintro ((h | h) | h)
    · exact ⟨K, x, by simp, .inl h⟩
    · exact ⟨K, x, by simp, .inr (ignored_visitKeyed P K x h)⟩
    · obtain ⟨K', x', h1, h2⟩ := ignored_visitEntries P m h
      exact ⟨K', x', by simp [h1], h2⟩

theorem ignored_visitKeyed (P K : String) {k p : String} : ∀ y : Yaml, Issue.ignored k p ∈ visitKeyed P K y → Cause (makePath P K) y k p
  | .none => by rw [visitKeyed]; simp
  | .val s => by rw [visitKeyed]; simp
  | .seq l => by
    rw [visitKeyed]
    intro h
    obtain ⟨x, hx, hc⟩ := ignored_visitItems (makePath P K) l h
    exact cause_item hx hc
  | .map m => by
    rw [visitKeyed, List.mem_append]
    rintro (h | h)
    · exact absurd h ignored_duplicates
    · obtain ⟨K', x, hx, hc | hc⟩ := ignored_visitEntries (makePath P K) m h
      · obtain ⟨rfl, rfl, h3⟩ := ignored_checkKey hc
        exact ⟨[], m, x, .here _, hx, rfl, h3⟩
      · exact cause_entry hx hc

end

/-! ## The known part -/

theorem keys_strip (P : String) (m : List (String × Yaml)) : List.Sublist ((stripEntries P m).map Prod.fst) (m.map Prod.fst) := by
  induction m with
  | nil => rw [stripEntries]; exact .slnil
  | cons e m ih =>
    obtain ⟨k, v⟩ := e
    rw [stripEntries]
    by_cases h : makePath P k ∈ schemaPaths
    · rw [if_pos h]; exact .cons_cons _ ih
    · rw [if_neg h]; exact .cons _ ih

theorem duplicates_of_nodup (P : String) {ks seen : List String} (h : ks.Nodup) (hs : ∀ k ∈ ks, k ∉ seen) : duplicates P seen ks = [] := by
  induction ks generalizing seen with
  | nil => rfl
  | cons k ks ih =>
    rw [List.nodup_cons] at h
    rw [duplicates, if_neg (hs k (by simp))]
    refine ih h.2 (fun x hx => ?_)
    simp only [List.mem_cons, not_or]
    exact ⟨fun e => h.1 (e ▸ hx), hs x (by simp [hx])⟩

mutual

theorem visit_strip (P : String) : ∀ y : Yaml, (∀ s, y = .val s → isSchemaPath P = true) → WF P y → visit P (strip P y) = []
  | .none => fun _ h => absurd h (wf_none P)
  | .val s => fun h _ => by rw [strip, visit, checkScalar, if_pos (h s rfl)]
  | .seq l => fun _ h => by
    rw [strip, visit]
    exact visitItems_strip P l ((wf_seq P l).1 h)
  | .map m => fun _ h => by
    rw [wf_map] at h
    rw [strip, visit, visitEntries_strip P m h.2, duplicates_of_nodup P (h.1.sublist (keys_strip P m)) (by simp)]
    rfl

theorem visitItems_strip (P : String) : ∀ l : List Yaml, (∀ x ∈ l, (∀ s, x = .val s → isSchemaPath P = true) ∧ WF P x) →
    visitItems P (stripItems P l) = []
  | [] => fun _ => by rw [stripItems, visitItems]
  | x :: l => fun h => by
    have h1 := h x (by simp)
    rw [stripItems, visitItems, visit_strip P x h1.1 h1.2, visitItems_strip P l (fun y hy => h y (by simp [hy]))]
    rfl

theorem visitEntries_strip (P : String) : ∀ m : List (String × Yaml), (∀ k v, (k, v) ∈ m → KeyOk P k ∧ WF (makePath P k) v) →
    visitEntries P (stripEntries P m) = []
  | [] => fun _ => by rw [stripEntries, visitEntries]
  | (k, v) :: m => fun h => by
    have h1 := h k v (by simp)
    have h2 := visitEntries_strip P m (fun k' v' hm => h k' v' (by simp [hm]))
    rw [stripEntries]
    by_cases hs : makePath P k ∈ schemaPaths
    · rw [if_pos hs, visitEntries, checkKey, if_pos ((isSchemaPath_iff _).2 hs), visitKeyed_strip P k v h1.2, h2]
      rfl
    · rw [if_neg hs, h2]

theorem visitKeyed_strip (P K : String) : ∀ y : Yaml, WF (makePath P K) y → visitKeyed P K (strip (makePath P K) y) = []
  | .none => fun h => absurd h (wf_none _)
  | .val s => fun _ => by rw [strip, visitKeyed]
  | .seq l => fun h => by
    rw [strip, visitKeyed]
    exact visitItems_strip (makePath P K) l ((wf_seq _ l).1 h)
  | .map m => fun h => by
    rw [wf_map] at h
    rw [strip, visitKeyed, visitEntries_strip (makePath P K) m h.2, duplicates_of_nodup P (h.1.sublist (keys_strip _ m)) (by simp)]
    rfl

end

theorem issues_known {d : Yaml} (h : Clean (issues d)) : issues (known d) = [] := by
  cases d with
  | none => rw [known, strip]; rfl
  | val s => rw [known, strip]; rfl
  | seq l =>
    have h' := (clean_visit "/" (.seq l)).1 h
    have e := visit_strip "/" _ h'.1 h'.2
    unfold known
    rw [strip] at e ⊢
    exact e
  | map m =>
    have h' := (clean_visit "/" (.map m)).1 h
    have e := visit_strip "/" _ h'.1 h'.2
    unfold known
    rw [strip] at e ⊢
    exact e

end SilKit.ConfigText
