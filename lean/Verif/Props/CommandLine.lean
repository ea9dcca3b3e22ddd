import Verif.Lemmas.CommandLine
/-!
# C63: the command line of the utilities
-/
namespace SilKit.Props
open SilKit SilKit.CommandLine SilKit.CommandLine.Spec

deriving instance DecidableEq for Except

/-- A command line is accepted exactly if it can be read as a sequence of declared options with values, declared flags, and words for which there
is a place. -/
theorem C63_accepted_iff_readable (ds : List Decl) (hd : Declared ds) (argv : List Text) :
    (∃ as, run ds argv = .ok as) ↔ ∃ items, Reads ds argv items := by
  constructor
  · rintro ⟨as, h⟩
    obtain ⟨items, h1, h2, h3⟩ := items_of_parse hd argv.length argv (Nat.le_refl _) 0 as h
    exact ⟨items, h1, h2, h3.imp_right (fun h => by rw [Nat.zero_max, Nat.zero_add] at h; exact h)⟩
  · rintro ⟨items, h1, h2, h3⟩
    exact ⟨_, h2 ▸ parse_items hd items 0 h1 (h3.imp_right (fun h => by rw [Nat.zero_add]; exact h))⟩

theorem run_items {ds : List Decl} (hd : Declared ds) {argv : List Text} {items : List Item} (hr : Reads ds argv items) {as : List Assign}
    (h : run ds argv = .ok as) : as = assigns ds 0 items := by
  obtain ⟨h1, h2, h3⟩ := hr
  have := parse_items hd items 0 h1 (h3.imp_right (fun h => by rw [Nat.zero_add]; exact h))
  rw [← h2] at this
  exact Except.ok.inj (h.symm.trans this)

theorem idxOf_inj {ds : List Decl} {d e : Decl} (hd : d ∈ ds) (h : ds.idxOf d = ds.idxOf e) : d = e := by
  have h1 := List.getElem_idxOf (List.idxOf_lt_length_of_mem hd)
  have hlt : ds.idxOf e < ds.length := h ▸ List.idxOf_lt_length_of_mem hd
  have h2 := List.getElem_idxOf hlt
  rw [← h1, ← h2]
  simp only [h]

/-- Then an option has the last value that is given for it, or the default if there is none or the last one is empty. -/
theorem C63_options_have_their_values (ds : List Decl) (hd : Declared ds) (argv : List Text) (items : List Item) (hr : Reads ds argv items)
    (as : List Assign) (h : run ds argv = .ok as) (d : Decl) (hm : d ∈ ds) (hk : d.kind = .option) :
    optionValue ds as d.name = some (if (given d items).getLast?.getD [] = [] then d.default_ else (given d items).getLast?.getD [])
      ∧ optionGiven ds as d.name = some (decide ((given d items).getLast?.getD [] ≠ [])) := by
  rw [run_items hd hr h]
  have hf : find ds .option false d.name = some (ds.idxOf d) := hk ▸ find_long hd hm
  have hv : ∀ (items : List Item) (n : Nat), (∀ i ∈ items, i.Allowed ds) → optionValues (assigns ds n items) (ds.idxOf d) = given d items := by
    intro items
    induction items with
    | nil => intro n _; rfl
    | cons i items ih =>
      intro n ha
      have hr' : ∀ j ∈ items, j.Allowed ds := fun j hj => ha j (List.mem_cons_of_mem _ hj)
      cases i with
      | word v => exact ih (n + 1) hr'
      | flag e l => exact ih n hr'
      | option e l j v =>
        have hi := ha _ (List.mem_cons_self ..)
        have := ih n hr'
        unfold optionValues given at this ⊢
        rw [assigns, List.filterMap_cons, List.filterMap_cons]
        dsimp only
        by_cases he : e = d
        · subst he; rw [if_pos rfl, if_pos rfl, this]
        · rw [if_neg (fun x => he (idxOf_inj hi.1 x)), if_neg he, this]
  have hval := hv items 0 hr.1
  have hget : ds[ds.idxOf d]? = some d := by
    rw [List.getElem?_eq_getElem (List.idxOf_lt_length_of_mem hm), List.getElem_idxOf]
  constructor
  · unfold optionValue
    rw [hf]
    simp only [Option.map_some, hval, hget, Option.getD_some]
  · unfold optionGiven
    rw [hf]
    simp only [Option.map_some, hval]

/-- A flag is set exactly if it is given. -/
theorem C63_flags_are_set_if_given (ds : List Decl) (hd : Declared ds) (argv : List Text) (items : List Item) (hr : Reads ds argv items)
    (as : List Assign) (h : run ds argv = .ok as) (d : Decl) (hm : d ∈ ds) (hk : d.kind = .flag) :
    flagValue ds as d.name = some true ↔ ∃ long, Item.flag d long ∈ items := by
  rw [run_items hd hr h]
  have hf : find ds .flag false d.name = some (ds.idxOf d) := hk ▸ find_long hd hm
  unfold flagValue
  rw [hf, Option.map_some, Option.some_inj, List.contains_iff_mem]
  have hv : ∀ (items : List Item) (n : Nat), (∀ i ∈ items, i.Allowed ds) →
      (Assign.flag (ds.idxOf d) ∈ assigns ds n items ↔ ∃ long, Item.flag d long ∈ items) := by
    intro items
    induction items with
    | nil => intro n _; simp [assigns]
    | cons i items ih =>
      intro n ha
      have hr' : ∀ j ∈ items, j.Allowed ds := fun j hj => ha j (List.mem_cons_of_mem _ hj)
      cases i with
      | word v => simp [assigns, ih (n + 1) hr']
      | option e l j v => simp [assigns, ih n hr']
      | flag e l =>
        have hi := ha _ (List.mem_cons_self ..)
        rw [assigns, List.mem_cons, ih n hr']
        constructor
        · rintro (he | ⟨l', hl⟩)
          · have := idxOf_inj hm (Assign.flag.inj he)
            exact ⟨l, by rw [this]; exact List.mem_cons_self ..⟩
          · exact ⟨l', List.mem_cons_of_mem _ hl⟩
        · rintro ⟨l', hl⟩
          rcases List.mem_cons.1 hl with he | hl
          · injection he with he1 he2
            left; rw [he1]
          · exact .inr ⟨l', hl⟩
  exact hv items 0 hr.1

theorem words_assigns (ds : List Decl) (i : Nat) (items : List Item) (n : Nat) :
    words (assigns ds n items) i = ((wordsOf items).zipIdx n).filterMap (fun p => if placeOf ds p.2 = i then some p.1 else none) := by
  induction items generalizing n with
  | nil => rfl
  | cons it items ih =>
    cases it with
    | word v =>
      have h := ih (n + 1)
      have hw : wordsOf (.word v :: items) = v :: wordsOf items := rfl
      rw [hw, assigns, List.zipIdx_cons, List.filterMap_cons]
      unfold words at h ⊢
      rw [List.filterMap_cons]
      dsimp only
      by_cases hp : placeOf ds n = i
      · rw [if_pos hp, h]
      · rw [if_neg hp, h]
    | option e l j v => exact ih n
    | flag e l => exact ih n

theorem zipIdx_single (l : List Text) (n k : Nat) (f : Nat → Prop) [DecidablePred f] (hf : ∀ m, n ≤ m → (f m ↔ m = k)) (hnk : n ≤ k) :
    (l.zipIdx n).filterMap (fun p => if f p.2 then some p.1 else none) = (l[k - n]?).toList := by
  have hnone : ∀ (l : List Text) (n : Nat), (∀ m, n ≤ m → ¬ f m) →
      (l.zipIdx n).filterMap (fun p => if f p.2 then some p.1 else none) = [] := by
    intro l
    induction l with
    | nil => intro n _; rfl
    | cons x xs ih =>
      intro n hn
      rw [List.zipIdx_cons, List.filterMap_cons]
      dsimp only
      rw [if_neg (hn n (Nat.le_refl _))]
      exact ih (n + 1) (fun m hm => hn m (by omega))
  induction l generalizing n with
  | nil => rfl
  | cons x xs ih =>
    rw [List.zipIdx_cons, List.filterMap_cons]
    dsimp only
    by_cases hk : n = k
    · subst hk
      rw [if_pos ((hf n (Nat.le_refl _)).2 rfl), hnone xs (n + 1) (fun m hm h => by have := (hf m (by omega)).1 h; omega)]
      simp
    · rw [if_neg (fun h => hk ((hf n (Nat.le_refl _)).1 h))]
      rw [ih (n + 1) (fun m hm => hf m (by omega)) (by omega)]
      have : k - n = (k - (n + 1)) + 1 := by omega
      rw [this, List.getElem?_cons_succ]

theorem zipIdx_rest (l : List Text) (n k : Nat) (f : Nat → Prop) [DecidablePred f] (hf : ∀ m, n ≤ m → (f m ↔ k ≤ m)) :
    (l.zipIdx n).filterMap (fun p => if f p.2 then some p.1 else none) = l.drop (k - n) := by
  induction l generalizing n with
  | nil => simp
  | cons x xs ih =>
    rw [List.zipIdx_cons, List.filterMap_cons]
    dsimp only
    by_cases hk : k ≤ n
    · rw [if_pos ((hf n (Nat.le_refl _)).2 hk), ih (n + 1) (fun m hm => hf m (by omega))]
      rw [show k - (n + 1) = 0 from by omega, show k - n = 0 from by omega]; rfl
    · rw [if_neg (fun h => hk ((hf n (Nat.le_refl _)).1 h)), ih (n + 1) (fun m hm => hf m (by omega))]
      rw [show k - n = (k - (n + 1)) + 1 from by omega]; rfl

theorem getElem_inj {l : List Decl} (h : l.Nodup) {i j : Nat} {d : Decl} (hi : l[i]? = some d) (hj : l[j]? = some d) : i = j := by
  obtain ⟨h1, e1⟩ := List.getElem?_eq_some_iff.1 hi
  obtain ⟨h2, e2⟩ := List.getElem?_eq_some_iff.1 hj
  have hp := List.pairwise_iff_getElem.1 h
  rcases Nat.lt_trichotomy i j with hlt | heq | hgt
  · exact absurd (e1.trans e2.symm) (hp i j h1 h2 hlt)
  · exact heq
  · exact absurd (e2.trans e1.symm) (hp j i h2 h1 hgt)

theorem placeOf_eq_iff {ds : List Decl} (hd : Declared ds) {d : Decl} {k : Nat} (hk : (ds.filter isPositional)[k]? = some d) (n : Nat) :
    placeOf ds n = ds.idxOf d ↔ min n (places ds) = k := by
  obtain ⟨_, h2, _⟩ := placeOf_facts hd n
  have hm : d ∈ ds := (List.mem_filter.1 (List.mem_of_getElem? hk)).1
  have hget : ds[ds.idxOf d]? = some d := by
    rw [List.getElem?_eq_getElem (List.idxOf_lt_length_of_mem hm), List.getElem_idxOf]
  have hnd : (ds.filter isPositional).Nodup := hd.noDup.sublist (List.filter_sublist ..)
  constructor
  · intro h
    rw [h, hget] at h2
    exact getElem_inj hnd h2.symm hk
  · intro h
    rw [h, hk] at h2
    exact getElem_inj hd.noDup h2 hget

/-- The first words are the values of the declared single places, in their order; a list has all further words, in their order. -/
theorem C63_words_are_in_their_places (ds : List Decl) (hd : Declared ds) (argv : List Text) (items : List Item) (hr : Reads ds argv items)
    (as : List Assign) (h : run ds argv = .ok as) :
    (∀ (k : Nat) (d : Decl), (ds.filter (fun d => d.kind = .positional))[k]? = some d → positionalValue ds as d.name = some (((wordsOf items)[k]?).getD []))
      ∧ ∀ d ∈ ds, d.kind = .list → listValues ds as d.name = some ((wordsOf items).drop (places ds)) := by
  rw [run_items hd hr h]
  obtain ⟨_, _, hsame, hlist⟩ := filter_facts hd
  constructor
  · intro k d hk
    have hlt : k < places ds := (List.getElem?_eq_some_iff.1 hk).1
    have hm := List.mem_filter.1 (List.mem_of_getElem? hk)
    have hkind : d.kind = .positional := by simpa using hm.2
    have hf : find ds .positional false d.name = some (ds.idxOf d) := hkind ▸ find_long hd hm.1
    unfold positionalValue
    rw [hf, Option.map_some, words_assigns]
    rw [zipIdx_single (wordsOf items) 0 k (fun n => placeOf ds n = ds.idxOf d) (fun n _ => by
      rw [placeOf_eq_iff hd (k := k) (by rw [hsame k hlt]; exact hk) n]; omega) (Nat.zero_le _)]
    rw [Nat.sub_zero]
    cases (wordsOf items)[k]? <;> rfl
  · intro d hm hk
    have hf : find ds .list false d.name = some (ds.idxOf d) := hk ▸ find_long hd hm
    unfold listValues
    rw [hf, Option.map_some, words_assigns]
    rw [zipIdx_rest (wordsOf items) 0 (places ds) (fun n => placeOf ds n = ds.idxOf d) (fun n _ => by
      rw [placeOf_eq_iff hd (hlist d hm hk) n]; omega)]
    rw [Nat.sub_zero]

/-- The declarations of the three utilities are sensible. -/
theorem C63_utilities_are_declared : Declared registryArguments ∧ Declared monitorArguments ∧ Declared controllerArguments := by
  have key : ∀ ds : List Decl, (∀ d ∈ ds, ∀ e ∈ ds, d.name = e.name → d = e) → (∀ d ∈ ds, ∀ e ∈ ds, d.short ≠ [] → d.short = e.short → d = e) →
      (∀ d ∈ ds, d.name ≠ [] ∧ ('=' ∉ d.name ∧ '=' ∉ d.short) ∧ d.short.head? ≠ some '-') → ds.Nodup →
      (∀ i < ds.length, (ds[i]?).map (·.kind) = some .list → ∀ e ∈ ds.drop (i + 1), isPositional e = false) → Declared ds := by
    intro ds h1 h2 h3 h4 h5
    refine ⟨h1, h2, fun d hd => (h3 d hd).1, fun d hd => (h3 d hd).2.1, fun d hd => (h3 d hd).2.2, ?_, h4⟩
    intro a d c e hk
    have := h5 a.length (by rw [e]; simp) (by rw [e]; simp [hk])
    rw [e] at this
    simpa using this
  refine ⟨key _ ?_ ?_ ?_ ?_ ?_, key _ ?_ ?_ ?_ ?_ ?_, key _ ?_ ?_ ?_ ?_ ?_⟩ <;> decide +kernel

/-- A command line of the system controller. -/
example : run controllerArguments ["--log".toList, "warn".toList, "A".toList, "-u=silkit://h".toList, "-ni".toList, "B".toList]
    = .ok [.option 5 "warn".toList, .word 6 "A".toList, .option 2 "silkit://h".toList, .flag 7, .word 6 "B".toList] := by decide +kernel

example : Reads controllerArguments ["--log".toList, "warn".toList, "A".toList, "-u=silkit://h".toList, "-ni".toList, "B".toList]
    [.option ⟨.option, "log".toList, "l".toList, "info".toList⟩ true false "warn".toList, .word "A".toList,
     .option ⟨.option, "connect-uri".toList, "u".toList, "silkit://localhost:8500".toList⟩ false true "silkit://h".toList,
     .flag ⟨.flag, "non-interactive".toList, "ni".toList, []⟩ false, .word "B".toList] := by
  refine ⟨?_, by decide +kernel, .inl (by decide +kernel)⟩
  intro i hi
  simp only [List.mem_cons, List.not_mem_nil, or_false] at hi
  rcases hi with rfl | rfl | rfl | rfl | rfl
  · exact ⟨by decide +kernel, rfl, .inl rfl⟩
  · exact .inl (by decide +kernel)
  · exact ⟨by decide +kernel, rfl, .inr (by decide +kernel)⟩
  · exact ⟨by decide +kernel, rfl, .inr (by decide +kernel)⟩
  · exact .inl (by decide +kernel)

/-- The first argument that cannot be read is named: everything before it can. -/
theorem C63_rejected_argument_is_named (ds : List Decl) (argv : List Text) (e : Error) (h : run ds argv = .error e) :
    ∃ a, a ∈ argv ∧ (e = .bad a ∧ Plain a ∨ e = .unknown a ∧ ¬ Plain a ∨ e = .withoutValue a ∧ ¬ Plain a ∧ argv.getLast? = some a) := by
  have hmap : ∀ (x : Except Error (List Assign)) (f : List Assign → List Assign), x.map f = .error e → x = .error e := by
    intro x f hx
    cases x with
    | error e' => exact hx
    | ok bs => cases hx
  have key : ∀ m (argv : List Text), argv.length ≤ m → ∀ pos, parse ds pos argv = .error e →
      ∃ a, a ∈ argv ∧ (e = .bad a ∧ Plain a ∨ e = .unknown a ∧ ¬ Plain a ∨ e = .withoutValue a ∧ ¬ Plain a ∧ argv.getLast? = some a) := by
    intro m
    have lift : ∀ (a : Text) (rest : List Text), (∃ b, b ∈ rest ∧ (e = .bad b ∧ Plain b ∨ e = .unknown b ∧ ¬ Plain b ∨
        e = .withoutValue b ∧ ¬ Plain b ∧ rest.getLast? = some b)) →
        ∃ b, b ∈ a :: rest ∧ (e = .bad b ∧ Plain b ∨ e = .unknown b ∧ ¬ Plain b ∨ e = .withoutValue b ∧ ¬ Plain b ∧ (a :: rest).getLast? = some b) := by
      rintro a rest ⟨b, hb, h⟩
      refine ⟨b, List.mem_cons_of_mem _ hb, h.imp_right (Or.imp_right (fun h => ⟨h.1, h.2.1, ?_⟩))⟩
      cases rest with
      | nil => cases hb
      | cons x xs => rw [List.getLast?_cons_cons]; exact h.2.2
    induction m with
    | zero =>
      intro argv hl pos h
      rw [List.length_eq_zero_iff.1 (by omega : argv.length = 0), parse] at h
      cases h
    | succ m ih =>
      intro argv hl pos h
      match argv, hl, h with
      | [], _, h => rw [parse] at h; cases h
      | a :: rest, hl, h =>
        have hl' : rest.length ≤ m := by simpa using hl
        rw [parse.eq_def] at h
        dsimp only at h
        cases hst : strip a with
        | none =>
          rw [hst] at h
          dsimp only at h
          split at h
          · cases h; exact ⟨a, List.mem_cons_self .., .inl ⟨rfl, (strip_none_iff a).1 hst⟩⟩
          · exact lift a rest (ih rest hl' _ (hmap _ _ h))
        | some q =>
          obtain ⟨arg, short⟩ := q
          have hnp : ¬ Plain a := fun hp => by rw [(strip_none_iff a).2 hp] at hst; cases hst
          rw [hst] at h
          dsimp only at h
          split at h
          · split at h
            · cases h; exact ⟨a, List.mem_cons_self .., .inr (.inl ⟨rfl, hnp⟩)⟩
            · exact lift a rest (ih rest hl' _ (hmap _ _ h))
          · split at h
            · match rest, hl', h with
              | [], _, h => cases h; exact ⟨a, List.mem_cons_self .., .inr (.inr ⟨rfl, hnp, rfl⟩)⟩
              | v :: rest, hl', h =>
                exact lift a _ (lift v rest (ih rest (by simp at hl'; omega) _ (hmap _ _ h)))
            · split at h
              · exact lift a rest (ih rest hl' _ (hmap _ _ h))
              · cases h; exact ⟨a, List.mem_cons_self .., .inr (.inl ⟨rfl, hnp⟩)⟩
  exact key argv.length argv (Nat.le_refl _) _ h

example : run registryArguments ["--log".toList, "info".toList, "--nope".toList] = .error (.unknown "--nope".toList) := by decide +kernel

/-! ## Deviations -/

/-- An option without its value takes the next option for it. -/
theorem C63_option_swallows_option :
    optionValue registryArguments [.option 5 "--listen-uri=silkit://h:1".toList] "log".toList = some "--listen-uri=silkit://h:1".toList
      ∧ run registryArguments ["--log".toList, "--listen-uri=silkit://h:1".toList] = .ok [.option 5 "--listen-uri=silkit://h:1".toList] := by
  decide +kernel

/-- An empty value is not a value: the default applies, also if another value was given before. -/
theorem C63_empty_value_is_no_value (ds : List Decl) (as : List Assign) (d : Decl) (i : Nat) (hi : find ds .option false d.name = some i)
    (hd : ds[i]? = some d) : optionValue ds (as ++ [.option i []]) d.name = some d.default_
      ∧ optionGiven ds (as ++ [.option i []]) d.name = some false := by
  have : optionValues (as ++ [.option i []]) i = optionValues as i ++ [[]] := by
    unfold optionValues
    rw [List.filterMap_append]
    simp
  constructor
  · unfold optionValue
    rw [hi, Option.map_some, this]
    simp [hd]
  · unfold optionGiven
    rw [hi, Option.map_some, this]
    simp

example : (run registryArguments ["--listen-uri=silkit://h:1".toList, "--listen-uri=".toList]).map (optionValue registryArguments · "listen-uri".toList)
    = .ok (some "silkit://localhost:8500".toList) := by decide +kernel

/-- A participant whose name begins with a dash cannot be given to the system controller. -/
theorem C63_names_with_a_dash_cannot_be_given (argv : List Text) (as : List Assign) (h : run controllerArguments argv = .ok as) (v : Text)
    (hv : v ∈ (listValues controllerArguments as "participantNames".toList).getD []) : Plain v := by
  obtain ⟨items, hr⟩ := (C63_accepted_iff_readable _ C63_utilities_are_declared.2.2 argv).1 ⟨as, h⟩
  have hl := (C63_words_are_in_their_places _ C63_utilities_are_declared.2.2 argv items hr as h).2
    ⟨.list, "participantNames".toList, [], []⟩ (by decide +kernel) rfl
  rw [hl, Option.getD_some] at hv
  have hw := List.mem_of_mem_drop hv
  unfold wordsOf at hw
  obtain ⟨i, hi, e⟩ := List.mem_filterMap.1 hw
  cases i with
  | word w =>
    have e' : w = v := Option.some.inj e
    have hp : Plain w := hr.1 _ hi
    rw [← e']; exact hp
  | option d l j w => cases e
  | flag d l => cases e

end SilKit.Props
