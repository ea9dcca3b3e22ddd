import Verif.Spec.CommandLine
/-!
# Lemmas on command lines
-/
namespace SilKit.CommandLine
open SilKit.CommandLine.Spec

/-! ## Finding a declaration -/

theorem findIdx?_unique {p : Decl → Bool} {d : Decl} {ds : List Decl} (hm : d ∈ ds) (hp : p d = true) (hu : ∀ e ∈ ds, p e = true → e = d) :
    ds.findIdx? p = some (ds.idxOf d) := by
  induction ds with
  | nil => cases hm
  | cons e es ih =>
    rw [List.findIdx?_cons]
    by_cases he : e = d
    · subst he
      rw [if_pos hp, List.idxOf_cons_self]
    · have hn : ¬ p e = true := fun h => he (hu e (List.mem_cons_self ..) h)
      rw [if_neg hn, show (e :: es).idxOf d = es.idxOf d + 1 from by rw [List.idxOf_cons, show (e == d) = false from by simpa using he]; rfl, ih ((List.mem_cons.1 hm).resolve_left (fun h => he h.symm)) (fun x hx => hu x (List.mem_cons_of_mem _ hx))]
      rfl

theorem find_long {ds : List Decl} (hd : Declared ds) {d : Decl} (hm : d ∈ ds) : find ds d.kind false d.name = some (ds.idxOf d) := by
  unfold find
  refine findIdx?_unique hm (by simp) (fun e he hp => ?_)
  simp at hp
  exact hd.names e he d hm hp.2

theorem find_short {ds : List Decl} (hd : Declared ds) {d : Decl} (hm : d ∈ ds) (hs : d.short ≠ []) :
    find ds d.kind true d.short = some (ds.idxOf d) := by
  unfold find
  refine findIdx?_unique hm (by simp [hs]) (fun e he hp => ?_)
  simp at hp
  exact hd.shorts e he d hm hp.2.1 hp.2.2

/-- The text after the prefix. -/
def bare (d : Decl) (long : Bool) : Text := if long then d.name else d.short

theorem find_bare {ds : List Decl} (hd : Declared ds) {d : Decl} (hm : d ∈ ds) {long : Bool} (hl : long = true ∨ d.short ≠ []) :
    find ds d.kind (!long) (bare d long) = some (ds.idxOf d) := by
  cases long with
  | true => exact find_long hd hm
  | false => exact find_short hd hm (hl.resolve_left (by decide))

theorem find_some {ds : List Decl} (hd : Declared ds) {k : Kind} {short : Bool} {name : Text} {i : Nat} (h : find ds k short name = some i) :
    ∃ d ∈ ds, d.kind = k ∧ bare d (!short) = name ∧ ((!short) = true ∨ d.short ≠ []) ∧ i = ds.idxOf d := by
  have h0 := h
  unfold find at h
  obtain ⟨hlt, hp, _⟩ := List.findIdx?_eq_some_iff_getElem.1 h
  have hm := List.getElem_mem hlt
  generalize ds[i] = d at hp hm
  simp only [Bool.and_eq_true, decide_eq_true_eq] at hp
  obtain ⟨hk, hn⟩ := hp
  have key : bare d (!short) = name ∧ ((!short) = true ∨ d.short ≠ []) := by
    cases short with
    | true =>
      rw [if_pos rfl] at hn
      simp only [Bool.and_eq_true, decide_eq_true_eq] at hn
      exact ⟨hn.2, .inr (by simpa using hn.1)⟩
    | false =>
      rw [if_neg (by decide)] at hn
      exact ⟨show d.name = name by simpa using hn, .inl rfl⟩
  refine ⟨d, hm, hk, key.1, key.2, ?_⟩
  have hf := find_bare hd hm key.2
  rw [hk, key.1, Bool.not_not, h0] at hf
  exact Option.some.inj hf

theorem find_other {ds : List Decl} (hd : Declared ds) {d : Decl} (hm : d ∈ ds) {long : Bool} (hl : long = true ∨ d.short ≠ []) {k : Kind}
    (hk : d.kind ≠ k) : find ds k (!long) (bare d long) = none := by
  cases h : find ds k (!long) (bare d long) with
  | none => rfl
  | some i =>
    obtain ⟨e, he, hek, hb, hs, _⟩ := find_some hd h
    rw [Bool.not_not] at hb hs
    have : e = d := by
      cases long with
      | true => exact hd.names e he d hm hb
      | false => exact hd.shorts e he d hm (hs.resolve_left (by decide)) hb
    exact absurd (this ▸ hek) hk

/-! ## The prefix -/

theorem strip_short {c : Char} (cs : Text) (hc : c ≠ '-') : strip ('-' :: c :: cs) = some (c :: cs, true) := by
  rw [strip.eq_def]
  split
  · rename_i h; exact absurd (List.cons.inj (List.cons.inj h).2).1 hc
  · rename_i h; have := (List.cons.inj h).2; rw [this]
  · rename_i h2; exact absurd rfl (h2 c cs)

theorem strip_plain {c : Char} (cs : Text) (hc : c ≠ '-') : strip (c :: cs) = none := by
  rw [strip.eq_def]
  split
  · rename_i h; exact absurd (List.cons.inj h).1 hc
  · rename_i h; exact absurd (List.cons.inj h).1 hc
  · rfl

theorem strip_none_iff (v : Text) : strip v = none ↔ Plain v := by
  unfold Plain
  cases v with
  | nil => simp [strip]
  | cons c cs =>
    by_cases hc : c = '-'
    · subst hc
      cases cs with
      | nil => simp [strip]
      | cons x xs =>
        by_cases hx : x = '-'
        · subst hx
          cases xs <;> simp [strip]
        · rw [strip_short xs hx]; simp
    · rw [strip_plain cs hc]; simp [hc]

theorem strip_some {a arg : Text} {short : Bool} (h : strip a = some (arg, short)) :
    a = (if short then '-' :: arg else '-' :: '-' :: arg) ∧ arg ≠ [] := by
  unfold strip at h
  split at h
  · cases h; exact ⟨rfl, by simp⟩
  · cases h; exact ⟨rfl, by simp⟩
  · cases h

theorem strip_written {ds : List Decl} (hd : Declared ds) {d : Decl} (hm : d ∈ ds) {long : Bool} (hl : long = true ∨ d.short ≠ []) (t : Text) :
    strip (written d long ++ t) = some (bare d long ++ t, !long) := by
  cases long with
  | true =>
    have hne := hd.nonempty d hm
    show strip ('-' :: '-' :: (d.name ++ t)) = some (d.name ++ t, false)
    cases hn : d.name with
    | nil => exact absurd hn hne
    | cons c cs => rfl
  | false =>
    have hne := hl.resolve_left (by decide)
    have hda := hd.noDash d hm
    show strip ('-' :: (d.short ++ t)) = some (d.short ++ t, true)
    cases hn : d.short with
    | nil => exact absurd hn hne
    | cons c cs =>
      have hc : c ≠ '-' := by rw [hn] at hda; intro e; exact hda (by rw [e]; rfl)
      show strip ('-' :: c :: (cs ++ t)) = some (c :: (cs ++ t), true)
      exact strip_short _ hc

theorem bare_noEquals {ds : List Decl} (hd : Declared ds) {d : Decl} (hm : d ∈ ds) (long : Bool) : '=' ∉ bare d long := by
  cases long with
  | true => exact (hd.noEquals d hm).1
  | false => exact (hd.noEquals d hm).2

theorem takeWhile_name {n : Text} (h : '=' ∉ n) (v : Text) : (n ++ '=' :: v).takeWhile (· ≠ '=') = n := by
  induction n with
  | nil => rfl
  | cons c cs ih =>
    have hc : c ≠ '=' := fun e => h (by rw [e]; exact List.mem_cons_self ..)
    rw [List.cons_append, List.takeWhile_cons, if_pos (by simpa using hc), ih (fun hm => h (List.mem_cons_of_mem _ hm))]

theorem dropWhile_name {n : Text} (h : '=' ∉ n) (v : Text) : ((n ++ '=' :: v).dropWhile (· ≠ '=')).drop 1 = v := by
  induction n with
  | nil => rfl
  | cons c cs ih =>
    have hc : c ≠ '=' := fun e => h (by rw [e]; exact List.mem_cons_self ..)
    rw [List.cons_append, List.dropWhile_cons, if_pos (by simpa using hc), ih (fun hm => h (List.mem_cons_of_mem _ hm))]

theorem split_equals {arg : Text} (h : '=' ∈ arg) :
    arg = arg.takeWhile (· ≠ '=') ++ '=' :: ((arg.dropWhile (· ≠ '=')).drop 1) := by
  induction arg with
  | nil => cases h
  | cons c cs ih =>
    by_cases hc : c = '='
    · subst hc; simp
    · have : '=' ∈ cs := (List.mem_cons.1 h).resolve_left (fun e => hc e.symm)
      rw [List.takeWhile_cons, if_pos (by simpa using hc), List.dropWhile_cons, if_pos (by simpa using hc)]
      rw [List.cons_append, ← ih this]

/-! ## The places of words -/

/-- The place of the n-th word. -/
def placeOf (ds : List Decl) : Nat → Nat
  | 0 => nextPositional ds 0
  | n + 1 => match ds[placeOf ds n]? with
    | some d => if d.kind = .positional then nextPositional ds (placeOf ds n + 1) else placeOf ds n
    | none => placeOf ds n

/-- How many declared places are before an index. -/
def rank (ds : List Decl) (i : Nat) : Nat := ((ds.take i).filter isPositional).length

theorem nextPositional_facts (ds : List Decl) (i : Nat) (hi : i ≤ ds.length) :
    rank ds (nextPositional ds i) = rank ds i ∧ ds[nextPositional ds i]? = (ds.filter isPositional)[rank ds i]?
      ∧ nextPositional ds i ≤ ds.length := by
  have hfi : ∀ l : List Decl, ((l.take (l.findIdx isPositional)).filter isPositional) = []
      ∧ l[l.findIdx isPositional]? = (l.filter isPositional)[0]? ∧ l.findIdx isPositional ≤ l.length := by
    intro l
    induction l with
    | nil => exact ⟨rfl, rfl, Nat.le_refl _⟩
    | cons x xs ih =>
      rw [List.findIdx_cons]
      cases hx : isPositional x with
      | true => simp [List.filter_cons, hx]
      | false =>
        obtain ⟨h1, h2, h3⟩ := ih
        refine ⟨?_, ?_, ?_⟩
        · simpa [List.take_succ_cons, List.filter_cons, hx] using h1
        · simpa [List.filter_cons, hx] using h2
        · simpa using h3
  obtain ⟨h1, h2, h3⟩ := hfi (ds.drop i)
  have hrank : rank ds (nextPositional ds i) = rank ds i := by
    unfold rank nextPositional
    rw [List.take_add, List.filter_append, h1, List.append_nil]
  refine ⟨hrank, ?_, ?_⟩
  · unfold nextPositional
    rw [← List.getElem?_drop, h2]
    unfold rank
    conv => rhs; rw [← List.take_append_drop i ds]
    rw [List.filter_append, List.getElem?_append_right (by
      rw [List.take_append_drop]; exact Nat.le_refl _)]
    rw [List.take_append_drop, Nat.sub_self]
  · unfold nextPositional
    rw [List.length_drop] at h3
    omega

theorem filter_facts {ds : List Decl} (hd : Declared ds) :
    (∀ k d, (ds.filter isPositional)[k]? = some d → (d.kind = .positional ↔ k < places ds))
      ∧ ((ds.filter isPositional)[places ds]?.isSome ↔ takesAll ds = true)
      ∧ (∀ k, k < places ds → (ds.filter isPositional)[k]? = (ds.filter (fun d => d.kind = .positional))[k]?)
      ∧ (∀ d ∈ ds, d.kind = .list → (ds.filter isPositional)[places ds]? = some d) := by
  have key : ∀ ds : List Decl, (∀ a d c, ds = a ++ d :: c → d.kind = .list → ∀ e ∈ c, isPositional e = false) →
      ds.filter isPositional = ds.filter (fun d => d.kind = .positional) ++ ds.filter (fun d => d.kind = .list)
      ∧ (ds.filter (fun d => d.kind = .list)).length ≤ 1 := by
    intro ds
    induction ds with
    | nil => intro _; exact ⟨rfl, Nat.zero_le _⟩
    | cons x xs ih =>
      intro hl
      obtain ⟨h1, h2⟩ := ih (fun a d c e => hl (x :: a) d c (by rw [e]; rfl))
      cases hk : x.kind with
      | list =>
        have hnone := hl [] x xs rfl hk
        have e1 : xs.filter isPositional = [] := List.filter_eq_nil_iff.2 (fun e he => by simp [hnone e he])
        have e2 : xs.filter (fun d => decide (d.kind = .positional)) = [] := List.filter_eq_nil_iff.2 (fun e he => by
          have := hnone e he; unfold isPositional at this; simp at this; simpa using this.1)
        have e3 : xs.filter (fun d => decide (d.kind = .list)) = [] := List.filter_eq_nil_iff.2 (fun e he => by
          have := hnone e he; unfold isPositional at this; simp at this; simpa using this.2)
        simp [isPositional, hk, e1, e2, e3]
      | positional =>
        refine ⟨?_, ?_⟩
        · simp only [List.filter_cons, isPositional, hk, h1]; simp [← h1]
        · simpa [List.filter_cons, hk] using h2
      | option => exact ⟨by simpa [List.filter_cons, isPositional, hk] using h1, by simpa [List.filter_cons, hk] using h2⟩
      | flag => exact ⟨by simpa [List.filter_cons, isPositional, hk] using h1, by simpa [List.filter_cons, hk] using h2⟩
  obtain ⟨h1, h2⟩ := key ds hd.listLast
  rw [h1]
  refine ⟨fun k d h => ?_, ?_, fun k hk => ?_, fun d hm hk => ?_⟩
  · by_cases hlt : k < places ds
    · rw [List.getElem?_append_left hlt] at h
      have := List.mem_filter.1 (List.mem_of_getElem? h)
      exact ⟨fun _ => hlt, fun _ => by simpa using this.2⟩
    · rw [List.getElem?_append_right (by unfold places at hlt; omega)] at h
      have := List.mem_filter.1 (List.mem_of_getElem? h)
      have hk : d.kind = .list := by simpa using this.2
      exact ⟨fun e => (by rw [hk] at e; cases e), fun h => absurd h hlt⟩
  · unfold places
    rw [List.getElem?_append_right (Nat.le_refl _), Nat.sub_self]
    unfold takesAll
    rw [List.any_eq_true]
    constructor
    · intro h
      obtain ⟨d, hd⟩ := Option.isSome_iff_exists.1 h
      have := List.mem_filter.1 (List.mem_of_getElem? hd)
      exact ⟨d, this.1, this.2⟩
    · rintro ⟨d, hm, hk⟩
      have : d ∈ ds.filter (fun d => decide (d.kind = .list)) := List.mem_filter.2 ⟨hm, hk⟩
      cases hf : ds.filter (fun d => decide (d.kind = .list)) with
      | nil => rw [hf] at this; cases this
      | cons x xs => rfl
  · rw [List.getElem?_append_left hk]
  · unfold places
    rw [List.getElem?_append_right (Nat.le_refl _), Nat.sub_self]
    have hmem : d ∈ ds.filter (fun d => decide (d.kind = .list)) := List.mem_filter.2 ⟨hm, by simpa using hk⟩
    cases hf : ds.filter (fun d => decide (d.kind = .list)) with
    | nil => rw [hf] at hmem; cases hmem
    | cons x xs =>
      rw [hf] at hmem h2
      have : xs = [] := by
        cases xs with
        | nil => rfl
        | cons y ys => simp at h2
      subst this
      rw [List.mem_singleton.1 hmem]; rfl

theorem placeOf_facts {ds : List Decl} (hd : Declared ds) (n : Nat) :
    rank ds (placeOf ds n) = min n (places ds) ∧ ds[placeOf ds n]? = (ds.filter isPositional)[min n (places ds)]? ∧ placeOf ds n ≤ ds.length := by
  obtain ⟨hk, hall, _, _⟩ := filter_facts hd
  induction n with
  | zero =>
    obtain ⟨h1, h2, h3⟩ := nextPositional_facts ds 0 (Nat.zero_le _)
    have hr : rank ds 0 = 0 := rfl
    rw [hr] at h1 h2
    exact ⟨by rw [Nat.zero_min]; exact h1, by rw [Nat.zero_min]; exact h2, h3⟩
  | succ n ih =>
    obtain ⟨h1, h2, h3⟩ := ih
    rw [placeOf]
    cases hg : ds[placeOf ds n]? with
    | none =>
      dsimp only
      have hge : ¬ n < places ds := by
        intro hlt
        rw [hg, Nat.min_eq_left (by omega)] at h2
        have hlen : places ds ≤ (ds.filter isPositional).length := by
          unfold places
          rw [← List.countP_eq_length_filter, ← List.countP_eq_length_filter]
          exact List.countP_mono_left (fun x _ hx => by simp at hx; simp [isPositional, hx])
        have := List.getElem?_eq_none_iff.1 h2.symm
        omega
      rw [Nat.min_eq_right (by omega)] at h1 h2
      rw [Nat.min_eq_right (by omega)]
      exact ⟨h1, h2, h3⟩
    | some d =>
      dsimp only
      have hlt : placeOf ds n < ds.length := (List.getElem?_eq_some_iff.1 hg).1
      rw [hg] at h2
      have hpos := hk _ d h2.symm
      by_cases hp : d.kind = .positional
      · rw [if_pos hp]
        have hn : n < places ds := by have := hpos.1 hp; omega
        obtain ⟨g1, g2, g3⟩ := nextPositional_facts ds (placeOf ds n + 1) (by omega)
        have hr : rank ds (placeOf ds n + 1) = n + 1 := by
          unfold rank at h1 ⊢
          rw [List.take_add_one, hg, List.filter_append, List.length_append, h1, Nat.min_eq_left (by omega)]
          simp [isPositional, hp]
        rw [hr] at g1 g2
        rw [Nat.min_eq_left (by omega)]
        exact ⟨g1, g2, g3⟩
      · rw [if_neg hp]
        have hn : ¬ n < places ds := fun h => hp (hpos.2 (by omega))
        rw [Nat.min_eq_right (by omega)] at h1 h2
        rw [Nat.min_eq_right (by omega)]
        exact ⟨h1, hg.trans h2, h3⟩

/-! ## Reading -/

/-- The assignments of a sequence of items, of which the first word is the n-th. -/
def assigns (ds : List Decl) : Nat → List Item → List Assign
  | _, [] => []
  | n, .word v :: items => .word (placeOf ds n) v :: assigns ds (n + 1) items
  | n, .option d _ _ v :: items => .option (ds.idxOf d) v :: assigns ds n items
  | n, .flag d _ :: items => .flag (ds.idxOf d) :: assigns ds n items

theorem parse_items {ds : List Decl} (hd : Declared ds) (items : List Item) (n : Nat) (ha : ∀ i ∈ items, i.Allowed ds)
    (hf : takesAll ds = true ∨ n + (wordsOf items).length ≤ places ds) :
    parse ds (placeOf ds n) (items.flatMap Item.write) = .ok (assigns ds n items) := by
  induction items generalizing n with
  | nil => rw [List.flatMap_nil, parse]; rfl
  | cons i items ih =>
    have hi := ha i (List.mem_cons_self ..)
    have hr : ∀ j ∈ items, j.Allowed ds := fun j hj => ha j (List.mem_cons_of_mem _ hj)
    rw [List.flatMap_cons]
    cases i with
    | word v =>
      have hw : wordsOf (.word v :: items) = v :: wordsOf items := rfl
      rw [hw, List.length_cons] at hf
      have hst : strip v = none := (strip_none_iff v).2 hi
      obtain ⟨_, h2, _⟩ := placeOf_facts hd n
      obtain ⟨hk, hall, _, _⟩ := filter_facts hd
      have hsome : ∃ d, ds[placeOf ds n]? = some d := by
        rw [h2]
        by_cases hn : n < places ds
        · have hlen : places ds ≤ (ds.filter isPositional).length := by
            unfold places
            rw [← List.countP_eq_length_filter, ← List.countP_eq_length_filter]
            exact List.countP_mono_left (fun x _ hx => by simp at hx; simp [isPositional, hx])
          rw [Nat.min_eq_left (by omega)]
          exact ⟨_, List.getElem?_eq_getElem (by omega)⟩
        · rw [Nat.min_eq_right (by omega)]
          exact Option.isSome_iff_exists.1 (hall.2 (hf.resolve_right (by omega)))
      obtain ⟨d, hg⟩ := hsome
      show parse ds (placeOf ds n) (v :: items.flatMap Item.write) = _
      rw [parse, hst]
      dsimp only
      rw [hg]
      dsimp only
      have hnext : (if d.kind = .positional then nextPositional ds (placeOf ds n + 1) else placeOf ds n) = placeOf ds (n + 1) := by
        rw [placeOf, hg]
      rw [hnext, ih (n + 1) hr (hf.imp_right (fun h => by omega))]
      rfl
    | option d long joined v =>
      obtain ⟨hm, hk, hl⟩ := hi
      have hfind : find ds .option (!long) (bare d long) = some (ds.idxOf d) := hk ▸ find_bare hd hm hl
      have hne := bare_noEquals hd hm long
      have ih' := ih n hr hf
      cases joined with
      | true =>
        show parse ds (placeOf ds n) ((written d long ++ '=' :: v) :: items.flatMap Item.write) = _
        rw [parse, strip_written hd hm hl]
        dsimp only
        rw [if_pos (List.mem_append_right _ (List.mem_cons_self ..)), takeWhile_name hne, hfind]
        dsimp only
        rw [dropWhile_name hne, ih']
        rfl
      | false =>
        show parse ds (placeOf ds n) (written d long :: v :: items.flatMap Item.write) = _
        have hs := strip_written hd hm hl []
        rw [List.append_nil, List.append_nil] at hs
        rw [parse, hs]
        dsimp only
        rw [if_neg hne, hfind]
        dsimp only
        rw [ih']
        rfl
    | flag d long =>
      obtain ⟨hm, hk, hl⟩ := hi
      have hfind : find ds .flag (!long) (bare d long) = some (ds.idxOf d) := hk ▸ find_bare hd hm hl
      have hother : find ds .option (!long) (bare d long) = none := find_other hd hm hl (by rw [hk]; decide)
      show parse ds (placeOf ds n) (written d long :: items.flatMap Item.write) = _
      have hs := strip_written hd hm hl []
      rw [List.append_nil, List.append_nil] at hs
      rw [parse, hs]
      dsimp only
      rw [if_neg (bare_noEquals hd hm long), hother]
      dsimp only
      rw [hfind]
      dsimp only
      rw [ih n hr hf]
      rfl

theorem map_ok {x : Except Error (List Assign)} {f : List Assign → List Assign} {as : List Assign} (h : x.map f = .ok as) :
    ∃ bs, x = .ok bs ∧ as = f bs := by
  cases x with
  | error e => cases h
  | ok bs => exact ⟨bs, rfl, (Except.ok.inj h).symm⟩

theorem written_bare (d : Decl) (long : Bool) : (if (!long) = true then '-' :: bare d long else '-' :: '-' :: bare d long) = written d long := by
  cases long <;> rfl

theorem items_of_parse {ds : List Decl} (hd : Declared ds) (m : Nat) (argv : List Text) (hlen : argv.length ≤ m) (n : Nat) (as : List Assign)
    (h : parse ds (placeOf ds n) argv = .ok as) :
    ∃ items : List Item, (∀ i ∈ items, i.Allowed ds) ∧ argv = items.flatMap Item.write
      ∧ (takesAll ds = true ∨ n + (wordsOf items).length ≤ max n (places ds)) := by
  induction m generalizing argv n as with
  | zero =>
    rw [List.length_eq_zero_iff.1 (by omega : argv.length = 0)]
    exact ⟨[], by simp, rfl, .inr (Nat.le_max_left _ _)⟩
  | succ m ih =>
    match argv, hlen, h with
    | [], _, _ => exact ⟨[], by simp, rfl, .inr (Nat.le_max_left _ _)⟩
    | a :: rest, hlen, h =>
      rw [parse.eq_def] at h
      dsimp only at h
      have hl' : rest.length ≤ m := by simpa using hlen
      cases hst : strip a with
      | none =>
        rw [hst] at h
        dsimp only at h
        cases hg : ds[placeOf ds n]? with
        | none => rw [hg] at h; cases h
        | some d =>
          rw [hg] at h
          dsimp only at h
          have hnext : (if d.kind = .positional then nextPositional ds (placeOf ds n + 1) else placeOf ds n) = placeOf ds (n + 1) := by
            rw [placeOf, hg]
          rw [hnext] at h
          obtain ⟨bs, hb, _⟩ := map_ok h
          obtain ⟨items, h1, h2, h3⟩ := ih rest hl' (n + 1) bs hb
          refine ⟨.word a :: items, ?_, by rw [h2]; rfl, ?_⟩
          · intro i hi
            rcases List.mem_cons.1 hi with rfl | hi
            · exact (strip_none_iff a).1 hst
            · exact h1 i hi
          · by_cases hall : takesAll ds = true
            · exact .inl hall
            · right
              have h3' := h3.resolve_left hall
              show n + ((wordsOf items).length + 1) ≤ _
              obtain ⟨_, g2, _⟩ := placeOf_facts hd n
              obtain ⟨_, hall', _, _⟩ := filter_facts hd
              have hn : n < places ds := by
                by_cases hn : n < places ds
                · exact hn
                · rw [Nat.min_eq_right (by omega), hg] at g2
                  exact absurd (hall'.1 (by rw [← g2]; rfl)) hall
              omega
      | some as' =>
        obtain ⟨arg, short⟩ := as'
        obtain ⟨ha, hne⟩ := strip_some hst
        rw [hst] at h
        dsimp only at h
        by_cases heq : '=' ∈ arg
        · rw [if_pos heq] at h
          cases hf : find ds .option short (arg.takeWhile (· ≠ '=')) with
          | none => rw [hf] at h; cases h
          | some i =>
            rw [hf] at h
            obtain ⟨bs, hb, _⟩ := map_ok h
            obtain ⟨items, h1, h2, h3⟩ := ih rest hl' n bs hb
            obtain ⟨d, hm, hk, hbare, hl, _⟩ := find_some hd hf
            refine ⟨.option d (!short) true ((arg.dropWhile (· ≠ '=')).drop 1) :: items, ?_, ?_, h3⟩
            · intro j hj
              rcases List.mem_cons.1 hj with rfl | hj
              · exact ⟨hm, hk, hl⟩
              · exact h1 j hj
            · rw [h2]
              show a :: _ = (written d (!short) ++ '=' :: _) :: _
              congr 1
              rw [← written_bare, hbare, ha, Bool.not_not]
              cases short with
              | true => rw [if_pos rfl, if_pos rfl, List.cons_append, ← split_equals heq]
              | false => rw [if_neg (by decide), if_neg (by decide), List.cons_append, List.cons_append, ← split_equals heq]
        · rw [if_neg heq] at h
          cases hf : find ds .option short arg with
          | some i =>
            rw [hf] at h
            dsimp only at h
            match rest, hl', h with
            | [], _, h => cases h
            | v :: rest, hl', h =>
              obtain ⟨bs, hb, _⟩ := map_ok h
              obtain ⟨items, h1, h2, h3⟩ := ih rest (by simp at hl'; omega) n bs hb
              obtain ⟨d, hm, hk, hbare, hl, _⟩ := find_some hd hf
              refine ⟨.option d (!short) false v :: items, ?_, ?_, h3⟩
              · intro j hj
                rcases List.mem_cons.1 hj with rfl | hj
                · exact ⟨hm, hk, hl⟩
                · exact h1 j hj
              · rw [h2]
                show a :: v :: _ = written d (!short) :: v :: _
                congr 1
                rw [← written_bare, hbare, ha, Bool.not_not]
          | none =>
            rw [hf] at h
            dsimp only at h
            cases hfl : find ds .flag short arg with
            | none => rw [hfl] at h; cases h
            | some i =>
              rw [hfl] at h
              obtain ⟨bs, hb, _⟩ := map_ok h
              obtain ⟨items, h1, h2, h3⟩ := ih rest hl' n bs hb
              obtain ⟨d, hm, hk, hbare, hl, _⟩ := find_some hd hfl
              refine ⟨.flag d (!short) :: items, ?_, ?_, h3⟩
              · intro j hj
                rcases List.mem_cons.1 hj with rfl | hj
                · exact ⟨hm, hk, hl⟩
                · exact h1 j hj
              · rw [h2]
                show a :: _ = written d (!short) :: _
                congr 1
                rw [← written_bare, hbare, ha, Bool.not_not]

end SilKit.CommandLine
