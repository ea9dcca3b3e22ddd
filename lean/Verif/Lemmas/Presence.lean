import Verif.Spec.Presence
/-! # Lemmas: who is there -/
namespace SilKit.Presence
open Spec

/-! ## Sets -/

abbrev Sorted (l : List Name) : Prop := l.Pairwise (· < ·)

theorem mem_setInsert (n x : Name) : ∀ l : List Name, x ∈ setInsert n l ↔ x = n ∨ x ∈ l
  | [] => by simp [setInsert]
  | y :: ys => by
    unfold setInsert
    split
    · simp
    · split
      · rename_i h; subst h; simp
      · simp only [List.mem_cons, mem_setInsert n x ys]
        constructor
        · rintro (h | h | h) <;> simp [h]
        · rintro (h | h | h) <;> simp [h]

theorem lt_of_not (a b : Name) (h : ¬ a < b) (h' : a ≠ b) : b < a := by
  apply Classical.byContradiction
  intro hc
  exact h' (String.le_antisymm (String.not_lt.mp hc) (String.not_lt.mp h))

theorem sorted_setInsert (n : Name) : ∀ l : List Name, Sorted l → Sorted (setInsert n l)
  | [], _ => by simp [setInsert, Sorted]
  | y :: ys, hs => by
    have hs' := List.pairwise_cons.mp hs
    unfold setInsert
    split
    · rename_i h
      refine List.pairwise_cons.mpr ⟨?_, hs⟩
      intro a ha
      rcases List.mem_cons.mp ha with e | ha
      · subst e; exact h
      · exact String.lt_trans h (hs'.1 a ha)
    · split
      · exact hs
      · rename_i h1 h2
        refine List.pairwise_cons.mpr ⟨?_, sorted_setInsert n ys hs'.2⟩
        intro a ha
        rcases (mem_setInsert n a ys).mp ha with e | ha
        · subst e; exact lt_of_not _ _ h1 h2
        · exact hs'.1 a ha

theorem sorted_ext : ∀ (a b : List Name), Sorted a → Sorted b → (∀ x, x ∈ a ↔ x ∈ b) → a = b
  | [], [], _, _, _ => rfl
  | [], y :: ys, _, _, h => absurd ((h y).mpr (by simp)) (by simp)
  | x :: xs, [], _, _, h => absurd ((h x).mp (by simp)) (by simp)
  | x :: xs, y :: ys, ha, hb, h => by
    have ha' := List.pairwise_cons.mp ha
    have hb' := List.pairwise_cons.mp hb
    have e : x = y := by
      rcases List.mem_cons.mp ((h x).mp (by simp)) with e | e
      · exact e
      · rcases List.mem_cons.mp ((h y).mpr (by simp)) with e' | e'
        · exact e'.symm
        · exact absurd (hb'.1 x e) (String.lt_asymm (ha'.1 y e'))
    subst e
    refine congrArg (x :: ·) (sorted_ext xs ys ha'.2 hb'.2 ?_)
    intro z
    constructor
    · intro hz
      rcases List.mem_cons.mp ((h z).mp (List.mem_cons_of_mem _ hz)) with e | e
      · subst e; exact absurd (ha'.1 z hz) (String.lt_irrefl z)
      · exact e
    · intro hz
      rcases List.mem_cons.mp ((h z).mpr (List.mem_cons_of_mem _ hz)) with e | e
      · subst e; exact absurd (hb'.1 z hz) (String.lt_irrefl z)
      · exact e

theorem toSet_aux : ∀ (ns acc : List Name), Sorted acc →
    Sorted (ns.foldl (fun s n => setInsert n s) acc) ∧ ∀ x, x ∈ ns.foldl (fun s n => setInsert n s) acc ↔ x ∈ ns ∨ x ∈ acc
  | [], acc, h => ⟨h, by simp⟩
  | n :: ns, acc, h => by
    have ih := toSet_aux ns (setInsert n acc) (sorted_setInsert n acc h)
    refine ⟨ih.1, ?_⟩
    intro x
    refine (ih.2 x).trans ?_
    rw [mem_setInsert, List.mem_cons]
    constructor
    · rintro (a | a | a) <;> simp [a]
    · rintro ((a | a) | a) <;> simp [a]

theorem sorted_toSet (ns : List Name) : Sorted (toSet ns) := (toSet_aux ns [] List.Pairwise.nil).1

theorem mem_toSet (ns : List Name) (x : Name) : x ∈ toSet ns ↔ x ∈ ns := by
  have := (toSet_aux ns [] List.Pairwise.nil).2 x
  unfold toSet
  rw [this]; simp

theorem nodup_of_sorted (l : List Name) (h : Sorted l) : l.Nodup :=
  h.imp fun {a b} hab e => by subst e; exact String.lt_irrefl a hab

/-! ## The controller -/

theorem reported_snoc (calls : List Call) (k : Call) (n : Name) :
    reported (calls ++ [k]) n = (match k with
      | .connected m => if m = n then true else reported calls n
      | .disconnected m => if m = n then false else reported calls n) := by
  unfold reported
  rw [List.foldl_append]
  rfl

theorem after_snoc (k : Controller) (calls : List Call) (x : Call) : k.after (calls ++ [x]) = (k.after calls).handle x := by
  unfold Controller.after
  rw [List.foldl_append]
  rfl

/-- All required participants are there, according to the calls. -/
def allReported (required : List Name) (calls : List Call) : Prop := ∀ r ∈ required, reported calls r = true

/-- What the controller knows. -/
structure Knows (k : Controller) (calls : List Call) (s : Controller) : Prop where
  required : s.required = k.required
  own : s.own = k.own
  sorted : Sorted s.present
  before : s.workflows = [] → (∀ x, x ∈ s.present ↔ x ∈ k.required ∧ reported calls x = true) ∧
    ∀ p, p <+: calls → ¬ allReported k.required p
  done : s.workflows ≠ [] → s.workflows = [k.required ++ [k.own]] ∧ ∃ p, p <+: calls ∧ allReported k.required p

theorem snoc_induction {α : Type} {P : List α → Prop} (hnil : P []) (hsnoc : ∀ l a, P l → P (l ++ [a])) : ∀ l, P l := by
  intro l
  have : ∀ r : List α, P r.reverse := by
    intro r
    induction r with
    | nil => exact hnil
    | cons a r ih => rw [List.reverse_cons]; exact hsnoc _ _ ih
  have h := this l.reverse
  rwa [List.reverse_reverse] at h

theorem prefix_snoc {α : Type} (p l : List α) (a : α) (h : p <+: l ++ [a]) : p <+: l ∨ p = l ++ [a] := by
  obtain ⟨t, ht⟩ := h
  rcases List.eq_nil_or_concat t with e | ⟨t', b, e⟩
  · subst e; right; simpa using ht
  · subst e
    left
    rw [List.concat_eq_append, ← List.append_assoc] at ht
    exact ⟨t', (List.append_inj' ht rfl).1⟩

theorem knows (k : Controller) (hs : Sorted k.required) (hne : k.required ≠ []) (hp : k.present = []) (hw : k.workflows = []) :
    ∀ calls, Knows k calls (k.after calls) := by
  refine snoc_induction ?_ ?_
  · refine ⟨rfl, rfl, ?_, ?_, ?_⟩
    · change Sorted k.present; rw [hp]; exact List.Pairwise.nil
    · intro _
      refine ⟨?_, ?_⟩
      · intro x; change x ∈ k.present ↔ _; rw [hp]; simp [reported]
      · intro p hpre hall
        have : p = [] := List.prefix_nil.mp hpre
        subst this
        cases hr : k.required with
        | nil => exact hne hr
        | cons r rs =>
          have := hall r (by rw [hr]; simp)
          simp [reported] at this
    · intro h; exact absurd hw h
  · intro calls x ih
    rw [after_snoc]
    generalize k.after calls = s at ih
    rcases Classical.em (s.workflows = []) with hsw | hsw
    · obtain ⟨hmem, hno⟩ := ih.before hsw
      cases x with
      | connected n =>
        have e1 : s.handle (.connected n) = (if s.required.contains n = false then s else
            if setInsert n s.present = s.required then { s with present := setInsert n s.present, workflows := s.workflows ++ [s.required ++ [s.own]] }
            else { s with present := setInsert n s.present }) := by
          unfold Controller.handle; simp [hsw]
        rw [e1]
        have hrep : ∀ y, y ≠ n → reported (calls ++ [.connected n]) y = reported calls y := by
          intro y hy; rw [reported_snoc]; simp [Ne.symm hy]
        have hrepn : reported (calls ++ [.connected n]) n = true := by rw [reported_snoc]; simp
        split
        · rename_i hc
          have hn : n ∉ k.required := by rw [ih.required] at hc; simpa using hc
          refine ⟨ih.required, ih.own, ih.sorted, ?_, fun h => absurd hsw h⟩
          intro _
          refine ⟨?_, ?_⟩
          · intro y
            rw [hmem]
            constructor
            · rintro ⟨a, b⟩
              refine ⟨a, ?_⟩
              rw [hrep y (fun e => hn (e ▸ a))]; exact b
            · rintro ⟨a, b⟩
              refine ⟨a, ?_⟩
              rw [hrep y (fun e => hn (e ▸ a))] at b; exact b
          · intro p hpre hall
            rcases prefix_snoc p calls _ hpre with h | h
            · exact hno p h hall
            · subst h
              refine hno calls (List.prefix_refl _) ?_
              intro r hr
              have := hall r hr
              rwa [hrep r (fun e => hn (e ▸ hr))] at this
        · rename_i hc
          have hn : n ∈ k.required := by rw [ih.required] at hc; simpa using hc
          have hmem' : ∀ y, y ∈ setInsert n s.present ↔ y ∈ k.required ∧ reported (calls ++ [.connected n]) y = true := by
            intro y
            rw [mem_setInsert, hmem]
            rcases Classical.em (y = n) with e | e
            · subst e; simp [hn, hrepn]
            · rw [hrep y e]; simp [e]
          have hsort := sorted_setInsert n s.present ih.sorted
          split
          · rename_i heq
            refine ⟨ih.required, ih.own, hsort, ?_, ?_⟩
            · intro h; simp at h
            · intro _
              refine ⟨?_, calls ++ [.connected n], List.prefix_refl _, ?_⟩
              · simp [hsw, ih.required, ih.own]
              · intro r hr
                rw [ih.required] at heq
                rw [← heq] at hr
                exact ((hmem' r).mp hr).2
          · rename_i hneq
            refine ⟨ih.required, ih.own, hsort, ?_, fun h => absurd hsw h⟩
            intro _
            refine ⟨hmem', ?_⟩
            intro p hpre hall
            rcases prefix_snoc p calls _ hpre with h | h
            · exact hno p h hall
            · subst h
              apply hneq
              rw [ih.required]
              refine sorted_ext _ _ hsort hs ?_
              intro y
              rw [hmem']
              exact ⟨fun h => h.1, fun h => ⟨h, hall y h⟩⟩
      | disconnected n =>
        have e1 : s.handle (.disconnected n) = (if s.required.contains n then { s with present := s.present.filter (· != n) } else s) := by
          unfold Controller.handle; simp [hsw]
        rw [e1]
        have hrep : ∀ y, y ≠ n → reported (calls ++ [.disconnected n]) y = reported calls y := by
          intro y hy; rw [reported_snoc]; simp [Ne.symm hy]
        have hrepn : reported (calls ++ [.disconnected n]) n = false := by rw [reported_snoc]; simp
        have hno' : ∀ p, p <+: calls ++ [.disconnected n] → ¬ allReported k.required p := by
          intro p hpre hall
          rcases prefix_snoc p calls _ hpre with h | h
          · exact hno p h hall
          · subst h
            refine hno calls (List.prefix_refl _) ?_
            intro r hr
            have := hall r hr
            rcases Classical.em (r = n) with e | e
            · subst e; rw [hrepn] at this; exact absurd this (by simp)
            · rwa [hrep r e] at this
        split
        · refine ⟨ih.required, ih.own, ih.sorted.filter _, ?_, fun h => absurd hsw h⟩
          intro _
          refine ⟨?_, hno'⟩
          intro y
          simp only [List.mem_filter, hmem]
          rcases Classical.em (y = n) with e | e
          · subst e; simp [hrepn]
          · rw [hrep y e]; simp [e]
        · rename_i hc
          have hn : n ∉ k.required := by rw [ih.required] at hc; simpa using hc
          refine ⟨ih.required, ih.own, ih.sorted, ?_, fun h => absurd hsw h⟩
          intro _
          refine ⟨?_, hno'⟩
          intro y
          rw [hmem]
          constructor
          · rintro ⟨a, b⟩
            refine ⟨a, ?_⟩
            rw [hrep y (fun e => hn (e ▸ a))]; exact b
          · rintro ⟨a, b⟩
            refine ⟨a, ?_⟩
            rw [hrep y (fun e => hn (e ▸ a))] at b; exact b
    · have e1 : s.handle x = s := by
        cases x <;> unfold Controller.handle <;> simp [hsw]
      rw [e1]
      obtain ⟨hw', p, hp', hall⟩ := ih.done hsw
      exact ⟨ih.required, ih.own, ih.sorted, fun h => absurd h hsw, fun _ => ⟨hw', p, hp'.trans (List.prefix_append _ _), hall⟩⟩

/-- The controller sets the workflow configuration once the calls report all required participants. -/
theorem workflows_after (k : Controller) (hs : Sorted k.required) (hne : k.required ≠ []) (hp : k.present = []) (hw : k.workflows = []) (calls : List Call) :
    ((k.after calls).workflows = [k.required ++ [k.own]] ∧ ∃ p, p <+: calls ∧ allReported k.required p)
    ∨ ((k.after calls).workflows = [] ∧ ∀ p, p <+: calls → ¬ allReported k.required p) := by
  have h := knows k hs hne hp hw calls
  rcases Classical.em ((k.after calls).workflows = []) with e | e
  · exact Or.inr ⟨e, (h.before e).2⟩
  · exact Or.inl (h.done e)

theorem start_ok (own : Name) (names : List Name) (k : Controller) (h : start own names = .ok k) :
    names ≠ [] ∧ k.required = toSet names ∧ k.own = own ∧ k.present = [] ∧ k.workflows = [] ∧ k.required ≠ [] := by
  unfold start at h
  split at h
  · exact nomatch h
  · split at h
    · exact nomatch h
    · rename_i h1 h2
      have := Except.ok.inj h
      subst this
      refine ⟨h1, rfl, rfl, rfl, rfl, ?_⟩
      intro e
      cases names with
      | nil => exact h1 rfl
      | cons a r =>
        have := (mem_toSet (a :: r) a).mpr (by simp)
        rw [show toSet (a :: r) = [] from e] at this
        exact absurd this (by simp)

theorem length_setInsert (n : Name) : ∀ l : List Name, Sorted l → (setInsert n l).length = if n ∈ l then l.length else l.length + 1
  | [], _ => by simp [setInsert]
  | y :: ys, hs => by
    have hs' := List.pairwise_cons.mp hs
    unfold setInsert
    split
    · rename_i h
      have : n ∉ y :: ys := by
        intro hm
        rcases List.mem_cons.mp hm with e | e
        · subst e; exact String.lt_irrefl n h
        · exact String.lt_asymm h (hs'.1 n e)
      rw [if_neg this]; rfl
    · split
      · rename_i h; subst h; simp
      · rename_i h1 h2
        rw [List.length_cons, length_setInsert n ys hs'.2]
        by_cases hm : n ∈ ys
        · simp [hm]
        · simp [hm, h2]

theorem toSet_length_aux : ∀ (ns acc : List Name), Sorted acc →
    ((ns.foldl (fun s n => setInsert n s) acc).length ≤ ns.length + acc.length) ∧
    ((ns.foldl (fun s n => setInsert n s) acc).length = ns.length + acc.length ↔ ns.Nodup ∧ ∀ x ∈ ns, x ∉ acc)
  | [], acc, _ => by simp
  | n :: ns, acc, h => by
    have ih := toSet_length_aux ns (setInsert n acc) (sorted_setInsert n acc h)
    have hl := length_setInsert n acc h
    rw [List.foldl_cons, List.length_cons, List.nodup_cons]
    by_cases hm : n ∈ acc
    · rw [if_pos hm] at hl
      refine ⟨by omega, ?_⟩
      constructor
      · intro e; omega
      · rintro ⟨_, h2⟩; exact absurd hm (h2 n (by simp))
    · rw [if_neg hm] at hl
      refine ⟨by omega, ?_⟩
      have : ∀ X : Nat, (X = ns.length + 1 + acc.length ↔ X = ns.length + (setInsert n acc).length) := by intro X; omega
      rw [this, ih.2]
      constructor
      · rintro ⟨h1, h2⟩
        refine ⟨⟨?_, h1⟩, ?_⟩
        · intro hn; exact h2 n hn ((mem_setInsert n n acc).mpr (Or.inl rfl))
        · intro x hx
          rcases List.mem_cons.mp hx with e | e
          · subst e; exact hm
          · intro hxa; exact h2 x e ((mem_setInsert n x acc).mpr (Or.inr hxa))
      · rintro ⟨⟨h0, h1⟩, h2⟩
        refine ⟨h1, ?_⟩
        intro x hx hxs
        rcases (mem_setInsert n x acc).mp hxs with e | e
        · subst e; exact h0 hx
        · exact h2 x (List.mem_cons_of_mem _ hx) e

theorem toSet_length (ns : List Name) : (toSet ns).length = ns.length ↔ ns.Nodup := by
  have := (toSet_length_aux ns [] List.Pairwise.nil).2
  unfold toSet
  simp at this
  exact this

/-! ## The monitor, when nothing happens while the user is in one of its functions -/

theorem lookup_iff : ∀ (l : List (Nat × Name)), (l.map Prod.fst).Nodup → ∀ c n, l.lookup c = some n ↔ (c, n) ∈ l
  | [], _, c, n => by simp
  | (d, m) :: l, h, c, n => by
    simp only [List.map_cons, List.nodup_cons] at h
    rw [List.lookup_cons]
    by_cases e : c = d
    · subst e
      simp only [beq_self_eq_true, Option.some.injEq, List.mem_cons, Prod.mk.injEq, true_and]
      constructor
      · intro e; exact Or.inl e.symm
      · rintro (e | e)
        · exact e.symm
        · exact absurd (List.mem_map.mpr ⟨(c, n), e, rfl⟩) h.1
    · have : (c == d) = false := by simpa using e
      rw [this]
      simp only [List.mem_cons, Prod.mk.injEq, e, false_and, false_or]
      exact lookup_iff l h.2 c n

theorem any_id (l : List (Nat × Name)) (c : Nat) : l.any (·.1 == c) = true ↔ c ∈ l.map Prod.fst := by
  simp only [List.any_eq_true, List.mem_map, beq_iff_eq]

theorem filter_name (c : Nat) (n : Name) : ∀ (l : List (Nat × Name)), (l.map Prod.fst).Nodup → (l.map Prod.snd).Nodup → (c, n) ∈ l →
    (l.filter (fun e => e.1 != c)).map Prod.snd = (l.map Prod.snd).filter (· != n)
  | [], _, _, h => absurd h (by simp)
  | (d, m) :: l, h1, h2, h => by
    simp only [List.map_cons, List.nodup_cons] at h1 h2
    rcases List.mem_cons.mp h with e | e
    · obtain ⟨rfl, rfl⟩ := Prod.mk.inj e
      rw [List.filter_cons_of_neg (by simp), List.map_cons, List.filter_cons_of_neg (by simp)]
      have e1 : l.filter (fun e => e.1 != c) = l := by
        refine List.filter_eq_self.mpr ?_
        intro a ha
        simp only [bne_iff_ne, ne_eq]
        intro hc
        exact h1.1 (List.mem_map.mpr ⟨a, ha, hc⟩)
      have e2 : (l.map Prod.snd).filter (· != n) = l.map Prod.snd := by
        refine List.filter_eq_self.mpr ?_
        intro a ha
        simp only [bne_iff_ne, ne_eq]
        intro hc; subst hc; exact h2.1 ha
      rw [e1, e2]
    · have hd : d ≠ c := by intro hc; subst hc; exact h1.1 (List.mem_map.mpr ⟨(d, n), e, rfl⟩)
      have hm : m ≠ n := by intro hc; subst hc; exact h2.1 (List.mem_map.mpr ⟨(c, m), e, rfl⟩)
      rw [List.filter_cons_of_pos (by simpa using hd), List.map_cons, List.map_cons, List.filter_cons_of_pos (by simpa using hm),
        filter_name c n l h1.2 h2.2 e]

/-- A world that orderly events lead to. -/
structure Good (w : World) : Prop where
  ids : (w.there.map Prod.fst).Nodup
  names : w.names.Nodup
  apart : ∀ c ∈ w.unnamed, c ∉ w.there.map Prod.fst
  named : ∀ n ∈ w.names, n ≠ ""

theorem good_after (w : World) (e : Event) (h : Good w) (ha : w.allows e) : Good (w.after e) := by
  cases e with
  | accept c =>
    refine ⟨h.ids, h.names, ?_, h.named⟩
    intro d hd
    simp only [World.after, List.mem_append, List.mem_singleton] at hd
    rcases hd with hd | hd
    · exact h.apart d hd
    · subst hd; intro hc; exact ha (Or.inr hc)
  | connect c n =>
    obtain ⟨h1, h2, h3⟩ := ha
    refine ⟨?_, ?_, ?_, ?_⟩
    · simp only [World.after, List.map_append, List.map_cons, List.map_nil]
      refine List.nodup_append.mpr ⟨h.ids, by simp, ?_⟩
      intro a hx b hb e
      simp at hb; subst hb; subst e
      exact h1 (Or.inr hx)
    · simp only [World.names, World.after, List.map_append, List.map_cons, List.map_nil]
      refine List.nodup_append.mpr ⟨h.names, by simp, ?_⟩
      intro a hx b hb e
      simp at hb; subst hb; subst e
      exact h2 hx
    · intro d hd
      simp only [World.after, List.map_append, List.map_cons, List.map_nil, List.mem_append, List.mem_singleton, not_or]
      refine ⟨h.apart d hd, ?_⟩
      intro e; subst e; exact h1 (Or.inl hd)
    · intro m hm
      simp only [World.names, World.after, List.map_append, List.map_cons, List.map_nil, List.mem_append, List.mem_singleton] at hm
      rcases hm with hm | hm
      · exact h.named m hm
      · subst hm; exact h3
  | announce c n =>
    obtain ⟨h1, h2, h3⟩ := ha
    refine ⟨?_, ?_, ?_, ?_⟩
    · simp only [World.after, List.map_append, List.map_cons, List.map_nil]
      refine List.nodup_append.mpr ⟨h.ids, by simp, ?_⟩
      intro a hx b hb e
      simp at hb; subst hb; subst e
      exact h.apart a h1 hx
    · simp only [World.names, World.after, List.map_append, List.map_cons, List.map_nil]
      refine List.nodup_append.mpr ⟨h.names, by simp, ?_⟩
      intro a hx b hb e
      simp at hb; subst hb; subst e
      exact h2 hx
    · intro d hd
      simp only [World.after, List.mem_filter, bne_iff_ne, ne_eq] at hd
      simp only [World.after, List.map_append, List.map_cons, List.map_nil, List.mem_append, List.mem_singleton, not_or]
      exact ⟨h.apart d hd.1, hd.2⟩
    · intro m hm
      simp only [World.names, World.after, List.map_append, List.map_cons, List.map_nil, List.mem_append, List.mem_singleton] at hm
      rcases hm with hm | hm
      · exact h.named m hm
      · subst hm; exact h3
  | close c =>
    have hsub : (w.there.filter (fun e => e.1 != c)).Sublist w.there := List.filter_sublist
    refine ⟨h.ids.sublist (hsub.map _), h.names.sublist (hsub.map _), ?_, ?_⟩
    · intro d hd hc
      simp only [World.after, List.mem_filter] at hd
      exact h.apart d hd.1 ((hsub.map _).subset hc)
    · intro m hm
      exact h.named m ((hsub.map _).subset hm)

/-- The connections as the participant sees them. -/
structure Rel (w : World) (s : State) : Prop where
  good : Good w
  idle : s.io = .idle
  ids : (s.peers.map Prod.fst).Nodup
  peer : ∀ c n, (c, n) ∈ s.peers ↔ (c ∈ w.unnamed ∧ n = "") ∨ (c, n) ∈ w.there
  names : s.names.map Prod.fst = w.names

theorem Rel.isOpen {w : World} {s : State} (h : Rel w s) (c : Nat) : s.peers.any (·.1 == c) = true ↔ w.isOpen c := by
  rw [any_id]
  unfold World.isOpen
  constructor
  · intro hm
    obtain ⟨⟨d, n⟩, hmem, rfl⟩ := List.mem_map.mp hm
    rcases (h.peer d n).mp hmem with a | a
    · exact Or.inl a.1
    · exact Or.inr (List.mem_map.mpr ⟨_, a, rfl⟩)
  · rintro (a | a)
    · exact List.mem_map.mpr ⟨(c, ""), (h.peer c "").mpr (Or.inl ⟨a, rfl⟩), rfl⟩
    · obtain ⟨⟨d, n⟩, hm, rfl⟩ := List.mem_map.mp a
      exact List.mem_map.mpr ⟨(d, n), (h.peer d n).mpr (Or.inr hm), rfl⟩

theorem Rel.closed {w : World} {s : State} (h : Rel w s) (c : Nat) (ho : ¬ w.isOpen c) : s.peers.any (·.1 == c) = false := by
  rw [← Bool.not_eq_true, h.isOpen]; exact ho

theorem any_name (l : List (Name × Nat)) (n : Name) : l.any (·.1 == n) = true ↔ n ∈ l.map Prod.fst := by
  simp only [List.any_eq_true, List.mem_map, beq_iff_eq]

theorem insertName_fst (l : List (Name × Nat)) (n : Name) (c : Nat) (h : n ∉ l.map Prod.fst) :
    (insertName l n c).map Prod.fst = l.map Prod.fst ++ [n] := by
  unfold insertName
  rw [if_neg (by rw [any_name]; exact h)]
  simp

theorem filter_fst (l : List (Name × Nat)) (n : Name) :
    (l.filter (fun e => e.1 != n)).map Prod.fst = (l.map Prod.fst).filter (· != n) := by
  rw [List.filter_map]; rfl

/-- The peers after an announcement. -/
theorem peers_announce {w : World} {s : State} (h : Rel w s) (c : Nat) (n : Name) (hc : c ∈ w.unnamed) (d : Nat) (m : Name) :
    (d, m) ∈ s.peers.map (fun e => if e.1 == c then (c, n) else e) ↔
      (d ∈ w.unnamed.filter (· != c) ∧ m = "") ∨ (d, m) ∈ w.there ++ [(c, n)] := by
  have hcp : (c, "") ∈ s.peers := (h.peer c "").mpr (Or.inl ⟨hc, rfl⟩)
  have hct := h.good.apart c hc
  simp only [List.mem_map, List.mem_append, List.mem_singleton, List.mem_filter, bne_iff_ne, ne_eq]
  constructor
  · rintro ⟨⟨x, y⟩, hm, he⟩
    by_cases hx : x = c
    · subst hx
      simp only [beq_self_eq_true, if_true] at he
      right; right; exact he.symm
    · have : (x == c) = false := by simpa using hx
      simp only [this, Bool.false_eq_true, if_false] at he
      obtain ⟨rfl, rfl⟩ := Prod.mk.inj he
      rcases (h.peer x y).mp hm with a | a
      · exact Or.inl ⟨⟨a.1, hx⟩, a.2⟩
      · exact Or.inr (Or.inl a)
  · rintro (⟨⟨a, b⟩, e⟩ | a | a)
    · refine ⟨(d, m), (h.peer d m).mpr (Or.inl ⟨a, e⟩), ?_⟩
      simp [b]
    · refine ⟨(d, m), (h.peer d m).mpr (Or.inr a), ?_⟩
      have : d ≠ c := by intro e; subst e; exact hct (List.mem_map.mpr ⟨_, a, rfl⟩)
      simp [this]
    · obtain ⟨rfl, rfl⟩ := Prod.mk.inj a
      exact ⟨(d, ""), hcp, by simp⟩

theorem peers_announce_ids (l : List (Nat × Name)) (c : Nat) (n : Name) :
    (l.map (fun e => if e.1 == c then (c, n) else e)).map Prod.fst = l.map Prod.fst := by
  rw [List.map_map]
  refine List.map_congr_left ?_
  intro e _
  by_cases h : e.1 = c
  · simp [h]
  · simp [h]

/-- The peers after a connection has ended. -/
theorem peers_close {w : World} {s : State} (h : Rel w s) (c : Nat) (d : Nat) (m : Name) :
    (d, m) ∈ s.peers.filter (fun e => e.1 != c) ↔
      (d ∈ w.unnamed.filter (· != c) ∧ m = "") ∨ (d, m) ∈ w.there.filter (fun e => e.1 != c) := by
  simp only [List.mem_filter, h.peer, bne_iff_ne, ne_eq]
  constructor
  · rintro ⟨a | a, b⟩
    · exact Or.inl ⟨⟨a.1, b⟩, a.2⟩
    · exact Or.inr ⟨a, b⟩
  · rintro (⟨⟨a, b⟩, e⟩ | ⟨a, b⟩)
    · exact ⟨Or.inl ⟨a, e⟩, b⟩
    · exact ⟨Or.inr a, b⟩

theorem names_close_unnamed (w : World) (h : Good w) (c : Nat) (hc : c ∈ w.unnamed) :
    (w.after (.close c)).names = w.names ∧ w.names.filter (· != "") = w.names := by
  constructor
  · unfold World.names World.after
    dsimp only
    rw [List.filter_eq_self.mpr]
    intro a ha
    simp only [bne_iff_ne, ne_eq]
    intro e
    exact h.apart c hc (List.mem_map.mpr ⟨a, ha, e⟩)
  · refine List.filter_eq_self.mpr ?_
    intro a ha
    simpa using h.named a ha

theorem names_close (w : World) (h : Good w) (c : Nat) (n : Name) (hc : (c, n) ∈ w.there) :
    (w.after (.close c)).names = w.names.filter (· != n) :=
  filter_name c n w.there h.ids h.names hc

def steps (s : State) (ops : List Op) : State := ops.foldl step s

theorem steps_append (s : State) (a b : List Op) : steps s (a ++ b) = steps (steps s a) b := by
  unfold steps; rw [List.foldl_append]

theorem steps_whole (s : State) (hi : s.io = .idle) (e : Event) : steps s (whole e) = ioStep (ioStep (begin s e)) := by
  unfold steps whole
  simp only [List.foldl_cons, List.foldl_nil, step, hi, if_true]

/-- What the rest of the state looks like after an event. -/
structure Same (s t : State) : Prop where
  receiver : t.receiver = s.receiver
  posted : t.posted = s.posted
  callback : t.callback = s.callback
  onConnected : t.onConnected = s.onConnected
  onDisconnected : t.onDisconnected = s.onDisconnected
  todo : t.todo = s.todo

theorem Same.trans {a b c : State} (h : Same a b) (g : Same b c) : Same a c :=
  ⟨g.receiver.trans h.receiver, g.posted.trans h.posted, g.callback.trans h.callback, g.onConnected.trans h.onConnected,
    g.onDisconnected.trans h.onDisconnected, g.todo.trans h.todo⟩

/-- Before the monitor exists, an event only changes the connections. -/
theorem event_before (w : World) (s : State) (h : Rel w s) (hr : s.receiver = false) (hcb : s.callback = false) (e : Event) (ha : w.allows e) :
    Rel (w.after e) (steps s (whole e)) ∧ Same s (steps s (whole e)) ∧ (steps s (whole e)).known = s.known ∧ (steps s (whole e)).calls = s.calls := by
  rw [steps_whole s h.idle]
  have hg := good_after w e h.good ha
  cases e with
  | accept c =>
    have e1 : ioStep (ioStep (begin s (.accept c))) = { s with peers := s.peers ++ [(c, "")] } := by
      simp only [begin, h.closed c ha, Bool.false_eq_true, if_false, ioStep, h.idle]
    rw [e1]
    refine ⟨⟨hg, h.idle, ?_, ?_, h.names⟩, ⟨rfl, rfl, rfl, rfl, rfl, rfl⟩, rfl, rfl⟩
    · have := h.closed c ha
      rw [← Bool.not_eq_true, any_id] at this
      simp only [List.map_append, List.map_cons, List.map_nil]
      refine List.nodup_append.mpr ⟨h.ids, by simp, ?_⟩
      intro a hx b hb e
      simp at hb; subst hb; subst e
      exact this hx
    · intro d m
      simp only [List.mem_append, List.mem_singleton, h.peer, World.after, Prod.mk.injEq]
      constructor
      · rintro ((a | a) | ⟨a, b⟩)
        · exact Or.inl ⟨Or.inl a.1, a.2⟩
        · exact Or.inr a
        · exact Or.inl ⟨Or.inr a, b⟩
      · rintro (⟨a | a, b⟩ | a)
        · exact Or.inl (Or.inl ⟨a, b⟩)
        · exact Or.inr ⟨a, b⟩
        · exact Or.inl (Or.inr a)
  | connect c n =>
    have e1 : ioStep (ioStep (begin s (.connect c n))) = { s with peers := s.peers ++ [(c, n)], names := insertName s.names n c } := by
      simp only [begin, h.closed c ha.1, Bool.false_eq_true, if_false, ioStep, h.idle]
    rw [e1]
    refine ⟨⟨hg, h.idle, ?_, ?_, ?_⟩, ⟨rfl, rfl, rfl, rfl, rfl, rfl⟩, rfl, rfl⟩
    · have := h.closed c ha.1
      rw [← Bool.not_eq_true, any_id] at this
      simp only [List.map_append, List.map_cons, List.map_nil]
      refine List.nodup_append.mpr ⟨h.ids, by simp, ?_⟩
      intro a hx b hb e
      simp at hb; subst hb; subst e
      exact this hx
    · intro d m
      simp only [List.mem_append, List.mem_singleton, h.peer, World.after]
      exact or_assoc
    · change (insertName s.names n c).map Prod.fst = _
      rw [insertName_fst _ _ _ (by rw [h.names]; exact ha.2.1), h.names]
      simp [World.names, World.after]
  | announce c n =>
    have hop := (h.isOpen c).mpr (Or.inl ha.1)
    have e1 : ioStep (ioStep (begin s (.announce c n))) =
        { s with peers := s.peers.map (fun e => if e.1 == c then (c, n) else e), names := insertName s.names n c, io := .idle } := by
      simp only [begin, hop, if_true, hr, Bool.false_eq_true, if_false, ioStep]
    rw [e1]
    refine ⟨⟨hg, rfl, ?_, ?_, ?_⟩, ⟨rfl, rfl, rfl, rfl, rfl, rfl⟩, rfl, rfl⟩
    · rw [peers_announce_ids]; exact h.ids
    · exact peers_announce h c n ha.1
    · change (insertName s.names n c).map Prod.fst = _
      rw [insertName_fst _ _ _ (by rw [h.names]; exact ha.2.1), h.names]
      simp [World.names, World.after]
  | close c =>
    rcases ha with hu | ht
    · have hl : s.peers.lookup c = some "" := (lookup_iff _ h.ids _ _).mpr ((h.peer _ _).mpr (Or.inl ⟨hu, rfl⟩))
      have e1 : ioStep (ioStep (begin s (.close c))) =
          { s with names := s.names.filter (fun e => e.1 != ""), peers := s.peers.filter (fun e => e.1 != c), io := .idle } := by
        simp only [begin, hl, hcb, Bool.false_eq_true, if_false, ioStep]
      rw [e1]
      refine ⟨⟨hg, rfl, h.ids.sublist (List.filter_sublist.map _), peers_close h c, ?_⟩, ⟨rfl, rfl, rfl, rfl, rfl, rfl⟩, rfl, rfl⟩
      have := names_close_unnamed w h.good c hu
      rw [this.1, ← this.2, ← h.names]
      exact filter_fst _ _
    · obtain ⟨⟨d, n⟩, hm, rfl⟩ := List.mem_map.mp ht
      have hl : s.peers.lookup d = some n := (lookup_iff _ h.ids _ _).mpr ((h.peer _ _).mpr (Or.inr hm))
      have e1 : ioStep (ioStep (begin s (.close d))) =
          { s with names := s.names.filter (fun e => e.1 != n), peers := s.peers.filter (fun e => e.1 != d), io := .idle } := by
        simp only [begin, hl, hcb, Bool.false_eq_true, if_false, ioStep]
      rw [e1]
      refine ⟨⟨hg, rfl, h.ids.sublist (List.filter_sublist.map _), peers_close h d, ?_⟩, ⟨rfl, rfl, rfl, rfl, rfl, rfl⟩, rfl, rfl⟩
      rw [names_close w h.good d n hm, ← h.names]
      exact filter_fst _ _

theorem emplace_new (l : List Name) (n : Name) (h : n ∉ l) : emplace l n = l ++ [n] ∧ (!l.contains n) = true := by
  have : l.contains n = false := by simpa using h
  unfold emplace
  rw [this]; simp

/-- With the monitor in place, an event changes what it knows, and the handlers are told. -/
theorem event_with (w : World) (s : State) (h : Rel w s) (hr : s.receiver = true) (hcb : s.callback = true) (hk : s.known = w.names) (b : Bool)
    (h1 : s.onConnected = b) (h2 : s.onDisconnected = b) (e : Event) (ha : w.allows e) (hj : ∀ c n, e ≠ .connect c n) (hp : b = true → w.proper e) :
    Rel (w.after e) (steps s (whole e)) ∧ Same s (steps s (whole e)) ∧ (steps s (whole e)).known = (w.after e).names
      ∧ (steps s (whole e)).calls = s.calls ++ (if b then w.news e else []) := by
  rw [steps_whole s h.idle]
  have hg := good_after w e h.good ha
  cases e with
  | accept c =>
    have e1 : ioStep (ioStep (begin s (.accept c))) = { s with peers := s.peers ++ [(c, "")] } := by
      simp only [begin, h.closed c ha, Bool.false_eq_true, if_false, ioStep, h.idle]
    rw [e1]
    refine ⟨⟨hg, h.idle, ?_, ?_, h.names⟩, ⟨rfl, rfl, rfl, rfl, rfl, rfl⟩, hk, by simp [World.news]⟩
    · have := h.closed c ha
      rw [← Bool.not_eq_true, any_id] at this
      simp only [List.map_append, List.map_cons, List.map_nil]
      refine List.nodup_append.mpr ⟨h.ids, by simp, ?_⟩
      intro a hx b hb e
      simp at hb; subst hb; subst e
      exact this hx
    · intro d m
      simp only [List.mem_append, List.mem_singleton, h.peer, World.after, Prod.mk.injEq]
      constructor
      · rintro ((a | a) | ⟨a, b⟩)
        · exact Or.inl ⟨Or.inl a.1, a.2⟩
        · exact Or.inr a
        · exact Or.inl ⟨Or.inr a, b⟩
      · rintro (⟨a | a, b⟩ | a)
        · exact Or.inl (Or.inl ⟨a, b⟩)
        · exact Or.inr ⟨a, b⟩
        · exact Or.inl (Or.inr a)
  | connect c n => exact absurd rfl (hj c n)
  | announce c n =>
    have hop := (h.isOpen c).mpr (Or.inl ha.1)
    have hn : n ∉ s.known := by rw [hk]; exact ha.2.1
    obtain ⟨e2, e3⟩ := emplace_new s.known n hn
    have e1 : ioStep (ioStep (begin s (.announce c n))) =
        { s with
          peers := s.peers.map (fun e => if e.1 == c then (c, n) else e)
          names := insertName s.names n c
          known := s.known ++ [n]
          calls := if b then s.calls ++ [Call.connected n] else s.calls
          io := .idle } := by
      simp only [begin, hop, if_true, hr, ioStep, e2, e3, callConnected, h1, Bool.and_true]
    rw [e1]
    refine ⟨⟨hg, rfl, ?_, ?_, ?_⟩, ⟨rfl, rfl, rfl, rfl, rfl, rfl⟩, ?_, ?_⟩
    · rw [peers_announce_ids]; exact h.ids
    · exact peers_announce h c n ha.1
    · change (insertName s.names n c).map Prod.fst = _
      rw [insertName_fst _ _ _ (by rw [h.names]; exact ha.2.1), h.names]
      simp [World.names, World.after]
    · change s.known ++ [n] = _
      rw [hk]; simp [World.names, World.after]
    · cases b <;> simp [World.news]
  | close c =>
    rcases ha with hu | ht
    · have hb : b = false := by
        cases b with
        | false => rfl
        | true => exact absurd (hp rfl) (h.good.apart c hu)
      subst hb
      have hl : s.peers.lookup c = some "" := (lookup_iff _ h.ids _ _).mpr ((h.peer _ _).mpr (Or.inl ⟨hu, rfl⟩))
      have e1 : ioStep (ioStep (begin s (.close c))) =
          { s with
            names := s.names.filter (fun e => e.1 != "")
            peers := s.peers.filter (fun e => e.1 != c)
            known := s.known.filter (· != "")
            io := .idle } := by
        simp only [begin, hl, hcb, if_true, ioStep, callDisconnected, h2, Bool.false_eq_true, if_false]
      rw [e1]
      have := names_close_unnamed w h.good c hu
      refine ⟨⟨hg, rfl, h.ids.sublist (List.filter_sublist.map _), peers_close h c, ?_⟩, ⟨rfl, rfl, rfl, rfl, rfl, rfl⟩, ?_, by simp⟩
      · rw [this.1, ← this.2, ← h.names]
        exact filter_fst _ _
      · change s.known.filter (· != "") = _
        rw [this.1, hk, this.2]
    · obtain ⟨⟨d, n⟩, hm, rfl⟩ := List.mem_map.mp ht
      have hl : s.peers.lookup d = some n := (lookup_iff _ h.ids _ _).mpr ((h.peer _ _).mpr (Or.inr hm))
      have hl' : w.there.lookup d = some n := (lookup_iff _ h.good.ids _ _).mpr hm
      have e1 : ioStep (ioStep (begin s (.close d))) =
          { s with
            names := s.names.filter (fun e => e.1 != n)
            peers := s.peers.filter (fun e => e.1 != d)
            known := s.known.filter (· != n)
            calls := if b then s.calls ++ [Call.disconnected n] else s.calls
            io := .idle } := by
        simp only [begin, hl, hcb, if_true, ioStep, callDisconnected, h2]
      rw [e1]
      refine ⟨⟨hg, rfl, h.ids.sublist (List.filter_sublist.map _), peers_close h d, ?_⟩, ⟨rfl, rfl, rfl, rfl, rfl, rfl⟩, ?_, ?_⟩
      · rw [names_close w h.good d n hm, ← h.names]
        exact filter_fst _ _
      · change s.known.filter (· != n) = _
        rw [names_close w h.good d n hm, hk]
      · simp only [World.news, hl']
        cases b <;> simp

def World.afterAll (w : World) (es : List Event) : World := es.foldl World.after w

theorem events_before : ∀ (es : List Event) (w : World) (s : State), Rel w s → s.receiver = false → s.callback = false → Orderly w es →
    Rel (World.afterAll w es) (steps s (es.flatMap whole)) ∧ Same s (steps s (es.flatMap whole)) ∧ (steps s (es.flatMap whole)).known = s.known
      ∧ (steps s (es.flatMap whole)).calls = s.calls
  | [], w, s, h, _, _, _ => ⟨h, ⟨rfl, rfl, rfl, rfl, rfl, rfl⟩, rfl, rfl⟩
  | e :: es, w, s, h, hr, hcb, ho => by
    obtain ⟨a1, a2, a3, a4⟩ := event_before w s h hr hcb e ho.1
    obtain ⟨b1, b2, b3, b4⟩ := events_before es (w.after e) _ a1 (a2.receiver.trans hr) (a2.callback.trans hcb) ho.2
    rw [List.flatMap_cons, steps_append]
    exact ⟨b1, a2.trans b2, b3.trans a3, b4.trans a4⟩

theorem events_with : ∀ (es : List Event) (w : World) (s : State), Rel w s → s.receiver = true → s.callback = true → s.known = w.names → ∀ b : Bool,
    s.onConnected = b → s.onDisconnected = b → Orderly w es → Joined es → (b = true → Proper w es) →
    Rel (World.afterAll w es) (steps s (es.flatMap whole)) ∧ Same s (steps s (es.flatMap whole))
      ∧ (steps s (es.flatMap whole)).known = (World.afterAll w es).names
      ∧ (steps s (es.flatMap whole)).calls = s.calls ++ (if b then news w es else [])
  | [], w, s, h, _, _, hk, b, _, _, _, _, _ => ⟨h, ⟨rfl, rfl, rfl, rfl, rfl, rfl⟩, hk, by cases b <;> simp [steps, news]⟩
  | e :: es, w, s, h, hr, hcb, hk, b, h1, h2, ho, hj, hp => by
    obtain ⟨a1, a2, a3, a4⟩ := event_with w s h hr hcb hk b h1 h2 e ho.1 (hj e (by simp)) (fun hb => (hp hb).1)
    obtain ⟨b1, b2, b3, b4⟩ := events_with es (w.after e) _ a1 (a2.receiver.trans hr) (a2.callback.trans hcb) a3 b (a2.onConnected.trans h1)
      (a2.onDisconnected.trans h2) ho.2 (fun x hx => hj x (List.mem_cons_of_mem _ hx)) (fun hb => (hp hb).2)
    rw [List.flatMap_cons, steps_append]
    refine ⟨b1, a2.trans b2, b3, b4.trans ?_⟩
    rw [a4]
    cases b <;> simp [news]

/-- The names of the snapshot are added to what is known. -/
theorem steps_add : ∀ (ns : List Name) (s : State) (r : List Instr), s.todo = ns.map Instr.add ++ r → s.onConnected = false → ns.Nodup →
    (∀ n ∈ ns, n ∉ s.known) →
    steps s (List.replicate (2 * ns.length) Op.user) = { s with known := s.known ++ ns, todo := r }
  | [], s, r, ht, _, _, _ => by
    simp only [List.map_nil, List.nil_append] at ht
    simp [steps, ← ht]
  | n :: ns, s, r, ht, hc, hn, hk => by
    rw [List.nodup_cons] at hn
    obtain ⟨e2, e3⟩ := emplace_new s.known n (hk n (by simp))
    have e1 : userStep (userStep s) = { s with known := s.known ++ [n], todo := ns.map Instr.add ++ r } := by
      rw [show userStep s = { s with known := emplace s.known n, todo := .report n (!s.known.contains n) :: (ns.map Instr.add ++ r) } from by
        unfold userStep; rw [ht]; rfl]
      simp only [userStep, callConnected, hc, Bool.false_and, Bool.false_eq_true, if_false, e2]
    have hlen : 2 * (n :: ns).length = 2 * ns.length + 1 + 1 := by simp; omega
    rw [hlen, List.replicate_succ, List.replicate_succ]
    have : steps s (Op.user :: Op.user :: List.replicate (2 * ns.length) Op.user) =
        steps (userStep (userStep s)) (List.replicate (2 * ns.length) Op.user) := rfl
    rw [this, e1]
    refine (steps_add ns { s with known := s.known ++ [n], todo := ns.map Instr.add ++ r } r rfl hc hn.2 ?_).trans ?_
    · intro m hm
      simp only [List.mem_append, List.mem_singleton, not_or]
      refine ⟨hk m (List.mem_cons_of_mem _ hm), ?_⟩
      intro e; subst e; exact hn.1 hm
    · simp

theorem init_rel : Rel {} init := by
  refine ⟨⟨by simp, by simp [World.names], by simp, by simp [World.names]⟩, rfl, by simp [init], by simp [init], rfl⟩

/-- The state after a calm schedule. -/
theorem calm_state (before between later : List Event) (ho : Orderly {} (before ++ between ++ later)) (hj : Joined (between ++ later))
    (hp : Proper (world (before ++ between)) later) :
    (run (calm before between later)).known = (world (before ++ between ++ later)).names ∧
    (run (calm before between later)).calls = (world (before ++ between)).names.map Call.connected ++ news (world (before ++ between)) later ∧
    (run (calm before between later)).todo = [] ∧ (run (calm before between later)).io = .idle := by
  have split : ∀ (a b : List Event) (w : World), Orderly w (a ++ b) → Orderly w a ∧ Orderly (World.afterAll w a) b := by
    intro a
    induction a with
    | nil => intro b w h; exact ⟨trivial, h⟩
    | cons e a ih => intro b w h; exact ⟨⟨h.1, (ih b _ h.2).1⟩, (ih b _ h.2).2⟩
  have wa : ∀ a b, World.afterAll (world a) b = world (a ++ b) := by
    intro a b; unfold world World.afterAll; rw [List.foldl_append]
  obtain ⟨ho12, ho3⟩ := split _ _ _ ho
  obtain ⟨ho1, ho2⟩ := split _ _ _ ho12
  have hw1 : World.afterAll {} before = world before := rfl
  rw [hw1] at ho2
  have hw12 : World.afterAll {} (before ++ between) = world (before ++ between) := rfl
  rw [hw12] at ho3
  obtain ⟨a1, a2, a3, a4⟩ := events_before before {} init init_rel rfl rfl ho1
  rw [hw1] at a1
  have hrun : run (calm before between later) = steps (steps (steps (steps (steps (steps init (before.flatMap whole))
      (List.replicate (3 + 2 * (world before).names.length) Op.user)) [Op.registration]) (between.flatMap whole)) (List.replicate 3 Op.user))
      (later.flatMap whole) := by
    unfold run calm
    change steps init _ = _
    simp only [steps_append]
  rw [hrun]
  generalize steps init (before.flatMap whole) = s1 at a1 a2 a3 a4
  -- the monitor is created
  have t1 : s1.todo = program := a2.todo
  have hnm : s1.names.map (fun e => Instr.add e.1) = (world before).names.map Instr.add := by
    rw [← a1.names, List.map_map]; rfl
  have e3 : steps s1 (List.replicate 3 Op.user) = { s1 with receiver := true, posted := true, todo := (world before).names.map Instr.add ++ [.replay, .setConnected, .setDisconnected] } := by
    rw [← hnm]
    simp only [steps, List.replicate, List.foldl_cons, List.foldl_nil, step]
    rw [show userStep s1 = { s1 with receiver := true, todo := [.postCallback, .snapshot, .replay, .setConnected, .setDisconnected] } from by
      unfold userStep; rw [t1]; rfl]
    rfl
  have e4 : steps s1 (List.replicate (3 + 2 * (world before).names.length) Op.user) =
      { s1 with receiver := true, posted := true, known := (world before).names, todo := [.replay, .setConnected, .setDisconnected] } := by
    rw [List.replicate_append_replicate.symm, steps_append, e3]
    refine (steps_add (world before).names
      { s1 with receiver := true, posted := true, todo := (world before).names.map Instr.add ++ [.replay, .setConnected, .setDisconnected] }
      [.replay, .setConnected, .setDisconnected] rfl a2.onConnected a1.good.names ?_).trans ?_
    · intro n _
      change n ∉ s1.known
      rw [a3]; simp [init]
    · change State.mk _ _ _ _ _ _ _ _ _ _ _ = _
      rw [a3]; simp [init]
  rw [e4]
  have e5 : steps { s1 with receiver := true, posted := true, known := (world before).names, todo := [.replay, .setConnected, .setDisconnected] } [Op.registration] =
      { s1 with receiver := true, posted := false, callback := true, known := (world before).names, todo := [.replay, .setConnected, .setDisconnected] } := by
    simp only [steps, List.foldl_cons, List.foldl_nil, step, a1.idle, true_and, if_true]
  rw [e5]
  -- events in between
  have hc1 : s1.onConnected = false := a2.onConnected
  have hc2 : s1.onDisconnected = false := a2.onDisconnected
  have hc3 : s1.calls = [] := a4
  obtain ⟨b1, b2, b3, b4⟩ := events_with between (world before)
    { s1 with receiver := true, posted := false, callback := true, known := (world before).names, todo := [.replay, .setConnected, .setDisconnected] }
    ⟨a1.good, a1.idle, a1.ids, a1.peer, a1.names⟩ rfl rfl rfl false hc1 hc2 ho2 (fun e he => hj e (List.mem_append_left _ he)) (fun h => absurd h (by simp))
  rw [wa] at b1 b3
  generalize steps { s1 with receiver := true, posted := false, callback := true, known := (world before).names, todo := [.replay, .setConnected, .setDisconnected] }
    (between.flatMap whole) = s2 at b1 b2 b3 b4
  have t2 : s2.todo = [.replay, .setConnected, .setDisconnected] := b2.todo
  have c2 : s2.calls = [] := by rw [b4]; simp [hc3]
  have e6 : steps s2 (List.replicate 3 Op.user) =
      { s2 with calls := (world (before ++ between)).names.map Call.connected, onConnected := true, onDisconnected := true, todo := [] } := by
    simp only [steps, List.replicate, List.foldl_cons, List.foldl_nil, step]
    rw [show userStep s2 = { s2 with calls := s2.calls ++ s2.known.map Call.connected, todo := [.setConnected, .setDisconnected] } from by
      unfold userStep; rw [t2]]
    rw [c2, b3]
    rfl
  rw [e6]
  have r2 : s2.receiver = true := b2.receiver
  have k2 : s2.callback = true := b2.callback
  obtain ⟨d1, d2, d3, d4⟩ := events_with later (world (before ++ between))
    { s2 with calls := (world (before ++ between)).names.map Call.connected, onConnected := true, onDisconnected := true, todo := [] }
    ⟨b1.good, b1.idle, b1.ids, b1.peer, b1.names⟩ r2 k2 b3 true rfl rfl ho3 (fun e he => hj e (List.mem_append_right _ he)) (fun _ => hp)
  rw [wa] at d1 d3
  exact ⟨d3, d4, d2.todo, d1.idle⟩

/-! ## What the calls of a calm schedule say -/

theorem reported_map (ns : List Name) (n : Name) : reported (ns.map Call.connected) n = true ↔ n ∈ ns := by
  revert ns
  refine snoc_induction ?_ ?_
  · simp [reported]
  · intro l a ih
    rw [List.map_append, List.map_cons, List.map_nil, reported_snoc]
    dsimp only
    by_cases h : a = n
    · subst h; simp
    · rw [if_neg h, ih]; simp [Ne.symm h]

theorem reported_event (w : World) (hg : Good w) (calls : List Call) (n : Name) (h : reported calls n = true ↔ n ∈ w.names) (e : Event) (ha : w.allows e)
    (hp : w.proper e) : reported (calls ++ w.news e) n = true ↔ n ∈ (w.after e).names := by
  cases e with
  | accept c => simpa [World.news, World.after, World.names] using h
  | connect c m =>
    rw [show w.news (.connect c m) = [Call.connected m] from rfl, reported_snoc]
    dsimp only
    have e1 : (w.after (.connect c m)).names = w.names ++ [m] := by simp [World.names, World.after]
    rw [e1]
    by_cases hm : m = n
    · subst hm; simp
    · rw [if_neg hm, h]; simp [Ne.symm hm]
  | announce c m =>
    rw [show w.news (.announce c m) = [Call.connected m] from rfl, reported_snoc]
    dsimp only
    have e1 : (w.after (.announce c m)).names = w.names ++ [m] := by simp [World.names, World.after]
    rw [e1]
    by_cases hm : m = n
    · subst hm; simp
    · rw [if_neg hm, h]; simp [Ne.symm hm]
  | close c =>
    obtain ⟨⟨d, m⟩, hm, rfl⟩ := List.mem_map.mp hp
    have hl : w.there.lookup d = some m := (lookup_iff _ hg.ids _ _).mpr hm
    rw [show w.news (.close d) = [Call.disconnected m] from by simp [World.news, hl], reported_snoc, names_close w hg d m hm]
    dsimp only
    by_cases hx : m = n
    · subst hx; simp
    · rw [if_neg hx, h]; simp [Ne.symm hx]

theorem reported_events : ∀ (es : List Event) (w : World), Good w → ∀ calls n, (reported calls n = true ↔ n ∈ w.names) → Orderly w es → Proper w es →
    (reported (calls ++ news w es) n = true ↔ n ∈ (World.afterAll w es).names)
  | [], w, _, calls, n, h, _, _ => by simpa [news, World.afterAll] using h
  | e :: es, w, hg, calls, n, h, ho, hp => by
    have h1 := reported_event w hg calls n h e ho.1 hp.1
    have h2 := reported_events es (w.after e) (good_after w e hg ho.1) _ n h1 ho.2 hp.2
    rw [show news w (e :: es) = w.news e ++ news (w.after e) es from rfl, ← List.append_assoc]
    exact h2

theorem news_length (w : World) (e : Event) : (w.news e).length ≤ 1 := by
  cases e with
  | accept c => simp [World.news]
  | connect c n => simp [World.news]
  | announce c n => simp [World.news]
  | close c =>
    unfold World.news
    cases w.there.lookup c <;> simp

theorem prefix_append {α : Type} (q a b : List α) (h : q <+: a ++ b) : q <+: a ∨ ∃ r, q = a ++ r ∧ r <+: b := by
  obtain ⟨t, ht⟩ := h
  rcases List.append_eq_append_iff.mp ht with ⟨x, h1, _⟩ | ⟨x, h1, h2⟩
  · exact Or.inl ⟨x, h1.symm⟩
  · exact Or.inr ⟨x, h1, t, h2.symm⟩

theorem news_prefix : ∀ (es : List Event) (w : World) (q : List Call), q <+: news w es → ∃ p, p <+: es ∧ q = news w p
  | [], w, q, h => ⟨[], List.prefix_refl _, by simpa [news] using h⟩
  | e :: es, w, q, h => by
    rcases prefix_append q (w.news e) (news (w.after e) es) h with h1 | ⟨r, h1, h2⟩
    · rcases Classical.em (q = []) with hq | hq
      · exact ⟨[], List.nil_prefix, by simpa [news] using hq⟩
      · refine ⟨[e], ?_, ?_⟩
        · exact ⟨es, rfl⟩
        · have hl := h1.length_le
          have h3 := news_length w e
          have h4 : 0 < q.length := by
            cases q with
            | nil => exact absurd rfl hq
            | cons a b => simp
          have : q = w.news e := h1.eq_of_length (by omega)
          simp [news, this]
    · obtain ⟨p, hp, e1⟩ := news_prefix es (w.after e) r h2
      refine ⟨e :: p, ?_, ?_⟩
      · obtain ⟨t, ht⟩ := hp
        exact ⟨t, by simp [ht]⟩
      · rw [h1, e1]; rfl

theorem prefix_news (w : World) : ∀ (es p : List Event), p <+: es → news w p <+: news w es := by
  intro es p h
  obtain ⟨t, rfl⟩ := h
  have : ∀ (p : List Event) (w : World), ∃ r, news w (p ++ t) = news w p ++ r := by
    intro p
    induction p with
    | nil => intro w; exact ⟨news w t, rfl⟩
    | cons e p ih =>
      intro w
      obtain ⟨r, hr⟩ := ih (w.after e)
      exact ⟨r, by simp [news, hr]⟩
  obtain ⟨r, hr⟩ := this p w
  exact ⟨r, hr.symm⟩

theorem orderly_prefix : ∀ (p t : List Event) (w : World), Orderly w (p ++ t) → Orderly w p
  | [], _, _, _ => trivial
  | _ :: p, t, _, h => ⟨h.1, orderly_prefix p t _ h.2⟩

theorem orderly_suffix : ∀ (p t : List Event) (w : World), Orderly w (p ++ t) → Orderly (World.afterAll w p) t
  | [], _, _, h => h
  | _ :: p, t, _, h => orderly_suffix p t _ h.2

theorem proper_prefix : ∀ (p t : List Event) (w : World), Proper w (p ++ t) → Proper w p
  | [], _, _, _ => trivial
  | _ :: p, t, _, h => ⟨h.1, proper_prefix p t _ h.2⟩

theorem good_all : ∀ (es : List Event) (w : World), Good w → Orderly w es → Good (World.afterAll w es)
  | [], _, h, _ => h
  | e :: es, w, h, ho => good_all es (w.after e) (good_after w e h ho.1) ho.2

/-- The calls of a calm schedule report all required participants at some point exactly if they were there at the same time. -/
theorem calm_reports (before between later : List Event) (ho : Orderly {} (before ++ between ++ later)) (hp : Proper (world (before ++ between)) later)
    (required : List Name) :
    (∃ q, q <+: (world (before ++ between)).names.map Call.connected ++ news (world (before ++ between)) later ∧ allReported required q) ↔
      ∃ p, p <+: later ∧ ∀ r ∈ required, r ∈ (world (before ++ between ++ p)).names := by
  have wa : ∀ a b, World.afterAll (world a) b = world (a ++ b) := by
    intro a b; unfold world World.afterAll; rw [List.foldl_append]
  have hg : Good (world (before ++ between)) := good_all _ {} init_rel.good (orderly_prefix _ _ _ ho)
  have ho3 : Orderly (world (before ++ between)) later := orderly_suffix _ _ _ ho
  have key : ∀ p, p <+: later → ∀ n, (reported ((world (before ++ between)).names.map Call.connected ++ news (world (before ++ between)) p) n = true ↔
      n ∈ (world (before ++ between ++ p)).names) := by
    rintro p ⟨t, rfl⟩ n
    rw [← wa (before ++ between) p]
    exact reported_events p _ hg _ n (reported_map _ n) (orderly_prefix _ _ _ ho3) (proper_prefix _ _ _ hp)
  constructor
  · rintro ⟨q, hq, hall⟩
    rcases prefix_append _ _ _ hq with h | ⟨r, h1, h2⟩
    · refine ⟨[], List.nil_prefix, ?_⟩
      intro x hx
      have := hall x hx
      obtain ⟨t, ht⟩ := h
      obtain ⟨a, b, e1, e2, e3⟩ := List.map_eq_append_iff.mp ht.symm
      rw [← e2, reported_map] at this
      rw [List.append_nil, e1]
      exact List.mem_append_left _ this
    · obtain ⟨p, hpre, e1⟩ := news_prefix _ _ _ h2
      refine ⟨p, hpre, ?_⟩
      intro x hx
      have := hall x hx
      rw [h1, e1] at this
      exact (key p hpre x).mp this
  · rintro ⟨p, hpre, hall⟩
    refine ⟨_, ?_, fun x hx => (key p hpre x).mpr (hall x hx)⟩
    obtain ⟨t, ht⟩ := prefix_news (world (before ++ between)) later p hpre
    exact ⟨t, by rw [List.append_assoc, ht]⟩

/-! ## All schedules -/

theorem introduced_mono (ops : List Op) (o : Op) (n : Name) (h : introduced ops n) : introduced (ops ++ [o]) n := by
  obtain ⟨c, hc⟩ := h
  exact ⟨c, hc.imp (List.mem_append_left _) (List.mem_append_left _)⟩

/-- The names the I/O thread works with. -/
def ioOk (ops : List Op) : Io → Prop
  | .idle => True
  | .inserted _ n _ => introduced ops n
  | .associate _ n => introduced ops n
  | .erased _ n => n = "" ∨ introduced ops n
  | .remove _ n => n = "" ∨ introduced ops n

def instrOk (ops : List Op) : Instr → Prop
  | .add n => introduced ops n
  | .report n _ => introduced ops n
  | _ => True

def callOk (ops : List Op) : Call → Prop
  | .connected n => introduced ops n
  | .disconnected n => n = "" ∨ introduced ops n

def leaving : Io → Nat
  | .erased _ _ => 1
  | _ => 0

structure Inv (ops : List Op) (s : State) : Prop where
  peers : ∀ e ∈ s.peers, e.2 = "" ∨ introduced ops e.2
  names : ∀ e ∈ s.names, introduced ops e.1
  known : ∀ n ∈ s.known, introduced ops n
  io : ioOk ops s.io
  todo : ∀ i ∈ s.todo, instrOk ops i
  calls : ∀ k ∈ s.calls, callOk ops k
  count : departures s.calls + leaving s.io ≤ closes ops

theorem closes_snoc (ops : List Op) (o : Op) : closes ops ≤ closes (ops ++ [o]) := by
  unfold closes; rw [List.countP_append]; omega

theorem inv_mono (ops : List Op) (o : Op) (s : State) (h : Inv ops s) : Inv (ops ++ [o]) s := by
  have hm := introduced_mono ops o
  refine ⟨fun e he => (h.peers e he).imp id (hm _), fun e he => hm _ (h.names e he), fun n hn => hm _ (h.known n hn), ?_, ?_, ?_,
    Nat.le_trans h.count (closes_snoc ops o)⟩
  · have := h.io
    revert this
    cases s.io <;> simp only [ioOk] <;> intro this
    · trivial
    · exact hm _ this
    · exact hm _ this
    · exact this.imp id (hm _)
    · exact this.imp id (hm _)
  · intro i hi
    have := h.todo i hi
    cases i <;> simp only [instrOk] at this ⊢
    · exact hm _ this
    · exact hm _ this
  · intro k hk
    have := h.calls k hk
    cases k <;> simp only [callOk] at this ⊢
    · exact hm _ this
    · exact this.imp id (hm _)

theorem mem_emplace (l : List Name) (n x : Name) (h : x ∈ emplace l n) : x ∈ l ∨ x = n := by
  unfold emplace at h
  split at h
  · exact Or.inl h
  · simpa using h

theorem mem_insertName (l : List (Name × Nat)) (n : Name) (c : Nat) (x : Name × Nat) (h : x ∈ insertName l n c) : x ∈ l ∨ x = (n, c) := by
  unfold insertName at h
  split at h
  · exact Or.inl h
  · simpa using h

theorem callConnected_ok (ops : List Op) (s : State) (n : Name) (f : Bool) (h : ∀ k ∈ s.calls, callOk ops k) (hn : introduced ops n) :
    (∀ k ∈ callConnected s n f, callOk ops k) ∧ departures (callConnected s n f) = departures s.calls := by
  unfold callConnected
  split
  · refine ⟨?_, by simp [departures, List.countP_append]⟩
    intro k hk
    rcases List.mem_append.mp hk with a | a
    · exact h k a
    · rw [List.mem_singleton.mp a]; exact hn
  · exact ⟨h, rfl⟩

theorem callDisconnected_ok (ops : List Op) (s : State) (n : Name) (h : ∀ k ∈ s.calls, callOk ops k) (hn : n = "" ∨ introduced ops n) :
    (∀ k ∈ callDisconnected s n, callOk ops k) ∧ departures (callDisconnected s n) ≤ departures s.calls + 1 := by
  unfold callDisconnected
  split
  · refine ⟨?_, by simp [departures, List.countP_append]⟩
    intro k hk
    rcases List.mem_append.mp hk with a | a
    · exact h k a
    · rw [List.mem_singleton.mp a]; exact hn
  · exact ⟨h, by omega⟩

theorem userStep_inv (ops : List Op) (s : State) (h : Inv ops s) : Inv ops (userStep s) := by
  have ht := h.todo
  unfold userStep
  split
  · exact h
  all_goals rename_i e; rw [e] at ht
  · exact ⟨h.peers, h.names, h.known, h.io, fun i hi => ht i (List.mem_cons_of_mem _ hi), h.calls, h.count⟩
  · exact ⟨h.peers, h.names, h.known, h.io, fun i hi => ht i (List.mem_cons_of_mem _ hi), h.calls, h.count⟩
  · refine ⟨h.peers, h.names, h.known, h.io, ?_, h.calls, h.count⟩
    intro i hi
    rcases List.mem_append.mp hi with a | a
    · obtain ⟨x, hx, rfl⟩ := List.mem_map.mp a
      exact h.names x hx
    · exact ht i (List.mem_cons_of_mem _ a)
  · rename_i n r
    have hn : introduced ops n := ht (.add n) (by simp)
    refine ⟨h.peers, h.names, ?_, h.io, ?_, h.calls, h.count⟩
    · intro x hx
      rcases mem_emplace _ _ _ hx with a | a
      · exact h.known x a
      · subst a; exact hn
    · intro i hi
      rcases List.mem_cons.mp hi with a | a
      · subst a; exact hn
      · exact ht i (List.mem_cons_of_mem _ a)
  · rename_i n f r
    have hn : introduced ops n := ht (.report n f) (by simp)
    have hc := callConnected_ok ops s n f h.calls hn
    exact ⟨h.peers, h.names, h.known, h.io, fun i hi => ht i (List.mem_cons_of_mem _ hi), hc.1, by dsimp only; rw [hc.2]; exact h.count⟩
  · refine ⟨h.peers, h.names, h.known, h.io, fun i hi => ht i (List.mem_cons_of_mem _ hi), ?_, ?_⟩
    · intro k hk
      rcases List.mem_append.mp hk with a | a
      · exact h.calls k a
      · obtain ⟨x, hx, rfl⟩ := List.mem_map.mp a
        exact h.known x hx
    · have : departures (s.calls ++ s.known.map Call.connected) = departures s.calls := by
        unfold departures
        rw [List.countP_append]
        refine (congrArg (_ + ·) (List.countP_eq_zero.mpr ?_)).trans (Nat.add_zero _)
        intro k hk
        obtain ⟨x, _, rfl⟩ := List.mem_map.mp hk
        simp
      dsimp only
      rw [this]; exact h.count
  · exact ⟨h.peers, h.names, h.known, h.io, fun i hi => ht i (List.mem_cons_of_mem _ hi), h.calls, h.count⟩
  · exact ⟨h.peers, h.names, h.known, h.io, fun i hi => ht i (List.mem_cons_of_mem _ hi), h.calls, h.count⟩

theorem ioStep_inv (ops : List Op) (s : State) (h : Inv ops s) : Inv ops (ioStep s) := by
  have hio := h.io
  have hct := h.count
  unfold ioStep
  split
  · exact h
  all_goals rename_i e; rw [e] at hio hct; dsimp only [ioOk, leaving] at hio hct
  · rename_i c n f
    have hc := callConnected_ok ops s n f h.calls hio
    exact ⟨h.peers, h.names, h.known, hio, h.todo, hc.1, by dsimp only [leaving]; rw [hc.2]; exact hct⟩
  · rename_i c n
    refine ⟨h.peers, ?_, h.known, trivial, h.todo, h.calls, hct⟩
    intro x hx
    rcases mem_insertName _ _ _ _ hx with a | a
    · exact h.names x a
    · subst a; exact hio
  · rename_i c n
    have hc := callDisconnected_ok ops s n h.calls hio
    exact ⟨h.peers, h.names, h.known, hio, h.todo, hc.1, by dsimp only [leaving]; omega⟩
  · refine ⟨fun x hx => h.peers x (List.mem_filter.mp hx).1, fun x hx => h.names x (List.mem_filter.mp hx).1, h.known, trivial, h.todo, h.calls, hct⟩

theorem begin_inv (ops : List Op) (s : State) (e : Event) (hi : s.io = .idle) (h : Inv ops s) : Inv (ops ++ [.event e]) (begin s e) := by
  have h' := inv_mono ops (.event e) s h
  have hct := h'.count
  rw [hi] at hct
  dsimp only [leaving] at hct
  cases e with
  | accept c =>
    unfold begin
    dsimp only
    split
    · exact h'
    · refine ⟨?_, h'.names, h'.known, h'.io, h'.todo, h'.calls, h'.count⟩
      intro x hx
      rcases List.mem_append.mp hx with a | a
      · exact h'.peers x a
      · rw [List.mem_singleton.mp a]; exact Or.inl rfl
  | connect c n =>
    have hn : introduced (ops ++ [.event (.connect c n)]) n := ⟨c, Or.inr (by simp)⟩
    unfold begin
    dsimp only
    split
    · exact h'
    · refine ⟨?_, ?_, h'.known, h'.io, h'.todo, h'.calls, h'.count⟩
      · intro x hx
        rcases List.mem_append.mp hx with a | a
        · exact h'.peers x a
        · rw [List.mem_singleton.mp a]; exact Or.inr hn
      · intro x hx
        rcases mem_insertName _ _ _ _ hx with a | a
        · exact h'.names x a
        · subst a; exact hn
  | announce c n =>
    have hn : introduced (ops ++ [.event (.announce c n)]) n := ⟨c, Or.inl (by simp)⟩
    have hp : ∀ x ∈ s.peers.map (fun e => if e.1 == c then (c, n) else e), x.2 = "" ∨ introduced (ops ++ [.event (.announce c n)]) x.2 := by
      intro x hx
      obtain ⟨y, hy, rfl⟩ := List.mem_map.mp hx
      by_cases hyc : (y.1 == c) = true
      · rw [if_pos hyc]; exact Or.inr hn
      · rw [if_neg hyc]; exact h'.peers y hy
    unfold begin
    dsimp only
    split
    · split
      · refine ⟨hp, h'.names, ?_, hn, h'.todo, h'.calls, by dsimp only [leaving]; exact hct⟩
        intro x hx
        rcases mem_emplace _ _ _ hx with a | a
        · exact h'.known x a
        · subst a; exact hn
      · exact ⟨hp, h'.names, h'.known, hn, h'.todo, h'.calls, by dsimp only [leaving]; exact hct⟩
    · exact h'
  | close c =>
    have hcl : closes (ops ++ [.event (.close c)]) = closes ops + 1 := by
      unfold closes; rw [List.countP_append]; rfl
    have hct0 := h.count
    rw [hi] at hct0
    dsimp only [leaving] at hct0
    unfold begin
    dsimp only
    split
    · exact h'
    · rename_i n hl
      have hn : n = "" ∨ introduced (ops ++ [.event (.close c)]) n := by
        obtain ⟨a, b, e1, _⟩ := List.lookup_eq_some_iff.mp hl
        exact h'.peers (c, n) (by rw [e1]; simp)
      split
      · exact ⟨h'.peers, h'.names, fun x hx => h'.known x (List.mem_filter.mp hx).1, hn, h'.todo, h'.calls, by dsimp only [leaving]; omega⟩
      · exact ⟨h'.peers, h'.names, h'.known, hn, h'.todo, h'.calls, by dsimp only [leaving]; exact hct⟩

theorem run_snoc (ops : List Op) (o : Op) : run (ops ++ [o]) = step (run ops) o := by
  unfold run; rw [List.foldl_append]; rfl

theorem inv_run : ∀ ops, Inv ops (run ops) := by
  refine snoc_induction ?_ ?_
  · refine ⟨by simp [run, init], by simp [run, init], by simp [run, init], trivial, ?_, by simp [run, init], by simp [run, init, departures, leaving]⟩
    intro i hi
    change i ∈ program at hi
    simp only [program, List.mem_cons, List.not_mem_nil, or_false] at hi
    rcases hi with rfl | rfl | rfl | rfl | rfl | rfl <;> trivial
  · intro ops o ih
    rw [run_snoc]
    generalize run ops = s at ih
    cases o with
    | user => exact inv_mono _ _ _ (userStep_inv ops s ih)
    | io => exact inv_mono _ _ _ (ioStep_inv ops s ih)
    | registration =>
      have h' := inv_mono ops .registration s ih
      unfold step
      dsimp only
      split
      · exact ⟨h'.peers, h'.names, h'.known, h'.io, h'.todo, h'.calls, h'.count⟩
      · exact h'
    | event e =>
      unfold step
      dsimp only
      split
      · rename_i hi; exact begin_inv ops s e hi ih
      · exact inv_mono _ _ _ ih

theorem reported_mem (n : Name) : ∀ calls, reported calls n = true → Call.connected n ∈ calls := by
  refine snoc_induction ?_ ?_
  · simp [reported]
  · intro l a ih h
    rw [reported_snoc] at h
    cases a with
    | connected m =>
      dsimp only at h
      by_cases hm : m = n
      · subst hm; simp
      · rw [if_neg hm] at h; exact List.mem_append_left _ (ih h)
    | disconnected m =>
      dsimp only at h
      by_cases hm : m = n
      · rw [if_pos hm] at h; exact absurd h (by simp)
      · rw [if_neg hm] at h; exact List.mem_append_left _ (ih h)

end SilKit.Presence
