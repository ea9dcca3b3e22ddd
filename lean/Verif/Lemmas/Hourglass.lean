import Verif.Spec.Hourglass
import Verif.Lemmas.Handlers
/-! # Lemmas about handlers given to the C++ API -/
namespace SilKit.Hourglass
open Spec

/-! ## Renaming the payloads of a container -/

def mapS (f : Nat → Nat) (s : Handlers.State) : Handlers.State := { s with entries := s.entries.map (fun e => (e.1, f e.2)) }

def mapO (f : Nat → Nat) : Handlers.Out → Handlers.Out
  | .called n id p => .called n id (f p)
  | .added id p => .added id (f p)
  | o => o

def mapE (f : Nat → Nat) : Handlers.Event → Handlers.Event
  | .add p => .add (f p)
  | e => e

theorem insert_map (f : Nat → Nat) (id p : Nat) (l : List (Nat × Nat)) :
    Handlers.insert id (f p) (l.map (fun e => (e.1, f e.2))) = (Handlers.insert id p l).map (fun e => (e.1, f e.2)) := by
  induction l with
  | nil => rfl
  | cons x l ih =>
      obtain ⟨k, v⟩ := x
      simp only [List.map_cons, Handlers.insert]
      split
      · rfl
      · split
        · rfl
        · simp [ih]

theorem find_map (f : Nat → Nat) (c : Nat) (l : List (Nat × Nat)) :
    (l.map (fun e => (e.1, f e.2))).find? (fun e => decide (c < e.1)) = (l.find? (fun e => decide (c < e.1))).map (fun e => (e.1, f e.2)) := by
  rw [List.find?_map]; rfl

theorem any_map (f : Nat → Nat) (c : Nat) (l : List (Nat × Nat)) :
    (l.map (fun e => (e.1, f e.2))).any (·.1 == c) = l.any (·.1 == c) := by
  rw [List.any_map]; rfl

theorem on_map (f : Nat → Nat) (s : Handlers.State) (e : Handlers.Event) :
    Handlers.on (mapS f s) (mapE f e) = (mapS f (Handlers.on s e).1, (Handlers.on s e).2.map (mapO f)) := by
  unfold Handlers.on
  show (if s.ub then _ else _) = _
  by_cases hub : s.ub
  · rw [if_pos hub, if_pos hub]; rfl
  · rw [if_neg hub, if_neg hub]
    cases e with
    | add p => simp only [mapE, Handlers.add, mapS, insert_map]; rfl
    | remove id =>
        simp only [mapE, Handlers.remove, mapS, List.filter_map]; rfl
    | clear => rfl
    | invoke =>
        simp only [mapE, Handlers.invoke, mapS]
        cases s.entries with
        | nil => rfl
        | cons x l => rfl
    | ret =>
        obtain ⟨entries, next, frames, count, ub⟩ := s
        simp only [mapE, Handlers.ret, mapS]
        cases frames with
        | nil => rfl
        | cons x l =>
            obtain ⟨k, c⟩ := x
            simp only [any_map, find_map]
            by_cases hc : entries.any (·.1 == c)
            · rw [if_pos hc, if_pos hc]
              cases entries.find? (fun e => decide (c < e.1)) with
              | none => rfl
              | some y => rfl
            · rw [if_neg hc, if_neg hc]; rfl

theorem mem_insert {id p : Nat} {l : List (Nat × Nat)} {x : Nat × Nat} (h : x ∈ Handlers.insert id p l) : x = (id, p) ∨ x ∈ l := by
  induction l with
  | nil => simpa [Handlers.insert] using h
  | cons y l ih =>
      obtain ⟨k, v⟩ := y
      rw [Handlers.insert] at h
      split at h
      · simpa using h
      · split at h
        · exact Or.inr h
        · rcases List.mem_cons.1 h with h | h
          · exact Or.inr (by simp [h])
          · rcases ih h with h | h
            · exact Or.inl h
            · exact Or.inr (List.mem_cons_of_mem _ h)

/-- What an operation that is no `add` does to the entries. -/
theorem on_entries {s : Handlers.State} {e : Handlers.Event} (he : ∀ p, e ≠ .add p) {x : Nat × Nat} (h : x ∈ (Handlers.on s e).1.entries) :
    x ∈ s.entries := by
  unfold Handlers.on at h
  split at h
  · exact h
  · cases e with
    | add p => exact absurd rfl (he p)
    | remove id => simp only [Handlers.remove] at h; exact (List.mem_filter.1 h).1
    | clear => simp [Handlers.clear] at h
    | invoke =>
        simp only [Handlers.invoke] at h
        split at h
        · exact h
        · exact h
    | ret =>
        simp only [Handlers.ret] at h
        split at h
        · exact h
        · split at h
          · split at h <;> exact h
          · exact h

theorem on_next {s : Handlers.State} {e : Handlers.Event} (he : ∀ p, e ≠ .add p) : (Handlers.on s e).1.next = s.next := by
  unfold Handlers.on
  split
  · rfl
  · cases e with
    | add p => exact absurd rfl (he p)
    | remove id => rfl
    | clear => rfl
    | invoke => simp only [Handlers.invoke]; split <;> rfl
    | ret =>
        simp only [Handlers.ret]
        split
        · rfl
        · split
          · split <;> rfl
          · rfl

theorem on_ub {s : Handlers.State} {e : Handlers.Event} (h : (Handlers.on s e).1.ub = false) : s.ub = false := by
  cases hs : s.ub with
  | false => rfl
  | true => unfold Handlers.on at h; rw [if_pos hs] at h; rw [hs] at h; exact h

/-- The payloads of the calls are those of entries. -/
theorem on_called {s : Handlers.State} {e : Handlers.Event} {n id p : Nat} (h : Handlers.Out.called n id p ∈ (Handlers.on s e).2) :
    s.ub = false ∧ (id, p) ∈ s.entries := by
  unfold Handlers.on at h
  by_cases hu : s.ub
  · rw [if_pos hu] at h; simp at h
  · rw [if_neg hu] at h
    refine ⟨by simpa using hu, ?_⟩
    cases e with
    | add p => simp [Handlers.add] at h
    | remove id => simp [Handlers.remove] at h
    | clear => simp [Handlers.clear] at h
    | invoke =>
        simp only [Handlers.invoke] at h
        split at h
        · simp at h
        · next e => simp at h; rw [e, h.2.1, h.2.2]; simp
    | ret =>
        simp only [Handlers.ret] at h
        split at h
        · simp at h
        · split at h
          · split at h
            · simp at h
            · next e =>
                simp at h
                obtain ⟨_, rfl, rfl⟩ := h
                exact List.mem_of_find?_eq_some e
          · simp at h

theorem on_added {s : Handlers.State} {e : Handlers.Event} (he : ∀ p, e ≠ .add p) {id p : Nat} : Handlers.Out.added id p ∉ (Handlers.on s e).2 := by
  intro h
  unfold Handlers.on at h
  split at h
  · simp at h
  · cases e with
    | add p => exact absurd rfl (he p)
    | remove id => simp [Handlers.remove] at h
    | clear => simp [Handlers.clear] at h
    | invoke => simp only [Handlers.invoke] at h; split at h <;> simp at h
    | ret =>
        simp only [Handlers.ret] at h
        split at h
        · simp at h
        · split at h
          · split at h <;> simp at h
          · simp at h

/-! ## The invariant -/

structure Inv (s : State) (h : List Event) : Prop where
  next : ∀ k, (s.core k).ub = false → (s.core k).next = adds k h
  low : ∀ k x, x ∈ (s.core k).entries → x.2 < s.allocated.length
  owned : ∀ k x, (s.core k).ub = false → x ∈ (s.core k).entries → (k, x) ∈ s.pending ∨ (k, x) ∈ s.table
  ids : ∀ k x, (s.core k).ub = false → ((k, x) ∈ s.pending ∨ (k, x) ∈ s.table) → x.1 < (s.core k).next
  single : ∀ k id p p', (s.core k).ub = false → (k, id, p) ∈ s.pending → (k, id, p') ∉ s.table ∧ ((k, id, p') ∈ s.pending → p' = p)
  live : ∀ x, x ∈ s.pending ∨ x ∈ s.table → x.2.2 ∉ s.freed ∧ x.2.2 < s.allocated.length
  ptr : ∀ x y, (x ∈ s.pending ∨ x ∈ s.table) → (y ∈ s.pending ∨ y ∈ s.table) → x.2.2 = y.2.2 → x = y
  disj : ∀ x, x ∈ s.pending → x ∉ s.table
  removing : ∀ k id, (k, id) ∈ s.removing → k ≠ .linSlaveConfiguration ∧
    ((s.core k).ub = false → id < (s.core k).next ∧ ∀ p, (id, p) ∉ (s.core k).entries)
  freedLow : ∀ p ∈ s.freed, p < s.allocated.length

theorem init_Inv : Inv {} [] := by
  constructor <;> simp [adds]

theorem setCore_same (s : State) (k : Kind) (c : Handlers.State) : (setCore s k c).core k = c := by simp [setCore]

theorem setCore_other (s : State) {k k' : Kind} (c : Handlers.State) (h : k' ≠ k) : (setCore s k c).core k' = s.core k' := by simp [setCore, h]

theorem adds_append (k : Kind) (h : List Event) (e : Event) : adds k (h ++ [e]) = adds k h + adds k [e] := by
  simp [adds, List.filter_append]

theorem adds_eq (k : Kind) (h : List Event) : adds k h = ((requests k h).filter (fun | .add _ => true | _ => false)).length := by
  unfold adds requests
  induction h with
  | nil => rfl
  | cons e h ih =>
      rw [List.filter_cons, List.filterMap_cons]
      cases e with
      | addBegin k' p =>
          by_cases hk : k' = k
          · simp [request, hk]; exact ih
          · simp [request, hk]; exact ih
      | addEnd k' id => simpa [request] using ih
      | removeBegin k' id =>
          by_cases hk : k' = k
          · simp [request, hk]; exact ih
          · simp [request, hk]; exact ih
      | removeEnd k' id => simpa [request] using ih
      | invoke k' =>
          by_cases hk : k' = k
          · simp [request, hk]; exact ih
          · simp [request, hk]; exact ih
      | ret k' =>
          by_cases hk : k' = k
          · simp [request, hk]; exact ih
          · simp [request, hk]; exact ih

theorem core_Inv {s : State} {h : List Event} (i : Inv s h) (k : Kind) (e : Handlers.Event) (he : ∀ p, e ≠ .add p) (ev : Event)
    (hev : ∀ k, adds k [ev] = 0) : Inv (setCore s k (Handlers.on (s.core k) e).1) (h ++ [ev]) := by
  have hub : ∀ k', ((setCore s k (Handlers.on (s.core k) e).1).core k').ub = false → (s.core k').ub = false := by
    intro k' hu
    by_cases hk : k' = k
    · subst hk; rw [setCore_same] at hu; exact on_ub hu
    · rwa [setCore_other _ _ hk] at hu
  have hen : ∀ k' x, x ∈ ((setCore s k (Handlers.on (s.core k) e).1).core k').entries → x ∈ (s.core k').entries := by
    intro k' x hx
    by_cases hk : k' = k
    · subst hk; rw [setCore_same] at hx; exact on_entries he hx
    · rwa [setCore_other _ _ hk] at hx
  have hne : ∀ k', ((setCore s k (Handlers.on (s.core k) e).1).core k').next = (s.core k').next := by
    intro k'
    by_cases hk : k' = k
    · subst hk; rw [setCore_same]; exact on_next he
    · rw [setCore_other _ _ hk]
  constructor
  · intro k' hu; rw [hne, i.next k' (hub k' hu), adds_append, hev]; rfl
  · intro k' x hx; exact i.low k' x (hen k' x hx)
  · intro k' x hu hx; exact i.owned k' x (hub k' hu) (hen k' x hx)
  · intro k' x hu hx; rw [hne]; exact i.ids k' x (hub k' hu) hx
  · intro k' id p p' hu hx; exact i.single k' id p p' (hub k' hu) hx
  · exact i.live
  · exact i.ptr
  · exact i.disj
  · intro k' id hx
    obtain ⟨h1, h2⟩ := i.removing k' id hx
    refine ⟨h1, fun hu => ?_⟩
    obtain ⟨h3, h4⟩ := h2 (hub k' hu)
    exact ⟨by rw [hne]; exact h3, fun p hp => h4 p (hen k' _ hp)⟩
  · exact i.freedLow

theorem addBegin_Inv {s : State} {h : List Event} (i : Inv s h) (k : Kind) (p : Nat) (hf : adds k h + 1 ≤ Handlers.idRange) :
    Inv (addBegin s k p).1 (h ++ [.addBegin k p]) := by
  have hadd : ∀ k', adds k' [.addBegin k p] = if k = k' then 1 else 0 := by
    intro k'; by_cases hk : k = k' <;> simp [adds, hk]
  -- the state behind
  have hcore : ∀ k', (addBegin s k p).1.core k' = if k' = k then (Handlers.on (s.core k) (.add s.allocated.length)).1 else s.core k' := by
    intro k'; rfl
  have hpend : (addBegin s k p).1.pending = (k, (s.core k).next % Handlers.idRange, s.allocated.length) :: s.pending := rfl
  have htab : (addBegin s k p).1.table = s.table := rfl
  have hfreed : (addBegin s k p).1.freed = s.freed := rfl
  have hrem : (addBegin s k p).1.removing = s.removing := rfl
  have hall : (addBegin s k p).1.allocated = s.allocated ++ [p] := rfl
  have hub : ∀ k', ((addBegin s k p).1.core k').ub = false → (s.core k').ub = false := by
    intro k' hu
    rw [hcore] at hu
    by_cases hk : k' = k
    · subst hk; rw [if_pos rfl] at hu; exact on_ub hu
    · rwa [if_neg hk] at hu
  have hon : (s.core k).ub = false → (Handlers.on (s.core k) (.add s.allocated.length)).1 =
      { s.core k with entries := Handlers.insert ((s.core k).next % Handlers.idRange) s.allocated.length (s.core k).entries, next := (s.core k).next + 1 } := by
    intro hu; unfold Handlers.on; rw [hu]; rfl
  have hid : (s.core k).ub = false → (s.core k).next % Handlers.idRange = (s.core k).next := by
    intro hu; rw [i.next k hu]; exact Nat.mod_eq_of_lt (by omega)
  have hen : ∀ k' x, x ∈ ((addBegin s k p).1.core k').entries → x ∈ (s.core k').entries ∨
      (k' = k ∧ (s.core k).ub = false ∧ x = ((s.core k).next % Handlers.idRange, s.allocated.length)) := by
    intro k' x hx
    rw [hcore] at hx
    by_cases hk : k' = k
    · subst hk
      rw [if_pos rfl] at hx
      cases hu : (s.core k').ub with
      | true => unfold Handlers.on at hx; rw [if_pos hu] at hx; exact Or.inl hx
      | false =>
          rw [hon hu] at hx
          rcases mem_insert hx with hx | hx
          · exact Or.inr ⟨rfl, rfl, hx⟩
          · exact Or.inl hx
    · rw [if_neg hk] at hx; exact Or.inl hx
  have hne : ∀ k', ((addBegin s k p).1.core k').ub = false → ((addBegin s k p).1.core k').next = (s.core k').next + if k = k' then 1 else 0 := by
    intro k' hu
    have hu' := hub k' hu
    rw [hcore]
    by_cases hk : k' = k
    · subst hk; rw [if_pos rfl, hon hu', if_pos rfl]
    · rw [if_neg hk, if_neg (fun c => hk c.symm)]; rfl
  have hmem : ∀ x, x ∈ (addBegin s k p).1.pending ∨ x ∈ (addBegin s k p).1.table →
      x = (k, (s.core k).next % Handlers.idRange, s.allocated.length) ∨ (x ∈ s.pending ∨ x ∈ s.table) := by
    intro x hx
    rw [hpend, htab] at hx
    rcases hx with hx | hx
    · rcases List.mem_cons.1 hx with hx | hx
      · exact Or.inl hx
      · exact Or.inr (Or.inl hx)
    · exact Or.inr (Or.inr hx)
  constructor
  · intro k' hu; rw [hne k' hu, i.next k' (hub k' hu), adds_append, hadd]
  · intro k' x hx
    rw [hall, List.length_append]
    rcases hen k' x hx with hx | ⟨_, _, rfl⟩
    · have := i.low k' x hx; simp; omega
    · simp
  · intro k' x hu hx
    rw [hpend, htab]
    rcases hen k' x hx with hx | ⟨rfl, _, rfl⟩
    · rcases i.owned k' x (hub k' hu) hx with h1 | h1
      · exact Or.inl (List.mem_cons_of_mem _ h1)
      · exact Or.inr h1
    · exact Or.inl (by simp)
  · intro k' x hu hx
    have hu' := hub k' hu
    rw [hne k' hu]
    rcases hmem _ hx with hx | hx
    · simp only [Prod.mk.injEq] at hx
      obtain ⟨rfl, rfl⟩ := hx
      rw [hid hu']; simp
    · have := i.ids k' x hu' hx; omega
  · intro k' id q q' hu hx
    have hu' := hub k' hu
    rw [hpend] at hx
    rcases List.mem_cons.1 hx with hx' | hx
    · simp only [Prod.mk.injEq] at hx'
      obtain ⟨rfl, rfl, rfl⟩ := hx'
      constructor
      · intro c
        have := i.ids k' _ hu' (Or.inr c)
        rw [hid hu'] at this; simp at this
      · intro c
        rw [hpend] at c
        rcases List.mem_cons.1 c with c | c
        · simpa using c
        · have := i.ids k' _ hu' (Or.inl c)
          rw [hid hu'] at this; simp at this
    · rename (k', id, q) ∈ s.pending => hx0
      obtain ⟨h1, h2⟩ := i.single k' id q q' hu' hx0
      refine ⟨h1, fun c => ?_⟩
      rw [hpend] at c
      rcases List.mem_cons.1 c with c | c
      · simp only [Prod.mk.injEq] at c
        obtain ⟨rfl, rfl, rfl⟩ := c
        have := i.ids k' _ hu' (Or.inl hx0)
        rw [hid hu'] at this; simp at this
      · exact h2 c
  · intro x hx
    rw [hfreed, hall, List.length_append]
    rcases hmem x hx with rfl | hx
    · exact ⟨fun c => by have := i.freedLow _ c; simp at this, by simp⟩
    · have := i.live x hx; exact ⟨this.1, by simp; omega⟩
  · intro x y hx hy e
    rcases hmem x hx with rfl | hx <;> rcases hmem y hy with rfl | hy
    · rfl
    · have := (i.live y hy).2; simp at e; omega
    · have := (i.live x hx).2; simp at e; omega
    · exact i.ptr x y hx hy e
  · intro x hx
    rw [htab]
    rw [hpend] at hx
    rcases List.mem_cons.1 hx with rfl | hx
    · intro c; have := (i.live _ (Or.inr c)).2; simp at this
    · exact i.disj x hx
  · intro k' id hx
    rw [hrem] at hx
    obtain ⟨h1, h2⟩ := i.removing k' id hx
    refine ⟨h1, fun hu => ?_⟩
    obtain ⟨h3, h4⟩ := h2 (hub k' hu)
    refine ⟨by rw [hne k' hu]; omega, fun q hq => ?_⟩
    rcases hen k' _ hq with hq | ⟨rfl, _, hq⟩
    · exact h4 q hq
    · simp only [Prod.mk.injEq] at hq
      rw [hid (hub _ hu)] at hq; omega
  · intro q hq
    rw [hfreed] at hq
    rw [hall, List.length_append]
    have := i.freedLow q hq; simp; omega

theorem addEnd_Inv {s : State} {h : List Event} (i : Inv s h) (k : Kind) (id : Nat) : Inv (addEnd s k id) (h ++ [.addEnd k id]) := by
  have hadd : ∀ k', adds k' (h ++ [.addEnd k id]) = adds k' h := by intro k'; rw [adds_append]; rfl
  unfold addEnd
  split
  · exact ⟨fun k hu => by rw [hadd]; exact i.next k hu, i.low, i.owned, i.ids, i.single, i.live, i.ptr, i.disj, i.removing, i.freedLow⟩
  · next e he =>
    have hem := List.mem_of_find?_eq_some he
    have hek : e.1 = k ∧ e.2.1 = id := by have := List.find?_some he; simpa [isEntry] using this
    have hsub : ∀ x, x ∈ s.pending.filter (fun x => x != e) → x ∈ s.pending ∧ x ≠ e := by
      intro x hx; obtain ⟨h1, h2⟩ := List.mem_filter.1 hx; exact ⟨h1, by simpa using h2⟩
    split
    · next hany =>
      rw [List.any_eq_true] at hany
      obtain ⟨y, hy, hyk⟩ := hany
      have hyk : y.1 = k ∧ y.2.1 = id := by simpa [isEntry] using hyk
      -- only after undefined behaviour
      have hub : (s.core k).ub = true := by
        cases hu : (s.core k).ub with
        | true => rfl
        | false =>
            obtain ⟨e1, e2, e3⟩ := e
            obtain ⟨y1, y2, y3⟩ := y
            simp only at hek hyk
            obtain ⟨rfl, rfl⟩ := hek
            obtain ⟨rfl, rfl⟩ := hyk
            exact absurd hy (i.single _ _ _ _ hu hem).1
      have hmem : ∀ x, (x ∈ s.pending.filter (fun x => x != e) ∨ x ∈ s.table) → (x ∈ s.pending ∨ x ∈ s.table) ∧ x ≠ e := by
        intro x hx
        rcases hx with hx | hx
        · exact ⟨Or.inl (hsub x hx).1, (hsub x hx).2⟩
        · exact ⟨Or.inr hx, fun c => i.disj e hem (c ▸ hx)⟩
      constructor
      · intro k' hu; rw [hadd]; exact i.next k' hu
      · exact i.low
      · intro k' x hu hx
        rcases i.owned k' x hu hx with h1 | h1
        · refine Or.inl (List.mem_filter.2 ⟨h1, ?_⟩)
          have : (k', x) ≠ e := by
            rintro rfl
            have hu' : (s.core k').ub = false := hu
            simp only at hek; rw [hek.1, hub] at hu'; simp at hu'
          simpa using this
        · exact Or.inr h1
      · intro k' x hu hx; exact i.ids k' x hu (hmem _ hx).1
      · intro k' id' q q' hu hx
        obtain ⟨h1, h2⟩ := i.single k' id' q q' hu (hsub _ hx).1
        exact ⟨h1, fun c => h2 (hsub _ c).1⟩
      · intro x hx
        obtain ⟨h1, h2⟩ := hmem x hx
        obtain ⟨h3, h4⟩ := i.live x h1
        refine ⟨fun c => ?_, h4⟩
        rcases List.mem_cons.1 c with c | c
        · exact h2 (i.ptr x e h1 (Or.inl hem) c)
        · exact h3 c
      · intro x y hx hy e; exact i.ptr x y (hmem x hx).1 (hmem y hy).1 e
      · intro x hx; exact i.disj x (hsub x hx).1
      · exact i.removing
      · intro q hq
        rcases List.mem_cons.1 hq with rfl | hq
        · exact (i.live e (Or.inl hem)).2
        · exact i.freedLow q hq
    · next hany =>
      have hno : ∀ p, (k, id, p) ∉ s.table := by
        intro p hp
        exact hany (List.any_eq_true.2 ⟨_, hp, by simp [isEntry]⟩)
      have hmem : ∀ x, (x ∈ s.pending.filter (fun x => x != e) ∨ x ∈ e :: s.table) → (x ∈ s.pending ∨ x ∈ s.table) := by
        intro x hx
        rcases hx with hx | hx
        · exact Or.inl (hsub x hx).1
        · rcases List.mem_cons.1 hx with rfl | hx
          · exact Or.inl hem
          · exact Or.inr hx
      constructor
      · intro k' hu; rw [hadd]; exact i.next k' hu
      · exact i.low
      · intro k' x hu hx
        by_cases hxe : (k', x) = e
        · exact Or.inr (by rw [hxe]; simp)
        · rcases i.owned k' x hu hx with h1 | h1
          · exact Or.inl (List.mem_filter.2 ⟨h1, by simpa using hxe⟩)
          · exact Or.inr (List.mem_cons_of_mem _ h1)
      · intro k' x hu hx; exact i.ids k' x hu (hmem _ hx)
      · intro k' id' q q' hu hx
        obtain ⟨hx1, hx2⟩ := hsub _ hx
        obtain ⟨h1, h2⟩ := i.single k' id' q q' hu hx1
        refine ⟨fun c => ?_, fun c => h2 (hsub _ c).1⟩
        rcases List.mem_cons.1 c with c | c
        · rw [← c] at hem
          have := h2 hem
          rw [this] at c
          exact hx2 c
        · exact h1 c
      · intro x hx; exact i.live x (hmem x hx)
      · intro x y hx hy e; exact i.ptr x y (hmem x hx) (hmem y hy) e
      · intro x hx c
        obtain ⟨h1, h2⟩ := hsub x hx
        rcases List.mem_cons.1 c with c | c
        · exact h2 c
        · exact i.disj x h1 c
      · exact i.removing
      · exact i.freedLow

theorem erase_Inv {s : State} {h : List Event} (i : Inv s h) (k : Kind) (id : Nat)
    (hno : (s.core k).ub = false → ∀ p, (id, p) ∉ (s.core k).entries) : Inv (erase s k id) h := by
  have hsub : ∀ x, x ∈ s.table.filter (fun e => !isEntry k id e) → x ∈ s.table ∧ ¬ (x.1 = k ∧ x.2.1 = id) := by
    intro x hx; obtain ⟨h1, h2⟩ := List.mem_filter.1 hx; exact ⟨h1, by rw [Bool.not_eq_true', isEntry, decide_eq_false_iff_not] at h2; exact h2⟩
  have hmem : ∀ x, (x ∈ s.pending ∨ x ∈ s.table.filter (fun e => !isEntry k id e)) → (x ∈ s.pending ∨ x ∈ s.table) := by
    intro x hx
    rcases hx with hx | hx
    · exact Or.inl hx
    · exact Or.inr (hsub x hx).1
  constructor
  · exact i.next
  · exact i.low
  · intro k' x hu hx
    rcases i.owned k' x hu hx with h1 | h1
    · exact Or.inl h1
    · refine Or.inr (List.mem_filter.2 ⟨h1, ?_⟩)
      have : ¬ (k' = k ∧ x.1 = id) := by
        rintro ⟨rfl, rfl⟩; exact hno hu x.2 hx
      rw [Bool.not_eq_true', isEntry, decide_eq_false_iff_not]; exact this
  · intro k' x hu hx; exact i.ids k' x hu (hmem _ hx)
  · intro k' id' q q' hu hx
    obtain ⟨h1, h2⟩ := i.single k' id' q q' hu hx
    exact ⟨fun c => h1 (hsub _ c).1, h2⟩
  · intro x hx
    obtain ⟨h1, h2⟩ := i.live x (hmem x hx)
    refine ⟨fun c => ?_, h2⟩
    rcases List.mem_append.1 c with c | c
    · obtain ⟨y, hy, e⟩ := List.mem_map.1 c
      obtain ⟨hy1, hy2⟩ := List.mem_filter.1 hy
      have := i.ptr y x (Or.inr hy1) (hmem x hx) e
      subst this
      rcases hx with hx | hx
      · exact i.disj _ hx hy1
      · exact (hsub _ hx).2 (by simpa [isEntry] using hy2)
    · exact h1 c
  · intro x y hx hy e; exact i.ptr x y (hmem x hx) (hmem y hy) e
  · intro x hx c; exact i.disj x hx (hsub x c).1
  · exact i.removing
  · intro q hq
    rcases List.mem_append.1 hq with hq | hq
    · obtain ⟨y, hy, rfl⟩ := List.mem_map.1 hq
      exact (i.live y (Or.inr (List.mem_filter.1 hy).1)).2
    · exact i.freedLow q hq

theorem erasedMap_own {k : Kind} (h : k ≠ .linSlaveConfiguration) : erasedMap k = some k ∨ erasedMap k = none := by
  cases k <;> first | exact absurd rfl h | exact Or.inl rfl | exact Or.inr rfl

theorem removeEnd_Inv {s : State} {h : List Event} (i : Inv s h) (k : Kind) (id : Nat) : Inv (removeEnd s k id) (h ++ [.removeEnd k id]) := by
  have hadd : ∀ k', adds k' (h ++ [.removeEnd k id]) = adds k' h := by intro k'; rw [adds_append]; rfl
  have hw : ∀ s' : State, Inv s' h → Inv s' (h ++ [.removeEnd k id]) := fun s' i =>
    ⟨fun k hu => by rw [hadd]; exact i.next k hu, i.low, i.owned, i.ids, i.single, i.live, i.ptr, i.disj, i.removing, i.freedLow⟩
  apply hw
  unfold removeEnd
  split
  · next hm =>
    have i' : Inv { s with removing := s.removing.erase (k, id) } h :=
      ⟨i.next, i.low, i.owned, i.ids, i.single, i.live, i.ptr, i.disj, fun k' id' hx => i.removing k' id' (List.mem_of_mem_erase hx), i.freedLow⟩
    obtain ⟨h1, h2⟩ := i.removing k id hm
    rcases erasedMap_own h1 with he | he
    · rw [he]; exact erase_Inv i' k id (fun hu => (h2 hu).2)
    · rw [he]; exact i'
  · exact i

theorem removeBegin_Inv {s : State} {h : List Event} (i : Inv s h) (k : Kind) (id : Nat) (hk : k ≠ .linSlaveConfiguration)
    (hid : id < adds k h) : Inv (removeBegin s k id).1 (h ++ [.removeBegin k id]) := by
  have i' := core_Inv i k (.remove id) (by simp) (.removeBegin k id) (by intro k; rfl)
  refine ⟨i'.next, i'.low, i'.owned, i'.ids, i'.single, i'.live, i'.ptr, i'.disj, ?_, i'.freedLow⟩
  intro k' id' hx
  rcases List.mem_cons.1 hx with hx | hx
  · simp only [Prod.mk.injEq] at hx
    obtain ⟨rfl, rfl⟩ := hx
    refine ⟨hk, fun hu => ?_⟩
    have hn := i'.next k' hu
    refine ⟨?_, fun p hp => ?_⟩
    · rw [show ((removeBegin s k' id').1.core k').next = _ from hn, adds_append]; omega
    · have hu' : (s.core k').ub = false := by
        have : ((setCore s k' (Handlers.on (s.core k') (.remove id')).1).core k').ub = false := hu
        rw [setCore_same] at this; exact on_ub this
      have hp : (id', p) ∈ ((setCore s k' (Handlers.on (s.core k') (.remove id')).1).core k').entries := hp
      rw [setCore_same] at hp
      unfold Handlers.on at hp
      rw [hu'] at hp
      simp [Handlers.remove] at hp
  · exact i'.removing k' id' hx

/-! ## The container behind, with the users' handlers in the place of the addresses -/

def owner (l : List Nat) (p : Nat) : Nat := l.getD p 0

def Sim (s : State) (t : List (Kind × Handlers.Out)) (h : List Event) : Prop :=
  ∀ k, Handlers.Spec.run (requests k h) = (mapS (owner s.allocated) (s.core k), ofKind k t)

theorem owner_some {l : List Nat} {p : Nat} (h : p < l.length) : l[p]? = some (owner l p) := by
  unfold owner; rw [List.getD_eq_getElem?_getD, List.getElem?_eq_getElem h]; rfl

theorem owner_append {l : List Nat} {p x : Nat} (h : p < l.length) : owner (l ++ [x]) p = owner l p := by
  unfold owner; rw [List.getD_eq_getElem?_getD, List.getD_eq_getElem?_getD, List.getElem?_append_left h]

theorem owner_last (l : List Nat) (x : Nat) : owner (l ++ [x]) l.length = x := by
  unfold owner; rw [List.getD_eq_getElem?_getD, List.getElem?_append_right (Nat.le_refl _)]; simp

theorem mapS_owner_append {l : List Nat} {x : Nat} {c : Handlers.State} (h : ∀ e ∈ c.entries, e.2 < l.length) :
    mapS (owner (l ++ [x])) c = mapS (owner l) c := by
  unfold mapS
  have : c.entries.map (fun e => (e.1, owner (l ++ [x]) e.2)) = c.entries.map (fun e => (e.1, owner l e.2)) := by
    apply List.map_congr_left
    intro e he
    rw [owner_append (h e he)]
  rw [this]

theorem ofKind_append (k : Kind) (t u : List (Kind × Handlers.Out)) : ofKind k (t ++ u) = ofKind k t ++ ofKind k u := by
  unfold ofKind; rw [List.filterMap_append]

theorem ofKind_tag (k k' : Kind) (l : List Handlers.Out) : ofKind k (l.map (fun o => (k', o))) = if k' = k then l else [] := by
  induction l with
  | nil => simp [ofKind]
  | cons o l ih =>
      unfold ofKind at ih ⊢
      by_cases hk : k' = k
      · simp [hk] at ih ⊢; exact ih
      · simp [hk] at ih ⊢

theorem requests_append (k : Kind) (h : List Event) (e : Event) : requests k (h ++ [e]) = requests k h ++ (request k e).toList := by
  unfold requests; rw [List.filterMap_append]
  cases he : request k e <;> simp [he]

/-- The user sees the outputs of an operation that is no `add`, with the own handler in the place of the address. -/
theorem seen_eq {s : State} {h : List Event} (i : Inv s h) (k : Kind) (e : Handlers.Event) (he : ∀ p, e ≠ .add p) (s' : State)
    (ha : s'.allocated = s.allocated) (hf : s'.freed = s.freed) :
    (Handlers.on (s.core k) e).2.map (seen s') = (Handlers.on (s.core k) e).2.map (mapO (owner s.allocated)) := by
  apply List.map_congr_left
  intro o ho
  cases o with
  | called n id p =>
      obtain ⟨hu, hm⟩ := on_called ho
      have hlive := i.live _ (i.owned k _ hu hm)
      simp only [seen, hf, ha, mapO]
      rw [if_neg hlive.1, owner_some hlive.2]
  | added id p => exact absurd ho (on_added he)
  | _ => rfl

theorem sim_core {s : State} {t : List (Kind × Handlers.Out)} {h : List Event} (j : Sim s t h) (k : Kind) (ev : Event)
    (e : Handlers.Event) (he : ∀ f, mapE f e = e) (hev : ∀ k', request k' ev = if k = k' then some e else none) (s' : State)
    (ha : s'.allocated = s.allocated) (hc : s'.core = (setCore s k (Handlers.on (s.core k) e).1).core) (outs : List Handlers.Out)
    (ho : outs = (Handlers.on (s.core k) e).2.map (mapO (owner s.allocated))) :
    Sim s' (t ++ outs.map (fun o => (k, o))) (h ++ [ev]) := by
  intro k'
  rw [requests_append, hev, ofKind_append, ofKind_tag, hc, ha]
  by_cases hk : k = k'
  · subst hk
    rw [if_pos rfl, if_pos rfl, setCore_same]
    show Handlers.Spec.run (requests k h ++ [e]) = _
    have := on_map (owner s.allocated) (s.core k) e
    rw [he] at this
    rw [Handlers.run_append, j k, this, ho]
  · rw [if_neg hk, if_neg hk, setCore_other _ _ (fun c => hk c.symm)]
    simp only [Option.toList_none, List.append_nil]
    exact j k'

theorem remove_outs (s : Handlers.State) (id : Nat) (f : Nat → Nat) : (Handlers.on s (.remove id)).2.map (mapO f) = (Handlers.on s (.remove id)).2 := by
  unfold Handlers.on; split <;> rfl

theorem sim_add {s : State} {t : List (Kind × Handlers.Out)} {h : List Event} (i : Inv s h) (j : Sim s t h) (k : Kind) (p : Nat) :
    Sim (addBegin s k p).1 (t ++ (addBegin s k p).2.map (fun o => (k, o))) (h ++ [.addBegin k p]) := by
  intro k'
  have hall : (addBegin s k p).1.allocated = s.allocated ++ [p] := rfl
  have hmap : ∀ k', mapS (owner (s.allocated ++ [p])) (s.core k') = mapS (owner s.allocated) (s.core k') :=
    fun k' => mapS_owner_append (fun e he => i.low k' e he)
  have hon := on_map (owner (s.allocated ++ [p])) (s.core k) (.add s.allocated.length)
  rw [requests_append, ofKind_append, ofKind_tag, hall]
  by_cases hk : k = k'
  · subst hk
    rw [if_pos rfl]
    have hreq : (request k (.addBegin k p)).toList = [Handlers.Event.add p] := by simp [request]
    rw [hreq, Handlers.run_append, j k]
    rw [hmap] at hon
    simp only [mapE, owner_last] at hon
    rw [hon]
    have hcore : (addBegin s k p).1.core k = (Handlers.on (s.core k) (.add s.allocated.length)).1 := by
      show (if k = k then _ else _) = _
      rw [if_pos rfl]
    rw [hcore]
    congr 2
    show _ = (Handlers.on (s.core k) (.add s.allocated.length)).2.map (seen (addBegin s k p).1)
    apply List.map_congr_left
    intro o ho
    have : o = .added ((s.core k).next % Handlers.idRange) s.allocated.length := by
      unfold Handlers.on at ho
      split at ho
      · simp at ho
      · simpa [Handlers.add] using ho
    subst this
    simp only [mapO, seen, hall]
    rw [owner_some (by simp)]
  · rw [if_neg hk]
    have hreq : (request k' (.addBegin k p)).toList = [] := by simp [request, hk]
    rw [hreq, List.append_nil, List.append_nil]
    have hcore : (addBegin s k p).1.core k' = s.core k' := by
      show (if k' = k then _ else _) = _
      rw [if_neg (fun c => hk c.symm)]
    rw [hcore, hmap]
    exact j k'

theorem sim_quiet {s s' : State} {t : List (Kind × Handlers.Out)} {h : List Event} (j : Sim s t h) (ev : Event)
    (hev : ∀ k, request k ev = none) (ha : s'.allocated = s.allocated) (hc : s'.core = s.core) : Sim s' (t ++ []) (h ++ [ev]) := by
  intro k
  rw [requests_append, hev, ha, hc]
  simpa using j k

theorem addEnd_frame (s : State) (k : Kind) (id : Nat) : (addEnd s k id).allocated = s.allocated ∧ (addEnd s k id).core = s.core := by
  unfold addEnd
  split
  · exact ⟨rfl, rfl⟩
  · split <;> exact ⟨rfl, rfl⟩

theorem removeEnd_frame (s : State) (k : Kind) (id : Nat) : (removeEnd s k id).allocated = s.allocated ∧ (removeEnd s k id).core = s.core := by
  unfold removeEnd
  split
  · split <;> exact ⟨rfl, rfl⟩
  · exact ⟨rfl, rfl⟩

theorem run_append (h : List Event) (e : Event) : run (h ++ [e]) = runStep (run h) e := by
  unfold run; rw [List.foldl_append]; rfl

theorem few_iff (k : Kind) (h : List Event) : Handlers.Spec.FewHandlers (requests k h) ↔ adds k h ≤ Handlers.idRange := by
  rw [adds_eq]; exact Iff.rfl

theorem snoc_induction {α : Type} {P : List α → Prop} (nil : P []) (snoc : ∀ l x, P l → P (l ++ [x])) (l : List α) : P l := by
  rw [← List.reverse_reverse l]
  induction l.reverse with
  | nil => exact nil
  | cons x l ih => rw [List.reverse_cons]; exact snoc _ _ ih

theorem few_prefix {h : List Event} {e : Event} (hf : FewHandlers (h ++ [e])) : FewHandlers h := by
  intro k
  have := hf k
  rw [few_iff] at this ⊢
  rw [adds_append] at this
  omega

theorem run_Inv (h : List Event) (hf : FewHandlers h) (hk : KnownIdentifiers h) (hn : NoSlaveConfigurationRemoval h) :
    Inv (run h).1 h ∧ Sim (run h).1 (run h).2 h := by
  induction h using snoc_induction with
  | nil => exact ⟨init_Inv, fun k => rfl⟩
  | snoc h e ih =>
      have hk' : KnownIdentifiers h := by
        intro a b k id eq
        exact hk a (b ++ [e]) k id (by rw [eq]; simp)
      have hn' : NoSlaveConfigurationRemoval h := fun id hm => hn id (List.mem_append_left _ hm)
      obtain ⟨i, j⟩ := ih (few_prefix hf) hk' hn'
      rw [run_append]
      cases e with
      | addBegin k p =>
          refine ⟨addBegin_Inv i k p ?_, sim_add i j k p⟩
          have := hf k
          rw [few_iff, adds_append] at this
          simpa [adds] using this
      | addEnd k id => exact ⟨addEnd_Inv i k id, sim_quiet j _ (fun _ => rfl) (addEnd_frame _ k id).1 (addEnd_frame _ k id).2⟩
      | removeBegin k id =>
          refine ⟨removeBegin_Inv i k id ?_ (hk h [] k id rfl), ?_⟩
          · rintro rfl; exact hn id (by simp)
          · exact sim_core j k _ (.remove id) (fun f => rfl) (fun k' => rfl) (removeBegin (run h).1 k id).1 rfl rfl (removeBegin (run h).1 k id).2
              (remove_outs _ _ _).symm
      | removeEnd k id => exact ⟨removeEnd_Inv i k id, sim_quiet j _ (fun _ => rfl) (removeEnd_frame _ k id).1 (removeEnd_frame _ k id).2⟩
      | invoke k =>
          exact ⟨core_Inv i k .invoke (by simp) _ (fun _ => rfl),
            sim_core j k _ .invoke (fun f => rfl) (fun k' => rfl) (invoke (run h).1 k).1 rfl rfl (invoke (run h).1 k).2 (seen_eq i k .invoke (by simp) _ rfl rfl)⟩
      | ret k =>
          exact ⟨core_Inv i k .ret (by simp) _ (fun _ => rfl),
            sim_core j k _ .ret (fun f => rfl) (fun k' => rfl) (ret (run h).1 k).1 rfl rfl (ret (run h).1 k).2 (seen_eq i k .ret (by simp) _ rfl rfl)⟩

theorem seenBy_eq (h : List Event) (hf : FewHandlers h) (hk : KnownIdentifiers h) (hn : NoSlaveConfigurationRemoval h) (k : Kind) :
    seenBy k h = Handlers.Spec.trace (requests k h) := by
  have := (run_Inv h hf hk hn).2 k
  unfold Handlers.Spec.trace
  rw [this]; rfl

/-! ## Handlers that are set -/

theorem replaces_iff (t st : Setter) : replaces t st = decide (slot t = slot st) := by
  cases t <;> cases st <;> rfl

theorem slot_of_member {t st : Setter} (h : member t = member st) : slot t = slot st := by
  revert h; cases t <;> cases st <;> decide

theorem member_inj {t st : Setter} (h : member t = member st) (h1 : t ≠ .rpcCall) (h2 : st ≠ .rpcCall) : t = st := by
  revert h h1 h2; cases t <;> cases st <;> decide

theorem contextOf_eq {st : Setter} (h : st ≠ .rpcCall) (p : Nat) : contextOf st p = .handlerData p := by
  cases st <;> first | exact absurd rfl h | rfl

theorem lastSet_append (st : Setter) (h : List SlotEvent) (e : SlotEvent) :
    lastSet st (h ++ [e]) = match e with
      | .setBegin t p => if slot t = slot st then some p else lastSet st h
      | _ => lastSet st h := by
  unfold lastSet
  rw [List.filterMap_append]
  cases e with
  | setBegin t p =>
      by_cases hr : slot t = slot st
      · simp [replaces_iff, hr]
      · simp [replaces_iff, hr]
  | setEnd t => simp
  | event t => simp

structure SInv (s : Slots) (h : List SlotEvent) : Prop where
  core : ∀ st, match lastSet st h with
    | none => s.core (slot st) = none
    | some hd => ∃ p, s.core (slot st) = some (.handlerData p) ∧ s.allocated[p]? = some hd ∧ p ∉ s.freed ∧
        ∀ st' q, slot st' = slot st → (st', q) ∈ s.setting → q ≤ p
  order : ∀ st q m, (st, q) ∈ s.setting → s.members (member st) = some m → m < q
  settingLow : ∀ st q, (st, q) ∈ s.setting → q < s.allocated.length ∧ st ≠ .rpcCall
  memberLow : ∀ t m, s.members t = some m → m < s.allocated.length
  freedLow : ∀ p ∈ s.freed, p < s.allocated.length
  distinct : s.setting.Pairwise (fun x y => member x.1 ≠ member y.1)
  pending : ∀ st q, (st, q) ∈ s.setting → ∃ a m hd, h = a ++ .setBegin st hd :: m ∧ SlotEvent.setEnd st ∉ m
  /-- The address in a slot was set there. -/
  place : ∀ st t p, s.core (slot st) = some (.handlerData p) → ((t, p) ∈ s.setting ∨ s.members (member t) = some p) → slot t = slot st

theorem apart {l : List (Setter × Nat)} (h : l.Pairwise (fun x y => member x.1 ≠ member y.1)) {x y : Setter × Nat} (hx : x ∈ l) (hy : y ∈ l)
    (hne : x ≠ y) : member x.1 ≠ member y.1 := by
  induction h with
  | nil => simp at hx
  | cons h1 _ ih =>
      rcases List.mem_cons.1 hx with hx2 | hx2 <;> rcases List.mem_cons.1 hy with hy2 | hy2
      · exact absurd (hx2.trans hy2.symm) hne
      · rw [hx2]; exact h1 _ hy2
      · rw [hy2]; exact fun c => h1 _ hx2 c.symm
      · exact ih hx2 hy2

theorem pending_append {st : Setter} {h : List SlotEvent} {e : SlotEvent} (he : e ≠ .setEnd st)
    (hp : ∃ a m hd, h = a ++ .setBegin st hd :: m ∧ SlotEvent.setEnd st ∉ m) :
    ∃ a m hd, h ++ [e] = a ++ .setBegin st hd :: m ∧ SlotEvent.setEnd st ∉ m := by
  obtain ⟨a, m, hd, rfl, hm⟩ := hp
  refine ⟨a, m ++ [e], hd, by simp, ?_⟩
  intro c
  rcases List.mem_append.1 c with c | c
  · exact hm c
  · simp at c; exact he c.symm

theorem setBegin_SInv {s : Slots} {h : List SlotEvent} (i : SInv s h) (st : Setter) (hd : Nat) (hst : st ≠ .rpcCall)
    (ho : OneAtATime (h ++ [.setBegin st hd])) : SInv (setBegin s st hd) (h ++ [.setBegin st hd]) := by
  have hno : ∀ st' q, (st', q) ∈ s.setting → member st' ≠ member st := by
    intro st' q hm e
    have := member_inj e (i.settingLow _ _ hm).2 hst
    subst this
    obtain ⟨a, m, hd', rfl, hm'⟩ := i.pending _ _ hm
    exact hm' (ho a m [] st' hd' hd (by simp))
  have hall : (setBegin s st hd).allocated = s.allocated ++ [hd] := rfl
  have hset : (setBegin s st hd).setting = s.setting ++ [(st, s.allocated.length)] := rfl
  have hmem : ∀ x, x ∈ (setBegin s st hd).setting → x ∈ s.setting ∨ x = (st, s.allocated.length) := by
    intro x hx; rw [hset] at hx; simpa using hx
  constructor
  · intro st'
    rw [lastSet_append]
    by_cases hs : slot st = slot st'
    · simp only [if_pos hs]
      refine ⟨s.allocated.length, ?_, by rw [hall]; simp, ?_, ?_⟩
      · show (if slot st' = slot st then _ else _) = _
        rw [if_pos hs.symm, contextOf_eq hst]
      · intro c; have := i.freedLow _ c; simp at this
      · intro st'' q _ hq
        rcases hmem _ hq with hq | hq
        · exact Nat.le_of_lt (i.settingLow _ _ hq).1
        · simp only [Prod.mk.injEq] at hq; omega
    · simp only [if_neg hs]
      have hc : (setBegin s st hd).core (slot st') = s.core (slot st') := by
        show (if slot st' = slot st then _ else _) = _
        rw [if_neg (fun c => hs c.symm)]
      rw [hc, hall]
      have := i.core st'
      cases hl : lastSet st' h with
      | none => rw [hl] at this; exact this
      | some hd' =>
          rw [hl] at this
          obtain ⟨p, h1, h2, h3, h4⟩ := this
          refine ⟨p, h1, ?_, h3, ?_⟩
          · have := (List.getElem?_eq_some_iff.1 h2).1
            rw [List.getElem?_append_left this]; exact h2
          · intro st'' q hs' hq
            rcases hmem _ hq with hq | hq
            · exact h4 st'' q hs' hq
            · simp only [Prod.mk.injEq] at hq
              rw [hq.1] at hs'; exact absurd hs' hs
  · intro st' q m hq hm
    rcases hmem _ hq with hq | hq
    · exact i.order st' q m hq hm
    · simp only [Prod.mk.injEq] at hq
      rw [hq.2]; exact i.memberLow _ m hm
  · intro st' q hq
    rw [hall, List.length_append]
    rcases hmem _ hq with hq | hq
    · have := i.settingLow _ _ hq; exact ⟨by simp; omega, this.2⟩
    · simp only [Prod.mk.injEq] at hq; exact ⟨by simp; omega, by rw [hq.1]; exact hst⟩
  · intro t m hm
    rw [hall, List.length_append]
    have := i.memberLow t m hm; simp; omega
  · intro p hp
    rw [hall, List.length_append]
    have := i.freedLow p hp; simp; omega
  · rw [hset, List.pairwise_append]
    refine ⟨i.distinct, by simp, ?_⟩
    intro x hx y hy
    simp at hy
    subst hy
    exact hno x.1 x.2 hx
  · intro st' q hq
    rcases hmem _ hq with hq | hq
    · exact pending_append (by simp) (i.pending _ _ hq)
    · simp only [Prod.mk.injEq] at hq
      rw [hq.1]; exact ⟨h, [], hd, rfl, by simp⟩
  · intro st' t p hc hp
    have hc' : (if slot st' = slot st then some (contextOf st s.allocated.length) else s.core (slot st')) = some (.handlerData p) := hc
    have hp' : (t, p) ∈ s.setting ∨ (t, p) = (st, s.allocated.length) ∨ s.members (member t) = some p := by
      rcases hp with hp | hp
      · rcases hmem _ hp with hp | hp
        · exact Or.inl hp
        · exact Or.inr (Or.inl hp)
      · exact Or.inr (Or.inr hp)
    by_cases hs : slot st' = slot st
    · rw [if_pos hs, contextOf_eq hst] at hc'
      simp only [Option.some.injEq, Context.handlerData.injEq] at hc'
      rcases hp' with hp | hp | hp
      · have := (i.settingLow _ _ hp).1; omega
      · simp only [Prod.mk.injEq] at hp; rw [hp.1, hs]
      · have := i.memberLow _ _ hp; omega
    · rw [if_neg hs] at hc'
      rcases hp' with hp | hp | hp
      · exact i.place st' t p hc' (Or.inl hp)
      · simp only [Prod.mk.injEq] at hp
        have := i.core st'
        cases hl : lastSet st' h with
        | none => rw [hl] at this; rw [this] at hc'; simp at hc'
        | some hd' =>
            rw [hl] at this
            obtain ⟨p', h1, h2, _⟩ := this
            rw [h1] at hc'
            simp only [Option.some.injEq, Context.handlerData.injEq] at hc'
            have := (List.getElem?_eq_some_iff.1 h2).1
            omega
      · exact i.place st' t p hc' (Or.inr hp)

theorem setEnd_SInv {s : Slots} {h : List SlotEvent} (i : SInv s h) (st : Setter) : SInv (setEnd s st) (h ++ [.setEnd st]) := by
  have hls : ∀ st', lastSet st' (h ++ [.setEnd st]) = lastSet st' h := fun st' => lastSet_append st' h _
  unfold setEnd
  split
  · next hf =>
    have hnone : ∀ q, (st, q) ∉ s.setting := by
      intro q hq
      have := List.find?_eq_none.1 hf _ hq
      simp at this
    refine ⟨fun st' => by rw [hls]; exact i.core st', i.order, i.settingLow, i.memberLow, i.freedLow, i.distinct, ?_, i.place⟩
    intro st' q hq
    exact pending_append (by rintro ⟨rfl⟩; exact hnone q hq) (i.pending _ _ hq)
  · next e hf =>
    have hem := List.mem_of_find?_eq_some hf
    have hek : e.1 = st := by have := List.find?_some hf; simpa using this
    obtain ⟨e1, e2⟩ := e
    simp only at hek
    subst hek
    have hnd : s.setting.Nodup := i.distinct.imp (fun h c => h (by rw [c]))
    have hrest : ∀ st' q, (st', q) ∈ s.setting.erase (e1, e2) → (st', q) ∈ s.setting ∧ member st' ≠ member e1 := by
      intro st' q hq
      rw [hnd.mem_erase_iff] at hq
      refine ⟨hq.2, fun c => ?_⟩
      exact apart i.distinct hq.2 hem hq.1 c
    constructor
    · intro st'
      rw [hls]
      have := i.core st'
      cases hl : lastSet st' h with
      | none => rw [hl] at this; exact this
      | some hd' =>
          rw [hl] at this
          obtain ⟨p, h1, h2, h3, h4⟩ := this
          refine ⟨p, h1, h2, ?_, fun st'' q hs hq => h4 st'' q hs (hrest _ _ hq).1⟩
          intro c
          rcases List.mem_append.1 c with c | c
          · have hm : s.members (member e1) = some p := by simpa using c
            have ho := i.order e1 e2 p hem hm
            by_cases hs : slot e1 = slot st'
            · have := h4 e1 e2 hs hem; omega
            · exact hs (i.place st' e1 p h1 (Or.inr hm))
          · exact h3 c
    · intro st' q m hq hm
      obtain ⟨hq1, hq2⟩ := hrest _ _ hq
      simp only [if_neg hq2] at hm
      exact i.order st' q m hq1 hm
    · intro st' q hq; exact i.settingLow _ _ (hrest _ _ hq).1
    · intro t m hm
      by_cases ht : t = member e1
      · simp only [if_pos ht, Option.some.injEq] at hm; rw [← hm]; exact (i.settingLow _ _ hem).1
      · simp only [if_neg ht] at hm; exact i.memberLow t m hm
    · intro p hp
      rcases List.mem_append.1 hp with hp | hp
      · exact i.memberLow (member e1) p (by simpa using hp)
      · exact i.freedLow p hp
    · exact i.distinct.sublist List.erase_sublist
    · intro st' q hq
      obtain ⟨hq1, hq2⟩ := hrest _ _ hq
      exact pending_append (by rintro ⟨rfl⟩; exact hq2 rfl) (i.pending _ _ hq1)
    · intro st' t p hc hp
      rcases hp with hp | hp
      · exact i.place st' t p hc (Or.inl (hrest _ _ hp).1)
      · by_cases ht : member t = member e1
        · simp only [if_pos ht, Option.some.injEq] at hp
          rw [slot_of_member ht]
          exact i.place st' e1 p hc (Or.inl (hp ▸ hem))
        · simp only [if_neg ht] at hp; exact i.place st' t p hc (Or.inr hp)

theorem slotRun_append (h : List SlotEvent) (e : SlotEvent) :
    slotRun (h ++ [e]) = ((onSlot (slotRun h).1 e).1, (slotRun h).2 ++ (onSlot (slotRun h).1 e).2) := by
  unfold slotRun; rw [List.foldl_append]; rfl

theorem slotRun_SInv (h : List SlotEvent) (ho : OneAtATime h) (hn : NoSetCallHandler h) : SInv (slotRun h).1 h := by
  induction h using snoc_induction with
  | nil => constructor <;> simp [slotRun, lastSet]
  | snoc h e ih =>
      have i := ih (fun a m b st p q eq => ho a m (b ++ [e]) st p q (by rw [eq]; simp)) (fun p hp => hn p (List.mem_append_left _ hp))
      rw [slotRun_append]
      cases e with
      | setBegin st hd => exact setBegin_SInv i st hd (by rintro rfl; exact hn hd (by simp)) ho
      | setEnd st => exact setEnd_SInv i st
      | event st =>
          refine ⟨fun st' => by rw [lastSet_append]; exact i.core st', i.order, i.settingLow, i.memberLow, i.freedLow, i.distinct, ?_, i.place⟩
          intro st' q hq
          exact pending_append (by simp) (i.pending _ _ hq)

theorem event_due (h : List SlotEvent) (ho : OneAtATime h) (hn : NoSetCallHandler h) (st : Setter) :
    (onSlot (slotRun h).1 (.event st)).2 = [dueAt st h] := by
  have i := (slotRun_SInv h ho hn).core st
  unfold onSlot dueAt
  cases hl : lastSet st h with
  | none => rw [hl] at i; simp only; rw [i]
  | some hd =>
      rw [hl] at i
      obtain ⟨p, h1, h2, h3, _⟩ := i
      simp only
      rw [h1]
      simp only [callBack]
      rw [if_neg h3, h2]

end SilKit.Hourglass
