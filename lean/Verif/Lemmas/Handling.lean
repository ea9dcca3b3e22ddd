import Verif.Spec.Handling
import Verif.Lemmas.Util
/-!
# Handlers are called for the events they are registered for
-/
namespace SilKit.Handling
open Spec

variable {κ ν ρ : Type} [DecidableEq κ] {E : Events κ ν}

theorem tolds_append (a b : List (Out κ ν ρ)) : tolds (a ++ b) = tolds a ++ tolds b := by simp [tolds]
theorem dids_append (a b : List (Out κ ν ρ)) : dids (a ++ b) = dids a ++ dids b := by simp [dids]

theorem handlerCalls_append (kind : ν → κ) (k : κ) (id : Nat) (a b : List (Out κ ν ρ)) :
    handlerCalls kind k id (a ++ b) = handlerCalls kind k id a ++ handlerCalls kind k id b := by simp [handlerCalls]

/-- The calls of one handler while all are invoked. -/
theorem handlerCalls_tell {T : κ → Table} {k : κ} (hn : ((T k).entries.map (·.1)).Nodup) (id : Nat) (n : ν) :
    (∀ mask, (id, mask) ∈ (T k).entries →
      handlerCalls E.kind k id (tell E T n : List (Out κ ν ρ)) = [n].filter (fun n => decide (E.kind n = k) && E.passes mask n)) ∧
    (id ∉ (T k).entries.map (·.1) → handlerCalls E.kind k id (tell E T n : List (Out κ ν ρ)) = []) := by
  unfold tell handlerCalls
  rw [List.filterMap_cons]
  simp only
  rw [List.filterMap_map]
  by_cases hk : E.kind n = k
  · rw [hk]
    generalize (T k).entries = l at hn
    induction l with
    | nil => simp
    | cons x l ih =>
        rw [List.map_cons, List.nodup_cons] at hn
        obtain ⟨ih1, ih2⟩ := ih hn.2
        refine ⟨?_, ?_⟩
        · intro mask hm
          rw [List.mem_cons] at hm
          rcases hm with hm | hm
          · subst hm
            rw [List.filter_cons]
            have h2 := ih2 hn.1
            split
            · rename_i hp
              rw [List.filterMap_cons, h2]
              simp [hk, hp]
            · rename_i hp
              rw [h2]
              simp [hk, hp]
          · have hne : x.1 ≠ id := by
              intro e
              exact hn.1 (by rw [e, List.mem_map]; exact ⟨_, hm, rfl⟩)
            rw [List.filter_cons]
            split
            · rw [List.filterMap_cons]
              simp only [Function.comp, hne, false_and, if_false]
              exact ih1 mask hm
            · exact ih1 mask hm
        · intro hm
          rw [List.map_cons, List.mem_cons, not_or] at hm
          rw [List.filter_cons]
          have hne : x.1 ≠ id := fun e => hm.1 e.symm
          split
          · rw [List.filterMap_cons]
            simp only [Function.comp, hne, false_and, if_false]
            exact ih2 hm.2
          · exact ih2 hm.2
  · have : ∀ l : List (Nat × Nat), l.filterMap ((fun o : Out κ ν ρ => match o with
        | .called id' n => if id' = id ∧ E.kind n = k then some n else none
        | _ => none) ∘ fun x : Nat × Nat => Out.called x.1 n) = [] := by
      intro l
      rw [List.filterMap_eq_nil_iff]
      intro x _
      simp [hk]
    exact ⟨fun mask _ => (this _).trans (by simp [hk]), fun _ => this _⟩

/-- The handlers a service has are those that were added and not removed. -/
structure H (E : Events κ ν) (T : κ → Table) (t : List (Out κ ν ρ)) : Prop where
  keys : ∀ k, ((T k).entries.map (·.1)).Nodup
  bound : ∀ k, ∀ id ∈ (T k).entries.map (·.1), id < (T k).next
  adds : ∀ k id mask, Out.added k id mask ∈ t → id < (T k).next
  fresh : ∀ k id, (T k).next ≤ id → handlerCalls E.kind k id t = []
  live : ∀ k id mask a b, t = a ++ .added k id mask :: b → Out.removed k id ∉ b →
    (id, mask) ∈ (T k).entries ∧ handlerCalls E.kind k id a = [] ∧
    handlerCalls E.kind k id b = (tolds b).filter (fun n => decide (E.kind n = k) && E.passes mask n)
  dead : ∀ k id a b, t = a ++ .removed k id :: b → (∃ mask, Out.added k id mask ∈ a) →
    id ∉ (T k).entries.map (·.1) ∧ handlerCalls E.kind k id b = []
  ent : ∀ k x, x ∈ (T k).entries → Out.added k x.1 x.2 ∈ t
  calledAdded : ∀ id n, Out.called id n ∈ t → ∃ mask, Out.added (E.kind n) id mask ∈ t
  calledTold : ∀ id n, Out.called id n ∈ t → Out.told n ∈ t
  once : ∀ k id mask mask' a b, t = a ++ .added k id mask :: b → Out.added k id mask' ∉ a ∧ Out.added k id mask' ∉ b

theorem H.nil : H E (fun _ => {}) ([] : List (Out κ ν ρ)) :=
  ⟨by simp, by simp, by simp, fun _ _ _ => rfl, fun _ _ _ _ _ e => by simp at e, fun _ _ _ _ e => by simp at e, by simp, by simp, by simp, fun _ _ _ _ _ _ e => by simp at e⟩

/-- A step in which no handler is added or removed. -/
theorem H.quiet {T : κ → Table} {t u : List (Out κ ν ρ)} (h : H E T t) (ha : ∀ k id mask, Out.added k id mask ∉ u) (hr : ∀ k id, Out.removed k id ∉ u)
    (hin : ∀ k id mask, (id, mask) ∈ (T k).entries →
      handlerCalls E.kind k id u = (tolds u).filter (fun n => decide (E.kind n = k) && E.passes mask n))
    (hout : ∀ k id, id ∉ (T k).entries.map (·.1) → handlerCalls E.kind k id u = [])
    (hent : ∀ id n, Out.called id n ∈ u → ∃ x ∈ (T (E.kind n)).entries, x.1 = id) (htold : ∀ id n, Out.called id n ∈ u → Out.told n ∈ u) : H E T (t ++ u) := by
  refine ⟨h.keys, h.bound, ?_, ?_, ?_, ?_, ?_, ?_, ?_, ?_⟩
  · intro k id mask hm
    rw [List.mem_append] at hm
    rcases hm with hm | hm
    · exact h.adds k id mask hm
    · exact absurd hm (ha k id mask)
  · intro k id hid
    rw [handlerCalls_append, h.fresh k id hid, hout k id]
    · rfl
    · intro hm; have := h.bound k id hm; omega
  · intro k id mask a b e hnr
    rcases Util.split_append e with ⟨b', e1, e2⟩ | ⟨a', e1, e2⟩
    · have hnr' : Out.removed k id ∉ b' := fun hm => hnr (by rw [e2]; exact List.mem_append_left _ hm)
      obtain ⟨h1, h2, h3⟩ := h.live k id mask a b' e1 hnr'
      refine ⟨h1, h2, ?_⟩
      rw [e2, handlerCalls_append, h3, hin k id mask h1, tolds_append, List.filter_append]
    · exact absurd (show Out.added k id mask ∈ u by rw [e2]; simp) (ha k id mask)
  · intro k id a b e hadd
    rcases Util.split_append e with ⟨b', e1, e2⟩ | ⟨a', e1, e2⟩
    · obtain ⟨h1, h2⟩ := h.dead k id a b' e1 hadd
      refine ⟨h1, ?_⟩
      rw [e2, handlerCalls_append, h2, hout k id h1]; rfl
    · exact absurd (show Out.removed k id ∈ u by rw [e2]; simp) (hr k id)
  · intro k x hx; exact List.mem_append_left _ (h.ent k x hx)
  · intro id n hm
    rw [List.mem_append] at hm
    rcases hm with hm | hm
    · obtain ⟨mask, h1⟩ := h.calledAdded id n hm; exact ⟨mask, List.mem_append_left _ h1⟩
    · obtain ⟨x, hx, e⟩ := hent id n hm
      exact ⟨x.2, List.mem_append_left _ (by rw [← e]; exact h.ent _ x hx)⟩
  · intro id n hm
    rw [List.mem_append] at hm
    rcases hm with hm | hm
    · exact List.mem_append_left _ (h.calledTold id n hm)
    · exact List.mem_append_right _ (htold id n hm)
  · intro k id mask mask' a b e
    rcases Util.split_append e with ⟨b', e1, e2⟩ | ⟨a', e1, e2⟩
    · obtain ⟨h1, h2⟩ := h.once k id mask mask' a b' e1
      refine ⟨h1, ?_⟩
      rw [e2, List.mem_append]
      rintro (hm | hm)
      · exact h2 hm
      · exact ha _ _ _ hm
    · exact absurd (show Out.added k id mask ∈ u by rw [e2]; simp) (ha k id mask)

theorem mem_tell {T : κ → Table} {n : ν} {o : Out κ ν ρ} (h : o ∈ tell E T n) :
    o = .told n ∨ ∃ x ∈ (T (E.kind n)).entries, E.passes x.2 n = true ∧ o = .called x.1 n := by
  unfold tell at h
  rw [List.mem_cons, List.mem_map] at h
  rcases h with h | ⟨x, hx, e⟩
  · exact Or.inl h
  · rw [List.mem_filter] at hx
    exact Or.inr ⟨x, hx.1, hx.2, e.symm⟩

theorem tolds_tell (T : κ → Table) (n : ν) : tolds (tell E T n : List (Out κ ν ρ)) = [n] := by
  unfold tell tolds
  rw [List.filterMap_cons]
  simp only
  congr 1
  rw [List.filterMap_eq_nil_iff]
  intro o ho
  rw [List.mem_map] at ho
  obtain ⟨x, -, rfl⟩ := ho
  rfl

theorem dids_tell (T : κ → Table) (n : ν) : dids (tell E T n : List (Out κ ν ρ)) = [] := by
  unfold dids
  rw [List.filterMap_eq_nil_iff]
  intro o ho
  rcases mem_tell ho with rfl | ⟨x, -, -, rfl⟩ <;> rfl

theorem H.tell {T : κ → Table} {t : List (Out κ ν ρ)} (h : H E T t) (n : ν) : H E T (t ++ tell E T n) := by
  refine h.quiet ?_ ?_ ?_ ?_ ?_ ?_
  · intro k id mask hm; rcases mem_tell hm with e | ⟨x, -, -, e⟩ <;> cases e
  · intro k id hm; rcases mem_tell hm with e | ⟨x, -, -, e⟩ <;> cases e
  · intro k id mask hm; rw [(handlerCalls_tell (h.keys k) id n).1 mask hm, tolds_tell]
  · intro k id hm; exact (handlerCalls_tell (h.keys k) id n).2 hm
  · intro id n' hm
    rcases mem_tell hm with e | ⟨x, hx, -, e⟩
    · cases e
    · injection e with e1 e2; subst e1 e2; exact ⟨x, hx, rfl⟩
  · intro id n' hm
    rcases mem_tell hm with e | ⟨x, hx, -, e⟩
    · cases e
    · injection e with e1 e2; subst e1 e2; unfold Handling.tell; exact List.mem_cons_self

theorem H.did {T : κ → Table} {t : List (Out κ ν ρ)} (h : H E T t) (l : List ρ) : H E T (t ++ l.map .did) := by
  have hm : ∀ o ∈ l.map (Out.did : ρ → Out κ ν ρ), ∃ r, o = .did r := by
    intro o ho; rw [List.mem_map] at ho; obtain ⟨r, -, rfl⟩ := ho; exact ⟨r, rfl⟩
  have hc : ∀ k id, handlerCalls E.kind k id (l.map (Out.did : ρ → Out κ ν ρ)) = [] := by
    intro k id
    unfold handlerCalls
    rw [List.filterMap_eq_nil_iff]
    intro o ho; obtain ⟨r, rfl⟩ := hm o ho; rfl
  have ht : tolds (l.map (Out.did : ρ → Out κ ν ρ)) = [] := by
    unfold tolds
    rw [List.filterMap_eq_nil_iff]
    intro o ho; obtain ⟨r, rfl⟩ := hm o ho; rfl
  refine h.quiet ?_ ?_ ?_ ?_ ?_ ?_
  · intro k id mask ho; obtain ⟨r, e⟩ := hm _ ho; cases e
  · intro k id ho; obtain ⟨r, e⟩ := hm _ ho; cases e
  · intro k id mask _; rw [hc, ht]; rfl
  · intro k id _; exact hc k id
  · intro id n ho; obtain ⟨r, e⟩ := hm _ ho; cases e
  · intro id n ho; obtain ⟨r, e⟩ := hm _ ho; cases e

theorem snoc_split {α : Type} {t a b : List α} {x y : α} (h : t ++ [x] = a ++ y :: b) :
    (∃ b', t = a ++ y :: b' ∧ b = b' ++ [x]) ∨ (a = t ∧ y = x ∧ b = []) := by
  rcases Util.split_append h with h | ⟨a', e1, e2⟩
  · exact Or.inl h
  · right
    cases a' with
    | nil =>
        simp at e2
        exact ⟨by simpa using e1, e2.1.symm, e2.2⟩
    | cons z a' => simp at e2

theorem H.add {T : κ → Table} {t : List (Out κ ν ρ)} (h : H E T t) (k : κ) (mask : Nat) :
    H E (add T k mask : _ × List (Out κ ν ρ)).1 (t ++ (add T k mask).2) := by
  have e2 : (Handling.add T k mask).2 = [(.added k (T k).next mask : Out κ ν ρ)] := rfl
  have hk : ∀ k', k' ≠ k → (Handling.add T k mask : _ × List (Out κ ν ρ)).1 k' = T k' := by intro k' hne; simp [Handling.add, set, hne]
  have he : ((Handling.add T k mask : _ × List (Out κ ν ρ)).1 k).entries = (T k).entries ++ [((T k).next, mask)] := by simp [Handling.add, set]
  have hnx : ((Handling.add T k mask : _ × List (Out κ ν ρ)).1 k).next = (T k).next + 1 := by simp [Handling.add, set]
  have hle : ∀ k', (T k').next ≤ ((Handling.add T k mask : _ × List (Out κ ν ρ)).1 k').next := by
    intro k'
    by_cases hkk : k' = k
    · subst hkk; omega
    · rw [hk k' hkk]; exact Nat.le_refl _
  have hc : ∀ k' id, handlerCalls E.kind k' id [(.added k (T k).next mask : Out κ ν ρ)] = [] := fun _ _ => rfl
  rw [e2]
  refine ⟨?_, ?_, ?_, ?_, ?_, ?_, ?_, ?_, ?_, ?_⟩
  · intro k'
    by_cases hkk : k' = k
    · subst hkk
      rw [he, List.map_append, List.nodup_append]
      refine ⟨h.keys k', by simp, ?_⟩
      intro x hx y hy
      simp at hy
      have := h.bound k' x hx
      omega
    · rw [hk k' hkk]; exact h.keys k'
  · intro k' id hm
    by_cases hkk : k' = k
    · subst hkk
      rw [he, List.map_append, List.mem_append] at hm
      rw [hnx]
      rcases hm with hm | hm
      · have := h.bound k' id hm; omega
      · simp at hm; omega
    · rw [hk k' hkk] at hm ⊢; exact h.bound k' id hm
  · intro k' id mask' hm
    rw [List.mem_append] at hm
    rcases hm with hm | hm
    · have := h.adds k' id mask' hm
      have := hle k'
      omega
    · simp at hm
      obtain ⟨rfl, rfl, rfl⟩ := hm
      omega
  · intro k' id hid
    rw [handlerCalls_append, hc, List.append_nil]
    have := hle k'
    exact h.fresh k' id (by omega)
  · intro k' id mask' a b e hnr
    rcases snoc_split e with ⟨b', e3, e4⟩ | ⟨e3, e4, e5⟩
    · have hnr' : Out.removed k' id ∉ b' := fun hm => hnr (by rw [e4]; exact List.mem_append_left _ hm)
      obtain ⟨h1, h2, h3⟩ := h.live k' id mask' a b' e3 hnr'
      refine ⟨?_, h2, ?_⟩
      · by_cases hkk : k' = k
        · subst hkk; rw [he]; exact List.mem_append_left _ h1
        · rw [hk k' hkk]; exact h1
      · rw [e4, handlerCalls_append, hc, List.append_nil, h3, tolds_append]
        simp [tolds]
    · injection e4 with e4 e6 e7
      subst e4 e6 e7 e3 e5
      refine ⟨by rw [he]; simp, h.fresh _ _ (Nat.le_refl _), rfl⟩
  · intro k' id a b e hadd
    rcases snoc_split e with ⟨b', e3, e4⟩ | ⟨e3, e4, e5⟩
    · obtain ⟨h1, h2⟩ := h.dead k' id a b' e3 hadd
      refine ⟨?_, by rw [e4, handlerCalls_append, h2]; rfl⟩
      by_cases hkk : k' = k
      · subst hkk
        rw [he, List.map_append, List.mem_append]
        rintro (hm | hm)
        · exact h1 hm
        · obtain ⟨mask', hadd⟩ := hadd
          have := h.adds k' id mask' (by rw [e3]; exact List.mem_append_left _ hadd)
          simp at hm
          omega
      · rw [hk k' hkk]; exact h1
    · cases e4
  · intro k' x hx
    rw [List.mem_append]
    by_cases hkk : k' = k
    · subst hkk
      rw [he, List.mem_append] at hx
      rcases hx with hx | hx
      · exact Or.inl (h.ent k' x hx)
      · right; rw [List.mem_singleton] at hx; rw [hx]; exact List.mem_singleton_self _
    · rw [hk k' hkk] at hx; exact Or.inl (h.ent k' x hx)
  · intro id n hm
    rw [List.mem_append] at hm
    rcases hm with hm | hm
    · obtain ⟨m, h1⟩ := h.calledAdded id n hm; exact ⟨m, List.mem_append_left _ h1⟩
    · simp at hm
  · intro id n hm
    rw [List.mem_append] at hm
    rcases hm with hm | hm
    · exact List.mem_append_left _ (h.calledTold id n hm)
    · simp at hm
  · intro k' id m m' a b e
    rcases snoc_split e with ⟨b', e3, e4⟩ | ⟨e3, e4, e5⟩
    · obtain ⟨h1, h2⟩ := h.once k' id m m' a b' e3
      refine ⟨h1, ?_⟩
      rw [e4, List.mem_append, List.mem_singleton]
      rintro (hm | hm)
      · exact h2 hm
      · injection hm with q1 q2 q3
        subst q1
        have := h.adds k' id m (by rw [e3]; simp)
        omega
    · injection e4 with q1 q2 q3
      subst q1 q2 e3 e5
      refine ⟨?_, by simp⟩
      intro hm
      have := h.adds _ _ _ hm
      omega

theorem H.remove {T : κ → Table} {t : List (Out κ ν ρ)} (h : H E T t) (k : κ) (id : Nat) :
    H E (remove T k id : _ × List (Out κ ν ρ)).1 (t ++ (remove T k id).2) := by
  have e2 : (Handling.remove T k id).2 = [(.removed k id : Out κ ν ρ)] := rfl
  have hk : ∀ k', k' ≠ k → (Handling.remove T k id : _ × List (Out κ ν ρ)).1 k' = T k' := by intro k' hne; simp [Handling.remove, set, hne]
  have he : ((Handling.remove T k id : _ × List (Out κ ν ρ)).1 k).entries = (T k).entries.filter (·.1 != id) := by simp [Handling.remove, set]
  have hnx : ∀ k', ((Handling.remove T k id : _ × List (Out κ ν ρ)).1 k').next = (T k').next := by
    intro k'
    by_cases hkk : k' = k
    · subst hkk; simp [Handling.remove, set]
    · rw [hk k' hkk]
  have hsub : ∀ k', ((Handling.remove T k id : _ × List (Out κ ν ρ)).1 k').entries.Sublist (T k').entries := by
    intro k'
    by_cases hkk : k' = k
    · subst hkk; rw [he]; exact List.filter_sublist
    · rw [hk k' hkk]; exact List.Sublist.refl _
  have hc : ∀ k' id', handlerCalls E.kind k' id' [(.removed k id : Out κ ν ρ)] = [] := fun _ _ => rfl
  rw [e2]
  refine ⟨?_, ?_, ?_, ?_, ?_, ?_, ?_, ?_, ?_, ?_⟩
  · intro k'; exact ((hsub k').map _).nodup (h.keys k')
  · intro k' i hm
    rw [hnx]
    exact h.bound k' i (((hsub k').map _).subset hm)
  · intro k' i mask' hm
    rw [hnx]
    rw [List.mem_append] at hm
    rcases hm with hm | hm
    · exact h.adds k' i mask' hm
    · simp at hm
  · intro k' i hid
    rw [hnx] at hid
    rw [handlerCalls_append, hc, List.append_nil]
    exact h.fresh k' i hid
  · intro k' i mask' a b e hnr
    rcases snoc_split e with ⟨b', e3, e4⟩ | ⟨e3, e4, e5⟩
    · have hnr' : Out.removed k' i ∉ b' := fun hm => hnr (by rw [e4]; exact List.mem_append_left _ hm)
      obtain ⟨h1, h2, h3⟩ := h.live k' i mask' a b' e3 hnr'
      refine ⟨?_, h2, ?_⟩
      · by_cases hkk : k' = k
        · subst hkk
          rw [he, List.mem_filter]
          refine ⟨h1, ?_⟩
          have : i ≠ id := by
            rintro rfl
            exact hnr (by rw [e4]; simp)
          simpa using this
        · rw [hk k' hkk]; exact h1
      · rw [e4, handlerCalls_append, hc, List.append_nil, h3, tolds_append]
        simp [tolds]
    · cases e4
  · intro k' i a b e hadd
    rcases snoc_split e with ⟨b', e3, e4⟩ | ⟨e3, e4, e5⟩
    · obtain ⟨h1, h2⟩ := h.dead k' i a b' e3 hadd
      exact ⟨fun hm => h1 (((hsub k').map _).subset hm), by rw [e4, handlerCalls_append, h2]; rfl⟩
    · injection e4 with e4 e6
      subst e4 e6 e5
      refine ⟨?_, rfl⟩
      rw [he, List.mem_map]
      rintro ⟨x, hx, e⟩
      rw [List.mem_filter] at hx
      simp [e] at hx
  · intro k' x hx; exact List.mem_append_left _ (h.ent k' x ((hsub k').subset hx))
  · intro i n hm
    rw [List.mem_append] at hm
    rcases hm with hm | hm
    · obtain ⟨m, h1⟩ := h.calledAdded i n hm; exact ⟨m, List.mem_append_left _ h1⟩
    · simp at hm
  · intro i n hm
    rw [List.mem_append] at hm
    rcases hm with hm | hm
    · exact List.mem_append_left _ (h.calledTold i n hm)
    · simp at hm
  · intro k' i m m' a b e
    rcases snoc_split e with ⟨b', e3, e4⟩ | ⟨e3, e4, e5⟩
    · obtain ⟨h1, h2⟩ := h.once k' i m m' a b' e3
      refine ⟨h1, ?_⟩
      rw [e4, List.mem_append, List.mem_singleton]
      rintro (hm | hm)
      · exact h2 hm
      · cases hm
    · cases e4

/-! ## What handlers are told, by what else happens -/

/-- All that handlers are told follows, by `f`, from what else happens. -/
structure N (f : List ρ → List ν) (t : List (Out κ ν ρ)) : Prop where
  all : tolds t = f (dids t)
  split : ∀ a k id mask b, t = a ++ .added k id mask :: b → tolds a = f (dids a)

theorem N.nil {f : List ρ → List ν} (h : f [] = []) : N f ([] : List (Out κ ν ρ)) := ⟨h.symm, fun _ _ _ _ _ e => by simp at e⟩

theorem N.quiet {f : List ρ → List ν} {t u : List (Out κ ν ρ)} (h : N f t) (ha : ∀ k id mask, Out.added k id mask ∉ u) (he : tolds (t ++ u) = f (dids (t ++ u))) : N f (t ++ u) := by
  refine ⟨he, ?_⟩
  intro a k id mask b e
  rcases Util.split_append e with ⟨b', e1, -⟩ | ⟨a', e1, e2⟩
  · exact h.split a k id mask b' e1
  · exact absurd (show Out.added k id mask ∈ u by rw [e2]; simp) (ha k id mask)

theorem N.add {f : List ρ → List ν} {t : List (Out κ ν ρ)} (h : N f t) (k : κ) (id mask : Nat) : N f (t ++ [.added k id mask]) := by
  refine ⟨?_, ?_⟩
  · rw [tolds_append, dids_append]; simpa [tolds, dids] using h.all
  · intro a k' id' mask' b e
    rcases snoc_split e with ⟨b', e1, -⟩ | ⟨e1, -, -⟩
    · exact h.split a k' id' mask' b' e1
    · rw [e1]; exact h.all

theorem N.remove {f : List ρ → List ν} {t : List (Out κ ν ρ)} (h : N f t) (k : κ) (id : Nat) : N f (t ++ [.removed k id]) := by
  refine h.quiet (by simp) ?_
  rw [tolds_append, dids_append]; simpa [tolds, dids] using h.all

/-- What a handler is called with. -/
theorem asked {T : κ → Table} {t : List (Out κ ν ρ)} {f : List ρ → List ν} (h : H E T t) (hN : N f t) {k : κ} {id mask : Nat} {a b : List (Out κ ν ρ)}
    (e : t = a ++ .added k id mask :: b) (hr : Out.removed k id ∉ b) :
    handlerCalls E.kind k id a = [] ∧ ∃ rest, f (dids t) = f (dids a) ++ rest ∧
      handlerCalls E.kind k id b = rest.filter (fun n => decide (E.kind n = k) && E.passes mask n) := by
  obtain ⟨-, h2, h3⟩ := h.live k id mask a b e hr
  refine ⟨h2, tolds b, ?_, h3⟩
  rw [← hN.all, ← hN.split a k id mask b e, e, tolds_append]
  simp [tolds]

theorem added_tell {T : κ → Table} {n : ν} (k : κ) (id mask : Nat) : Out.added k id mask ∉ (tell E T n : List (Out κ ν ρ)) := by
  intro hm; rcases mem_tell hm with e | ⟨x, -, -, e⟩ <;> cases e

/-- Called with what was told. -/
theorem H.called_told {T : κ → Table} {t : List (Out κ ν ρ)} (h : H E T t) {id : Nat} {n : ν} (hm : Out.called id n ∈ t) : n ∈ tolds t :=
  List.mem_filterMap.2 ⟨_, h.calledTold id n hm, rfl⟩

end SilKit.Handling
