import Verif.Spec.Handlers
import Verif.Lemmas.Util
/-! # Lemmas about registered handlers -/
namespace SilKit.Handlers
open Spec SilKit.Util

theorem run_append (h : List Event) (e : Event) : run (h ++ [e]) = ((on (run h).1 e).1, (run h).2 ++ (on (run h).1 e).2) := by
  unfold run; rw [List.foldl_append]; rfl

theorem addedIds_append (t u : List Out) : addedIds (t ++ u) = addedIds t ++ addedIds u := by unfold addedIds; rw [List.filterMap_append]

theorem calls_append (k : Nat) (t u : List Out) : calls k (t ++ u) = calls k t ++ calls k u := by unfold calls; rw [List.filterMap_append]

theorem registered_append (t u : List Out) : registered (t ++ u) = u.foldl registeredStep (registered t) := by unfold registered; rw [List.foldl_append]

theorem mem_calls {k id p : Nat} {t : List Out} (h : Out.called k id p ∈ t) : id ∈ calls k t := by
  unfold calls; rw [List.mem_filterMap]; exact ⟨_, h, by simp⟩

theorem of_mem_calls {k id : Nat} {t : List Out} (h : id ∈ calls k t) : ∃ p, Out.called k id p ∈ t := by
  unfold calls at h
  rw [List.mem_filterMap] at h
  obtain ⟨o, ho, e⟩ := h
  cases o <;> simp at e
  obtain ⟨rfl, rfl⟩ := e
  exact ⟨_, ho⟩

theorem insert_last {id p : Nat} {l : List (Nat × Nat)} (h : ∀ x ∈ l, x.1 < id) : insert id p l = l ++ [(id, p)] := by
  induction l with
  | nil => rfl
  | cons x l ih =>
      obtain ⟨k, v⟩ := x
      have h0 : k < id := h (k, v) (by simp)
      rw [insert, if_neg (by omega), if_neg (by omega), ih (fun x hx => h x (List.mem_cons_of_mem _ hx))]; rfl

/-- What holds after every history with few handlers. -/
structure I (s : State) (t : List Out) : Prop where
  ids : addedIds t = List.range s.next
  reg : s.entries.map (·.1) = registered t
  pay : ∀ x ∈ s.entries, Out.added x.1 x.2 ∈ t
  sorted : s.entries.Pairwise (fun x y => x.1 < y.1)
  low : ∀ x ∈ s.entries, x.1 < s.next
  frameKey : s.frames.Pairwise (fun x y => x.1 ≠ y.1)
  frameLow : ∀ f ∈ s.frames, f.1 < s.count ∧ f.2 < s.next ∧ Out.ended f.1 ∉ t
  frameLast : ∀ f ∈ s.frames, ∀ id ∈ calls f.1 t, id ≤ f.2
  frameAll : ∀ f ∈ s.frames, ∀ x ∈ s.entries, x.1 ≤ f.2 → x.1 ∈ calls f.1 t
  order : ∀ k, (calls k t).Pairwise (· < ·)
  fresh : ∀ k, s.count ≤ k → calls k t = [] ∧ Out.ended k ∉ t
  called : ∀ a k id p b, t = a ++ .called k id p :: b → id ∈ registered a ∧ Out.added id p ∈ a
  began : ∀ a k b, t = a ++ .began k :: b → calls k a = []
  ended : ∀ a k b, t = a ++ .ended k :: b → (∀ id ∈ registered a, id ∈ calls k a) ∧ calls k b = []

theorem init_I : I {} [] := by
  refine ⟨rfl, rfl, by simp, by simp, by simp, by simp, by simp, by simp, by simp, by simp [calls], by simp [calls], ?_, ?_, ?_⟩
  · intro a k id p b e; simp at e
  · intro a k b e; simp at e
  · intro a k b e; simp at e

theorem split_singleton {α : Type} {o : α} {t a b : List α} {x : α} (h : t ++ [o] = a ++ x :: b) :
    (∃ b', t = a ++ x :: b' ∧ b = b' ++ [o]) ∨ (a = t ∧ x = o ∧ b = []) := by
  rcases split_append h with h | ⟨a', h1, h2⟩
  · exact Or.inl h
  · right
    cases a' with
    | nil => simp at h2; exact ⟨by simpa using h1, h2.1.symm, h2.2⟩
    | cons y a' => simp at h2

/-- An output that is neither a call nor the end or begin of an invocation. -/
theorem quiet {s : State} {t : List Out} {o : Out} (i : I s t) (hc : ∀ k id p, o ≠ .called k id p) (hb : ∀ k, o ≠ .began k)
    (he : ∀ k, o ≠ .ended k) : (∀ k, calls k (t ++ [o]) = calls k t) ∧
    (∀ a k id p b, t ++ [o] = a ++ .called k id p :: b → id ∈ registered a ∧ Out.added id p ∈ a) ∧
    (∀ a k b, t ++ [o] = a ++ .began k :: b → calls k a = []) ∧
    (∀ a k b, t ++ [o] = a ++ .ended k :: b → (∀ id ∈ registered a, id ∈ calls k a) ∧ calls k b = []) := by
  have hco : ∀ k, calls k [o] = [] := by intro k; cases o <;> first | rfl | exact absurd rfl (hc _ _ _)
  refine ⟨?_, ?_, ?_, ?_⟩
  · intro k; rw [calls_append, hco, List.append_nil]
  · intro a k id p b e
    rcases split_singleton e with ⟨b', e1, -⟩ | ⟨-, h, -⟩
    · exact i.called a k id p b' e1
    · exact absurd h.symm (hc k id p)
  · intro a k b e
    rcases split_singleton e with ⟨b', e1, -⟩ | ⟨-, h, -⟩
    · exact i.began a k b' e1
    · exact absurd h.symm (hb k)
  · intro a k b e
    rcases split_singleton e with ⟨b', e1, e2⟩ | ⟨-, h, -⟩
    · obtain ⟨h1, h2⟩ := i.ended a k b' e1
      exact ⟨h1, by rw [e2, calls_append, h2, hco]; rfl⟩
    · exact absurd h.symm (he k)

theorem add_I {s : State} {t : List Out} (i : I s t) (p : Nat) (hlt : s.next < idRange) : I (add s p).1 (t ++ (add s p).2) := by
  have hid : s.next % idRange = s.next := Nat.mod_eq_of_lt hlt
  have hins : insert s.next p s.entries = s.entries ++ [(s.next, p)] := insert_last i.low
  obtain ⟨q1, q2, q3, q4⟩ := quiet i (o := .added s.next p) (by simp) (by simp) (by simp)
  unfold add
  dsimp only
  rw [hid, hins]
  refine ⟨?_, ?_, ?_, ?_, ?_, i.frameKey, ?_, ?_, ?_, ?_, ?_, q2, q3, q4⟩
  · rw [addedIds_append, i.ids, List.range_succ]; rfl
  · rw [registered_append, List.map_append, i.reg]; rfl
  · intro x hx
    rcases List.mem_append.1 hx with hx | hx
    · exact List.mem_append_left _ (i.pay x hx)
    · simp at hx; subst hx; simp
  · rw [List.pairwise_append]
    refine ⟨i.sorted, by simp, ?_⟩
    intro a ha b hb
    simp at hb; subst hb
    exact i.low a ha
  · intro x hx
    show x.1 < s.next + 1
    rcases List.mem_append.1 hx with hx | hx
    · exact Nat.lt_succ_of_lt (i.low x hx)
    · simp at hx; subst hx; simp
  · intro f hf
    obtain ⟨h1, h2, h3⟩ := i.frameLow f hf
    exact ⟨h1, Nat.lt_succ_of_lt h2, by simp [h3]⟩
  · intro f hf id hid; rw [q1] at hid; exact i.frameLast f hf id hid
  · intro f hf x hx hle
    rw [q1]
    rcases List.mem_append.1 hx with hx | hx
    · exact i.frameAll f hf x hx hle
    · simp at hx; subst hx
      have := (i.frameLow f hf).2.1
      simp at hle; omega
  · intro k; rw [q1]; exact i.order k
  · intro k hk; rw [q1]; exact ⟨(i.fresh k hk).1, by simp [(i.fresh k hk).2]⟩

theorem erase_I {s : State} {t : List Out} (i : I s t) (es : List (Nat × Nat)) (hsub : es.Sublist s.entries) (o : Out)
    (ho : (∃ id, o = .removed id) ∨ o = .cleared) (hreg : es.map (·.1) = registeredStep (registered t) o) : I { s with entries := es } (t ++ [o]) := by
  obtain ⟨q1, q2, q3, q4⟩ := quiet i (o := o) (by rcases ho with ⟨_, rfl⟩ | rfl <;> simp) (by rcases ho with ⟨_, rfl⟩ | rfl <;> simp)
    (by rcases ho with ⟨_, rfl⟩ | rfl <;> simp)
  have ha : addedIds [o] = [] := by rcases ho with ⟨_, rfl⟩ | rfl <;> rfl
  have he : ∀ k, Out.ended k ∉ [o] := by intro k; rcases ho with ⟨_, rfl⟩ | rfl <;> simp
  refine ⟨?_, ?_, ?_, ?_, ?_, i.frameKey, ?_, ?_, ?_, ?_, ?_, q2, q3, q4⟩
  · rw [addedIds_append, i.ids, ha, List.append_nil]
  · rw [registered_append]; exact hreg
  · intro x hx; exact List.mem_append_left _ (i.pay x (hsub.subset hx))
  · exact List.Pairwise.sublist hsub i.sorted
  · intro x hx; exact i.low x (hsub.subset hx)
  · intro f hf
    obtain ⟨h1, h2, h3⟩ := i.frameLow f hf
    exact ⟨h1, h2, fun h => (List.mem_append.1 h).elim (fun h => h3 h) (fun h => he _ h)⟩
  · intro f hf id hid; rw [q1] at hid; exact i.frameLast f hf id hid
  · intro f hf x hx hle; rw [q1]; exact i.frameAll f hf x (hsub.subset hx) hle
  · intro k; rw [q1]; exact i.order k
  · intro k hk
    rw [q1]
    exact ⟨(i.fresh k hk).1, fun h => (List.mem_append.1 h).elim (fun h => (i.fresh k hk).2 h) (fun h => he _ h)⟩

theorem remove_I {s : State} {t : List Out} (i : I s t) (id : Nat) : I (remove s id).1 (t ++ (remove s id).2) := by
  refine erase_I i _ List.filter_sublist _ (Or.inl ⟨id, rfl⟩) ?_
  show _ = (registered t).filter (· != id)
  rw [← i.reg, List.filter_map]; rfl

theorem clear_I {s : State} {t : List Out} (i : I s t) : I (clear s).1 (t ++ (clear s).2) :=
  erase_I i [] (List.nil_sublist _) _ (Or.inr rfl) rfl

/-- A call of the entry `(id, p)` by the invocation `k`. -/
theorem call_I {s s' : State} {t : List Out} (i : I s t) {k id p : Nat} (hm : (id, p) ∈ s.entries)
    (hgt : ∀ id' ∈ calls k t, id' < id) (hne : Out.ended k ∉ t)
    (hkeys : s'.entries = s.entries ∧ s'.next = s.next)
    (hcount : s.count ≤ s'.count ∧ k < s'.count)
    (hf : s'.frames.Pairwise (fun x y => x.1 ≠ y.1)) (hfr : ∀ f ∈ s'.frames, f = (k, id) ∨ (f ∈ s.frames ∧ f.1 ≠ k))
    (hall : ∀ x ∈ s.entries, x.1 ≤ id → x.1 ∈ calls k t ∨ x.1 = id) : I s' (t ++ [.called k id p]) := by
  obtain ⟨hent, hnext⟩ := hkeys
  have hck : ∀ k', calls k' (t ++ [.called k id p]) = calls k' t ++ if k' = k then [id] else [] := by
    intro k'
    rw [calls_append]
    congr 1
    by_cases h : k' = k
    · subst h; simp [calls]
    · have : ¬ k = k' := fun h' => h h'.symm
      simp [calls, h, this]
  refine ⟨?_, ?_, ?_, by rw [hent]; exact i.sorted, by rw [hent, hnext]; exact i.low, hf, ?_, ?_, ?_, ?_, ?_, ?_, ?_, ?_⟩
  · rw [addedIds_append, i.ids, hnext]; simp [addedIds]
  · rw [hent, i.reg, registered_append]; rfl
  · rw [hent]; intro x hx; exact List.mem_append_left _ (i.pay x hx)
  · intro f hf'
    rcases hfr f hf' with rfl | ⟨h, -⟩
    · exact ⟨hcount.2, by rw [hnext]; exact i.low _ hm, by simp [hne]⟩
    · obtain ⟨h1, h2, h3⟩ := i.frameLow f h
      exact ⟨Nat.lt_of_lt_of_le h1 hcount.1, by rw [hnext]; exact h2, by simp [h3]⟩
  · intro f hf' id' hid
    rw [hck] at hid
    rcases hfr f hf' with rfl | ⟨h, hne⟩
    · simp at hid
      rcases hid with h | h
      · exact Nat.le_of_lt (hgt id' h)
      · exact Nat.le_of_eq h
    · rw [if_neg hne, List.append_nil] at hid
      exact i.frameLast f h id' hid
  · intro f hf' x hx hle
    rw [hent] at hx
    rw [hck]
    rcases hfr f hf' with rfl | ⟨h, hne⟩
    · simp
      exact hall x hx hle
    · exact List.mem_append_left _ (i.frameAll f h x hx hle)
  · intro k'
    rw [hck]
    split
    · rename_i h; subst h
      rw [List.pairwise_append]
      exact ⟨i.order k', by simp, by intro a ha b hb; simp at hb; subst hb; exact hgt a ha⟩
    · rw [List.append_nil]; exact i.order k'
  · intro k' hk'
    have h1 : k' ≠ k := by intro h; rw [h] at hk'; omega
    rw [hck, if_neg h1, List.append_nil]
    have := i.fresh k' (Nat.le_trans hcount.1 hk')
    exact ⟨this.1, by simp [this.2]⟩
  · intro a k' id' p' b e
    rcases split_singleton e with ⟨b', e1, -⟩ | ⟨rfl, h, -⟩
    · exact i.called a k' id' p' b' e1
    · cases h
      refine ⟨?_, i.pay _ hm⟩
      rw [← i.reg]
      exact List.mem_map.2 ⟨_, hm, rfl⟩
  · intro a k' b e
    rcases split_singleton e with ⟨b', e1, -⟩ | ⟨-, h, -⟩
    · exact i.began a k' b' e1
    · cases h
  · intro a k' b e
    rcases split_singleton e with ⟨b', e1, e2⟩ | ⟨-, h, -⟩
    · obtain ⟨h1, h2⟩ := i.ended a k' b' e1
      refine ⟨h1, ?_⟩
      rw [e2, calls_append, h2]
      have : k ≠ k' := by rintro rfl; exact hne (by rw [e1]; simp)
      simp [calls, this]
    · cases h

/-- The end of the invocation `k`. -/
theorem end_I {s s' : State} {t : List Out} (i : I s t) {k : Nat} (hkeys : s'.entries = s.entries ∧ s'.next = s.next)
    (hcount : s.count ≤ s'.count ∧ k < s'.count) (hf : s'.frames.Pairwise (fun x y => x.1 ≠ y.1)) (hfr : ∀ f ∈ s'.frames, f ∈ s.frames ∧ f.1 ≠ k)
    (hall : ∀ x ∈ s.entries, x.1 ∈ calls k t) : I s' (t ++ [.ended k]) := by
  obtain ⟨hent, hnext⟩ := hkeys
  have hck : ∀ k', calls k' (t ++ [.ended k]) = calls k' t := by intro k'; rw [calls_append]; simp [calls]
  refine ⟨?_, ?_, ?_, by rw [hent]; exact i.sorted, by rw [hent, hnext]; exact i.low, hf, ?_, ?_, ?_, ?_, ?_, ?_, ?_, ?_⟩
  · rw [addedIds_append, i.ids, hnext]; simp [addedIds]
  · rw [hent, i.reg, registered_append]; rfl
  · rw [hent]; intro x hx; exact List.mem_append_left _ (i.pay x hx)
  · intro f hf'
    obtain ⟨h, hne⟩ := hfr f hf'
    obtain ⟨h1, h2, h3⟩ := i.frameLow f h
    exact ⟨Nat.lt_of_lt_of_le h1 hcount.1, by rw [hnext]; exact h2, by simp [h3, hne]⟩
  · intro f hf' id hid; rw [hck] at hid; exact i.frameLast f (hfr f hf').1 id hid
  · intro f hf' x hx hle; rw [hck]; rw [hent] at hx; exact i.frameAll f (hfr f hf').1 x hx hle
  · intro k'; rw [hck]; exact i.order k'
  · intro k' hk'
    have h1 : k' ≠ k := by intro h; rw [h] at hk'; omega
    rw [hck]
    have := i.fresh k' (Nat.le_trans hcount.1 hk')
    exact ⟨this.1, by simp [this.2, h1]⟩
  · intro a k' id' p' b e
    rcases split_singleton e with ⟨b', e1, -⟩ | ⟨-, h, -⟩
    · exact i.called a k' id' p' b' e1
    · cases h
  · intro a k' b e
    rcases split_singleton e with ⟨b', e1, -⟩ | ⟨-, h, -⟩
    · exact i.began a k' b' e1
    · cases h
  · intro a k' b e
    rcases split_singleton e with ⟨b', e1, e2⟩ | ⟨rfl, h, rfl⟩
    · obtain ⟨h1, h2⟩ := i.ended a k' b' e1
      exact ⟨h1, by rw [e2, calls_append, h2]; rfl⟩
    · cases h
      refine ⟨?_, rfl⟩
      intro id hid
      rw [← i.reg] at hid
      obtain ⟨x, hx, rfl⟩ := List.mem_map.1 hid
      exact hall x hx

/-- The begin of an invocation. -/
theorem begin_I {s : State} {t : List Out} (i : I s t) : I s (t ++ [.began s.count]) := by
  have hck : ∀ k', calls k' (t ++ [.began s.count]) = calls k' t := by intro k'; rw [calls_append]; simp [calls]
  refine ⟨?_, ?_, ?_, i.sorted, i.low, i.frameKey, ?_, ?_, ?_, ?_, ?_, ?_, ?_, ?_⟩
  · rw [addedIds_append, i.ids]; simp [addedIds]
  · rw [i.reg, registered_append]; rfl
  · intro x hx; exact List.mem_append_left _ (i.pay x hx)
  · intro f hf; obtain ⟨h1, h2, h3⟩ := i.frameLow f hf; exact ⟨h1, h2, by simp [h3]⟩
  · intro f hf id hid; rw [hck] at hid; exact i.frameLast f hf id hid
  · intro f hf x hx hle; rw [hck]; exact i.frameAll f hf x hx hle
  · intro k'; rw [hck]; exact i.order k'
  · intro k' hk'; rw [hck]; exact ⟨(i.fresh k' hk').1, by simp [(i.fresh k' hk').2]⟩
  · intro a k' id' p' b e
    rcases split_singleton e with ⟨b', e1, -⟩ | ⟨-, h, -⟩
    · exact i.called a k' id' p' b' e1
    · cases h
  · intro a k' b e
    rcases split_singleton e with ⟨b', e1, -⟩ | ⟨rfl, h, -⟩
    · exact i.began a k' b' e1
    · cases h; exact (i.fresh s.count (Nat.le_refl _)).1
  · intro a k' b e
    rcases split_singleton e with ⟨b', e1, e2⟩ | ⟨-, h, -⟩
    · obtain ⟨h1, h2⟩ := i.ended a k' b' e1
      exact ⟨h1, by rw [e2, calls_append, h2]; rfl⟩
    · cases h

theorem invoke_I {s : State} {t : List Out} (i : I s t) : I (invoke s).1 (t ++ (invoke s).2) := by
  have ib := begin_I i
  have hfresh := ib.fresh s.count (Nat.le_refl _)
  unfold invoke
  split
  · rename_i he
    dsimp only
    rw [show [Out.began s.count, .ended s.count] = [.began s.count] ++ [.ended s.count] from rfl, ← List.append_assoc]
    refine end_I ib ⟨rfl, rfl⟩ ⟨by simp, by simp⟩ i.frameKey ?_ ?_
    · intro f hf; exact ⟨hf, Nat.ne_of_lt (i.frameLow f hf).1⟩
    · rw [he]; simp
  · rename_i id p l he
    dsimp only
    rw [show [Out.began s.count, .called s.count id p] = [.began s.count] ++ [.called s.count id p] from rfl, ← List.append_assoc]
    refine call_I ib (by rw [he]; simp) ?_ hfresh.2 ⟨rfl, rfl⟩ ⟨by simp, by simp⟩ ?_ ?_ ?_
    · rw [hfresh.1]; simp
    · refine List.pairwise_cons.2 ⟨?_, i.frameKey⟩
      intro f hf; exact (Nat.ne_of_lt (i.frameLow f hf).1).symm
    · intro f hf
      rcases List.mem_cons.1 hf with h | h
      · exact Or.inl h
      · exact Or.inr ⟨h, Nat.ne_of_lt (i.frameLow f h).1⟩
    · intro x hx hle
      right
      have hs := i.sorted
      rw [he] at hx hs
      rcases List.mem_cons.1 hx with rfl | hx
      · rfl
      · have := (List.pairwise_cons.1 hs).1 x hx
        simp at this; omega

theorem find_gt {l : List (Nat × Nat)} (hs : l.Pairwise (fun x y => x.1 < y.1)) {c : Nat} {y : Nat × Nat}
    (h : l.find? (fun e => decide (c < e.1)) = some y) : ∀ x ∈ l, c < x.1 → y.1 ≤ x.1 := by
  induction l with
  | nil => simp at h
  | cons z l ih =>
      have hs' := List.pairwise_cons.1 hs
      intro x hx hc
      rw [List.find?_cons] at h
      by_cases hz : c < z.1
      · simp [hz] at h; subst h
        rcases List.mem_cons.1 hx with rfl | hx
        · exact Nat.le_refl _
        · exact Nat.le_of_lt (hs'.1 x hx)
      · simp [hz] at h
        rcases List.mem_cons.1 hx with rfl | hx
        · exact absurd hc hz
        · exact ih hs'.2 h x hx hc

theorem ret_I {s : State} {t : List Out} (i : I s t) : I (ret s).1 (t ++ (ret s).2) := by
  unfold ret
  split
  · rw [List.append_nil]; exact i
  · rename_i k c fs hfr
    have hmem : (k, c) ∈ s.frames := by rw [hfr]; simp
    obtain ⟨hk, hc, hne⟩ := i.frameLow _ hmem
    have hkeys := i.frameKey
    rw [hfr] at hkeys
    have hk' := List.pairwise_cons.1 hkeys
    split
    · split
      · rename_i hfind
        dsimp only
        refine end_I i ⟨rfl, rfl⟩ ⟨by simp, hk⟩ hk'.2 ?_ ?_
        · intro f hf; exact ⟨by rw [hfr]; exact List.mem_cons_of_mem _ hf, (hk'.1 f hf).symm⟩
        · intro x hx
          have := List.find?_eq_none.1 hfind x hx
          simp at this
          exact i.frameAll _ hmem x hx this
      · rename_i id p hfind
        dsimp only
        have hin := List.mem_of_find?_eq_some hfind
        have hgt : c < id := by have := List.find?_some hfind; simpa using this
        refine call_I i hin ?_ hne ⟨rfl, rfl⟩ ⟨by simp, hk⟩ ?_ ?_ ?_
        · intro id' hid'; exact Nat.lt_of_le_of_lt (i.frameLast _ hmem id' hid') hgt
        · exact List.pairwise_cons.2 ⟨hk'.1, hk'.2⟩
        · intro f hf
          rcases List.mem_cons.1 hf with h | h
          · exact Or.inl h
          · exact Or.inr ⟨by rw [hfr]; exact List.mem_cons_of_mem _ h, (hk'.1 f h).symm⟩
        · intro x hx hle
          by_cases hxc : x.1 ≤ c
          · exact Or.inl (i.frameAll _ hmem x hx hxc)
          · right
            have := find_gt i.sorted hfind x hx (by omega)
            simp at this; omega
    · dsimp only
      obtain ⟨q1, q2, q3, q4⟩ := quiet i (o := .undefined) (by simp) (by simp) (by simp)
      refine ⟨?_, ?_, ?_, i.sorted, i.low, i.frameKey, ?_, ?_, ?_, ?_, ?_, q2, q3, q4⟩
      · rw [addedIds_append, i.ids]; simp [addedIds]
      · rw [i.reg, registered_append]; rfl
      · intro x hx; exact List.mem_append_left _ (i.pay x hx)
      · intro f hf; obtain ⟨h1, h2, h3⟩ := i.frameLow f hf; exact ⟨h1, h2, by simp [h3]⟩
      · intro f hf id hid; rw [q1] at hid; exact i.frameLast f hf id hid
      · intro f hf x hx hle; rw [q1]; exact i.frameAll f hf x hx hle
      · intro k'; rw [q1]; exact i.order k'
      · intro k' hk'; rw [q1]; exact ⟨(i.fresh k' hk').1, by simp [(i.fresh k' hk').2]⟩

/-- The number of added handlers. -/
def adds (h : List Event) : Nat := (h.filter (fun | .add _ => true | _ => false)).length

theorem adds_append (h : List Event) (e : Event) : adds (h ++ [e]) = adds h + adds [e] := by
  unfold adds; rw [List.filter_append, List.length_append]

theorem on_next (s : State) (e : Event) : (on s e).1.next ≤ s.next + adds [e] := by
  unfold on
  split
  · simp
  · cases e with
    | add p => simp [add, adds]
    | remove id => simp [remove]
    | clear => simp [clear]
    | invoke => simp only [invoke]; split <;> simp
    | ret =>
        simp only [ret]
        split
        · simp
        · split
          · split <;> simp
          · simp

theorem run_next (h : List Event) : (run h).1.next ≤ adds h := by
  rw [← List.reverse_reverse h]
  induction h.reverse with
  | nil => simp [run]
  | cons e h ih =>
      rw [List.reverse_cons, run_append, adds_append]
      have := on_next (run h.reverse).1 e
      simp only
      omega

theorem run_I (h : List Event) (hf : FewHandlers h) : I (run h).1 (run h).2 := by
  have hf' : adds h ≤ idRange := hf
  clear hf
  revert hf'
  rw [← List.reverse_reverse h]
  induction h.reverse with
  | nil => intro _; exact init_I
  | cons e h ih =>
      intro hf
      rw [List.reverse_cons, adds_append] at hf
      have i := ih (by omega)
      have hn := run_next h.reverse
      rw [List.reverse_cons, run_append]
      simp only
      unfold on
      split
      · rw [List.append_nil]; exact i
      · cases e with
        | add p =>
            have e : adds [Event.add p] = 1 := rfl
            exact add_I i p (by omega)
        | remove id => exact remove_I i id
        | clear => exact clear_I i
        | invoke => exact invoke_I i
        | ret => exact ret_I i

/-! ## Undefined behaviour -/

/-- After `t`, the invocation `k` is in its call of the handler `id`. -/
def Exec (k id : Nat) (t : List Out) : Prop := ∃ p a b, t = a ++ .called k id p :: b ∧ Out.ended k ∉ b ∧ ∀ id' p', Out.called k id' p' ∉ b

theorem Exec.mono {k id : Nat} {t u : List Out} (h : Exec k id t) (h1 : Out.ended k ∉ u) (h2 : ∀ id' p', Out.called k id' p' ∉ u) : Exec k id (t ++ u) := by
  obtain ⟨p, a, b, e, h3, h4⟩ := h
  refine ⟨p, a, b ++ u, by rw [e]; simp, ?_, ?_⟩
  · intro h; exact (List.mem_append.1 h).elim h3 h1
  · intro id' p' h; exact (List.mem_append.1 h).elim (fun h => h4 id' p' h) (fun h => h2 id' p' h)

theorem safe_prefix {t u : List Out} (h : SafeRemovals (t ++ u)) : SafeRemovals t := by
  refine ⟨fun a id b e => h.1 a id (b ++ u) (by rw [e]; simp), fun a b e => h.2 a (b ++ u) (by rw [e]; simp)⟩

/-- Everything that is being executed is registered. -/
structure J (s : State) (t : List Out) : Prop where
  key : s.frames.Pairwise (fun x y => x.1 ≠ y.1)
  low : ∀ f ∈ s.frames, f.1 < s.count
  exec : ∀ f ∈ s.frames, Exec f.1 f.2 t
  reg : SafeRemovals t → ∀ f ∈ s.frames, ∃ x ∈ s.entries, x.1 = f.2
  ub : SafeRemovals t → s.ub = false ∧ Out.undefined ∉ t

theorem insert_keys (id p : Nat) (l : List (Nat × Nat)) {c : Nat} (h : ∃ x ∈ l, x.1 = c) : ∃ x ∈ insert id p l, x.1 = c := by
  induction l with
  | nil => obtain ⟨x, hx, -⟩ := h; cases hx
  | cons y l ih =>
      obtain ⟨k, v⟩ := y
      obtain ⟨x, hx, hc⟩ := h
      unfold insert
      split
      · exact ⟨x, List.mem_cons_of_mem _ hx, hc⟩
      · split
        · exact ⟨x, hx, hc⟩
        · rcases List.mem_cons.1 hx with rfl | hx
          · exact ⟨_, by simp, hc⟩
          · obtain ⟨z, hz, hzc⟩ := ih ⟨x, hx, hc⟩
            exact ⟨z, List.mem_cons_of_mem _ hz, hzc⟩

theorem on_J {s : State} {t : List Out} (j : J s t) (e : Event) : J (on s e).1 (t ++ (on s e).2) := by
  have hexec : ∀ u : List Out, (∀ f ∈ s.frames, Out.ended f.1 ∉ u ∧ ∀ id' p', Out.called f.1 id' p' ∉ u) → ∀ f ∈ s.frames, Exec f.1 f.2 (t ++ u) :=
    fun u h f hf => (j.exec f hf).mono (h f hf).1 (h f hf).2
  unfold on
  split
  · rw [List.append_nil]; exact j
  · cases e with
    | add p =>
        simp only [add]
        refine ⟨j.key, j.low, hexec _ (by simp), ?_, ?_⟩
        · intro hs f hf; exact insert_keys _ _ _ (j.reg (safe_prefix hs) f hf)
        · intro hs; exact ⟨(j.ub (safe_prefix hs)).1, by simp [(j.ub (safe_prefix hs)).2]⟩
    | remove id =>
        simp only [remove]
        refine ⟨j.key, j.low, hexec _ (by simp), ?_, ?_⟩
        · intro hs f hf
          obtain ⟨x, hx, e⟩ := j.reg (safe_prefix hs) f hf
          refine ⟨x, List.mem_filter.2 ⟨hx, ?_⟩, e⟩
          have : x.1 ≠ id := by
            rintro rfl
            obtain ⟨p, a, b, h⟩ := j.exec f hf
            exact hs.1 t x.1 [] rfl ⟨f.1, p, a, b, by rw [e]; exact h⟩
          simpa using this
        · intro hs; exact ⟨(j.ub (safe_prefix hs)).1, by simp [(j.ub (safe_prefix hs)).2]⟩
    | clear =>
        simp only [clear]
        refine ⟨j.key, j.low, hexec _ (by simp), ?_, ?_⟩
        · intro hs f hf
          obtain ⟨p, a, b, h⟩ := j.exec f hf
          exact absurd ⟨f.1, p, a, b, h⟩ (hs.2 t [] rfl f.2)
        · intro hs; exact ⟨(j.ub (safe_prefix hs)).1, by simp [(j.ub (safe_prefix hs)).2]⟩
    | invoke =>
        simp only [invoke]
        split
        · dsimp only
          refine ⟨j.key, fun f hf => Nat.lt_succ_of_lt (j.low f hf), hexec _ ?_, fun hs => j.reg (safe_prefix hs), ?_⟩
          · intro f hf; have := j.low f hf; simp; omega
          · intro hs; exact ⟨(j.ub (safe_prefix hs)).1, by simp [(j.ub (safe_prefix hs)).2]⟩
        · rename_i id p l he
          dsimp only
          refine ⟨?_, ?_, ?_, ?_, ?_⟩
          · exact List.pairwise_cons.2 ⟨fun f hf => (Nat.ne_of_lt (j.low f hf)).symm, j.key⟩
          · intro f hf
            rcases List.mem_cons.1 hf with rfl | hf
            · simp
            · exact Nat.lt_succ_of_lt (j.low f hf)
          · intro f hf
            rcases List.mem_cons.1 hf with rfl | hf
            · exact ⟨p, t ++ [.began s.count], [], by simp, by simp, by simp⟩
            · refine hexec _ ?_ f hf
              intro f hf; have := j.low f hf; simp; omega
          · intro hs f hf
            rcases List.mem_cons.1 hf with rfl | hf
            · exact ⟨(id, p), by rw [he]; simp, rfl⟩
            · exact j.reg (safe_prefix hs) f hf
          · intro hs; exact ⟨(j.ub (safe_prefix hs)).1, by simp [(j.ub (safe_prefix hs)).2]⟩
    | ret =>
        simp only [ret]
        split
        · rw [List.append_nil]; exact j
        · rename_i k c fs hfr
          have hkeys := j.key
          rw [hfr] at hkeys
          have hk' := List.pairwise_cons.1 hkeys
          have hsub : ∀ f ∈ fs, f ∈ s.frames := fun f hf => by rw [hfr]; exact List.mem_cons_of_mem _ hf
          have hmem : (k, c) ∈ s.frames := by rw [hfr]; simp
          split
          · split
            · dsimp only
              refine ⟨hk'.2, fun f hf => j.low f (hsub f hf), ?_, fun hs f hf => j.reg (safe_prefix hs) f (hsub f hf), ?_⟩
              · intro f hf
                have hne : k ≠ f.1 := hk'.1 f hf
                exact (j.exec f (hsub f hf)).mono (by simp; exact fun h => hne h.symm) (by simp)
              · intro hs; exact ⟨(j.ub (safe_prefix hs)).1, by simp [(j.ub (safe_prefix hs)).2]⟩
            · rename_i id p hfind
              dsimp only
              refine ⟨List.pairwise_cons.2 ⟨hk'.1, hk'.2⟩, ?_, ?_, ?_, ?_⟩
              · intro f hf
                rcases List.mem_cons.1 hf with rfl | hf
                · exact j.low (k, c) hmem
                · exact j.low f (hsub f hf)
              · intro f hf
                rcases List.mem_cons.1 hf with rfl | hf
                · exact ⟨p, t, [], rfl, by simp, by simp⟩
                · have hne : k ≠ f.1 := hk'.1 f hf
                  exact (j.exec f (hsub f hf)).mono (by simp) (by simp; exact fun _ _ h => absurd h.symm hne)
              · intro hs f hf
                rcases List.mem_cons.1 hf with rfl | hf
                · exact ⟨_, List.mem_of_find?_eq_some hfind, rfl⟩
                · exact j.reg (safe_prefix hs) f (hsub f hf)
              · intro hs; exact ⟨(j.ub (safe_prefix hs)).1, by simp [(j.ub (safe_prefix hs)).2]⟩
          · rename_i hany
            dsimp only
            have hbad : ¬ SafeRemovals (t ++ [.undefined]) := by
              intro hs
              obtain ⟨x, hx, e⟩ := j.reg (safe_prefix hs) _ hmem
              exact hany (List.any_eq_true.2 ⟨x, hx, by simpa using e⟩)
            exact ⟨j.key, j.low, hexec _ (by simp), fun hs => absurd hs hbad, fun hs => absurd hs hbad⟩

theorem run_J (h : List Event) : J (run h).1 (run h).2 := by
  rw [← List.reverse_reverse h]
  induction h.reverse with
  | nil => exact ⟨by simp [run], by simp [run], by simp [run], by simp [run], by simp [run]⟩
  | cons e h ih => rw [List.reverse_cons, run_append]; exact on_J ih e

/-! ## Sorted lists -/

theorem sorted_ext {a b : List Nat} (ha : a.Pairwise (· < ·)) (hb : b.Pairwise (· < ·)) (h : ∀ x, x ∈ a ↔ x ∈ b) : a = b := by
  induction a generalizing b with
  | nil =>
      cases b with
      | nil => rfl
      | cons y b => exact absurd ((h y).2 (by simp)) (by simp)
  | cons x a ih =>
      cases b with
      | nil => exact absurd ((h x).1 (by simp)) (by simp)
      | cons y b =>
          have ha' := List.pairwise_cons.1 ha
          have hb' := List.pairwise_cons.1 hb
          have hxy : x = y := by
            rcases List.mem_cons.1 ((h x).1 (by simp)) with e | h1
            · exact e
            · rcases List.mem_cons.1 ((h y).2 (by simp)) with e | h2
              · exact e.symm
              · have := ha'.1 y h2; have := hb'.1 x h1; omega
          subst hxy
          congr 1
          refine ih ha'.2 hb'.2 ?_
          intro z
          constructor
          · intro hz
            rcases List.mem_cons.1 ((h z).1 (List.mem_cons_of_mem _ hz)) with rfl | h1
            · exact absurd (ha'.1 _ hz) (Nat.lt_irrefl _)
            · exact h1
          · intro hz
            rcases List.mem_cons.1 ((h z).2 (List.mem_cons_of_mem _ hz)) with rfl | h1
            · exact absurd (hb'.1 _ hz) (Nat.lt_irrefl _)
            · exact h1

theorem foldl_registered_sorted (l : List Out) (r : List Nat) (n : Nat) (hr : r.Pairwise (· < ·)) (hlow : ∀ x ∈ r, x < n)
    (hl : addedIds l = (List.range (addedIds l).length).map (n + ·)) : (l.foldl registeredStep r).Pairwise (· < ·) := by
  induction l generalizing r n with
  | nil => exact hr
  | cons o l ih =>
      rw [List.foldl_cons]
      cases o with
      | added id p =>
          have e1 : addedIds (Out.added id p :: l) = id :: addedIds l := rfl
          rw [e1, List.length_cons, List.range_succ_eq_map, List.map_cons, List.map_map] at hl
          simp only [List.cons.injEq] at hl
          obtain ⟨h1, h2⟩ := hl
          refine ih (registeredStep r (.added id p)) (n + 1) ?_ ?_ ?_
          · simp only [registeredStep]
            rw [List.pairwise_append]
            exact ⟨hr, by simp, by intro a ha b hb; simp at hb; subst hb; have := hlow a ha; omega⟩
          · intro x hx
            simp only [registeredStep, List.mem_append, List.mem_singleton] at hx
            rcases hx with hx | hx
            · have := hlow x hx; omega
            · omega
          · rw [h2]
            simp only [List.length_map, List.length_range]
            refine List.map_congr_left ?_
            intro x _
            simp; omega
      | removed id =>
          exact ih _ n (List.Pairwise.sublist List.filter_sublist hr) (fun x hx => hlow x (List.mem_filter.1 hx).1) hl
      | cleared => exact ih _ n List.Pairwise.nil (by simp [registeredStep]) hl
      | began k => exact ih _ n hr hlow hl
      | called k id p => exact ih _ n hr hlow hl
      | ended k => exact ih _ n hr hlow hl
      | undefined => exact ih _ n hr hlow hl

theorem registered_sorted (h : List Event) (hf : FewHandlers h) (a b : List Out) (e : trace h = a ++ b) : (registered a).Pairwise (· < ·) := by
  refine foldl_registered_sorted a [] 0 List.Pairwise.nil (by simp) ?_
  have hi : addedIds (trace h) = List.range _ := (run_I h hf).ids
  rw [e, addedIds_append] at hi
  have hlen := congrArg List.length hi
  simp at hlen
  have := congrArg (List.take (addedIds a).length) hi
  rw [List.take_left, List.take_range] at this
  rw [this]
  simp

/-! ## Handlers that add handlers -/

theorem growing (n : Nat) (hn : n + 1 < idRange) :
    (run ([.add 7, .invoke] ++ (List.replicate n [Event.add 7, .ret]).flatten)).1 =
      { entries := (List.range (n + 1)).map (fun i => (i, 7)), next := n + 1, frames := [(0, n)], count := 1, ub := false } ∧
    (run ([.add 7, .invoke] ++ (List.replicate n [Event.add 7, .ret]).flatten)).2 =
      [.added 0 7, .began 0, .called 0 0 7] ++ ((List.range n).map (fun i => [Out.added (i + 1) 7, .called 0 (i + 1) 7])).flatten := by
  induction n with
  | zero =>
      have h0 : 0 % idRange = 0 := Nat.zero_mod _
      constructor <;> simp [run, on, add, insert, invoke, h0]
  | succ n ih =>
      obtain ⟨i1, i2⟩ := ih (by omega)
      have e : [Event.add 7, .invoke] ++ (List.replicate (n + 1) [Event.add 7, .ret]).flatten =
          ([Event.add 7, .invoke] ++ (List.replicate n [Event.add 7, .ret]).flatten) ++ [.add 7] ++ [.ret] := by
        rw [List.replicate_succ']; simp
      rw [e, run_append, run_append, i1, i2]
      have hmod : (n + 1) % idRange = n + 1 := Nat.mod_eq_of_lt (by omega)
      have hins : insert (n + 1) 7 ((List.range (n + 1)).map (fun i => (i, 7))) = (List.range (n + 2)).map (fun i => (i, 7)) := by
        rw [insert_last, List.range_succ (n := n + 1), List.map_append]
        · rfl
        · intro x hx
          obtain ⟨i, hi, rfl⟩ := List.mem_map.1 hx
          simpa using hi
      have hany : ((List.range (n + 2)).map (fun i => (i, 7))).any (fun x => x.1 == n) = true := by
        rw [List.any_eq_true]
        exact ⟨(n, 7), List.mem_map.2 ⟨n, by simp, rfl⟩, by simp⟩
      have hfind : ((List.range (n + 2)).map (fun i => (i, 7))).find? (fun x => decide (n < x.1)) = some (n + 1, 7) := by
        rw [List.range_succ (n := n + 1), List.map_append, List.find?_append]
        have : ((List.range (n + 1)).map (fun i => (i, 7))).find? (fun x => decide (n < x.1)) = none := by
          rw [List.find?_eq_none]
          intro x hx
          obtain ⟨i, hi, rfl⟩ := List.mem_map.1 hx
          simp at hi ⊢; omega
        rw [this]; simp
      constructor
      · simp only [on, add, ret, hmod, hins, hany, hfind, Bool.false_eq_true, if_false, if_true]
      · simp only [on, add, ret, hmod, hins, hany, hfind, Bool.false_eq_true, if_false, if_true]
        rw [List.range_succ (n := n), List.map_append, List.flatten_append]
        simp

theorem growing_calls (n : Nat) : calls 0 ([.added 0 7, .began 0, .called 0 0 7] ++
    ((List.range n).map (fun i => [Out.added (i + 1) 7, .called 0 (i + 1) 7])).flatten) = List.range (n + 1) := by
  induction n with
  | zero => rfl
  | succ n ih =>
      rw [List.range_succ (n := n), List.map_append, List.flatten_append, ← List.append_assoc, calls_append, ih, List.range_succ (n := n + 1)]
      congr 1

end SilKit.Handlers
