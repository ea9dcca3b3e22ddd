import Verif.Spec.ServiceDiscovery
/-!
# Invariant of service discovery
-/
namespace SilKit.ServiceDiscovery
open Spec

/-- Alternating, and ending with `created` exactly when alive. -/
def Tracks (l : List Bool) (alive : Bool) : Prop := Alternating l ∧ (l.length % 2 == 1) = alive

theorem tracks_nil : Tracks [] false := ⟨fun i h => by simp at h, rfl⟩

theorem tracks_snoc {l : List Bool} {a : Bool} (h : Tracks l a) : Tracks (l ++ [!a]) (!a) := by
  obtain ⟨h1, h2⟩ := h
  constructor
  · intro i hi
    rw [List.getElem_append]
    split
    · exact h1 i _
    · have : i = l.length := by simp at hi; omega
      subst this
      subst h2
      simp
      rcases Nat.mod_two_eq_zero_or_one l.length with h | h <;> simp [h]
  · subst h2
    simp only [List.length_append, List.length_singleton]
    rcases Nat.mod_two_eq_zero_or_one l.length with h | h
    · have : (l.length + 1) % 2 = 1 := by omega
      simp [h, this]
    · have : (l.length + 1) % 2 = 0 := by omega
      simp [h, this]

theorem tracks_add {l : List Bool} {a b : Bool} (h : Tracks l a) (ha : b = true → a = false) :
    Tracks (l ++ if b then [true] else []) (a || b) := by
  cases b with
  | false => simpa using h
  | true => have := ha rfl; subst this; exact tracks_snoc h

theorem tracks_remove {l : List Bool} {a b : Bool} (h : Tracks l a) (ha : b = true → a = true) :
    Tracks (l ++ if b then [false] else []) (a && !b) := by
  cases b with
  | false => simpa using h
  | true => have := ha rfl; subst this; exact tracks_snoc h

@[simp] theorem heard_append (i : Nat) (k) (a b : List Output) : heard i k (a ++ b) = heard i k a ++ heard i k b := by
  simp [heard]
@[simp] theorem indexed_append (k) (a b : List Output) : indexed k (a ++ b) = indexed k a ++ indexed k b := by
  simp [indexed]
@[simp] theorem heard_nil (i : Nat) (k) : heard i k [] = [] := rfl
@[simp] theorem indexed_nil (k) : indexed k [] = [] := rfl

theorem heard_callHandlers (i : Nat) (k) (s : State) (c : Bool) (d : Desc) :
    heard i k (s.callHandlers c d) = if i < s.handlers ∧ ident d = k then [c] else [] := by
  unfold State.callHandlers
  induction s.handlers with
  | zero => simp [heard]
  | succ n ih =>
    rw [List.range_succ, List.map_append, heard_append, ih]
    simp only [heard, List.map_cons, List.map_nil, List.filterMap_cons, List.filterMap_nil]
    by_cases hk : ident d = k
    · by_cases hi : i = n
      · subst hi; simp [hk]
      · have : ¬ n = i := fun h => hi h.symm
        by_cases hlt : i < n
        · simp [hk, this, hlt, Nat.lt_succ_of_lt hlt]
        · have : ¬ i < n + 1 := by omega
          simp [*]
    · simp [hk]

theorem indexed_callHandlers (k) (s : State) (c : Bool) (d : Desc) : indexed k (s.callHandlers c d) = [] := by
  simp [indexed, State.callHandlers]

theorem heard_change (i : Nat) (k) (s : State) (c : Bool) (d : Desc) :
    heard i k (.store c d :: s.callHandlers c d) = if i < s.handlers ∧ ident d = k then [c] else [] := by
  rw [← heard_callHandlers]; rfl

theorem indexed_change (k) (s : State) (c : Bool) (d : Desc) :
    indexed k (.store c d :: s.callHandlers c d) = if ident d = k then [c] else [] := by
  have h : indexed k (.store c d :: s.callHandlers c d) = indexed k [.store c d] ++ indexed k (s.callHandlers c d) := by
    rw [← indexed_append]; rfl
  rw [h, indexed_callHandlers]
  simp [indexed]
  by_cases hk : ident d = k <;> simp [hk]

/-- The invariant. -/
structure Inv (s : State) (outs : List Output) (al : String × List Char → Bool) : Prop where
  entry : ∀ p e, e ∈ s.byParticipant p → e.1 = e.2.key ∧ e.2.participant = p
  nodup : ∀ p, ((s.byParticipant p).map (·.1)).Nodup
  has : ∀ p k, (s.byParticipant p).has k = al (p, k)
  known : ∀ p, p ∉ s.known → s.byParticipant p = []
  knownNodup : s.known.Nodup
  told : ∀ i k, i < s.handlers → Tracks (heard i k outs) (al k)
  untold : ∀ i k, s.handlers ≤ i → heard i k outs = []
  index : ∀ k, Tracks (indexed k outs) (al k)

theorem inv_init (self : String) : Inv { self := self } [] (fun _ => false) where
  entry := by intro p e h; simp at h
  nodup := by intro p; exact List.nodup_nil
  has := by intro p k; rfl
  known := by intro p _; rfl
  knownNodup := List.nodup_nil
  told := by intro i k h; simp at h
  untold := by intro i k _; rfl
  index := by intro k; exact tracks_nil

theorem inv_touch {s outs al} (h : Inv s outs al) (p : String) : Inv (s.touch p) outs al :=
  { h with
    known := by
      intro q hq
      apply h.known
      intro hmem
      apply hq
      simp only [State.touch]
      split <;> simp [hmem]
    knownNodup := by
      simp only [State.touch]
      split
      · exact h.knownNodup
      · next hp =>
        simp only [List.nodup_append, h.knownNodup, true_and]
        exact ⟨by simp, fun a ha b hb => by simp at hb; subst hb; exact fun e => hp (e ▸ ha)⟩ }

theorem has_iff (m : ServiceMap) (k) : m.has k = true ↔ k ∈ m.map (·.1) := by
  simp only [ServiceMap.has, List.any_eq_true, beq_iff_eq, List.mem_map]

theorem touch_mem (s : State) (p : String) : p ∈ (s.touch p).known := by
  simp only [State.touch]; split <;> simp_all

/-- Adding a service that is not there yet. -/
theorem inv_add {s outs al} (h : Inv s outs al) (d : Desc) (hk : d.participant ∈ s.known)
    (hn : (s.byParticipant d.participant).has d.key = false) (pre : List Output)
    (hpre : ∀ i k, heard i k pre = []) (hpre' : ∀ k, indexed k pre = []) :
    Inv (s.put d.participant (s.byParticipant d.participant ++ [(d.key, d)]))
      (outs ++ (pre ++ .store true d ::
        (s.put d.participant (s.byParticipant d.participant ++ [(d.key, d)])).callHandlers true d))
      (fun k => al k || ident d == k) where
  entry := by
    intro p e he
    simp only [State.put] at he
    split at he
    · next hp =>
      subst hp
      rcases List.mem_append.mp he with he | he
      · exact h.entry _ e he
      · simp at he; subst he; exact ⟨rfl, rfl⟩
    · exact h.entry _ e he
  nodup := by
    intro p
    simp only [State.put]
    split
    · have hn' : d.key ∉ (s.byParticipant d.participant).map (·.1) := by
        rw [← has_iff, hn]; simp
      simp only [List.map_append, List.map_cons, List.map_nil, List.nodup_append, h.nodup, true_and]
      exact ⟨by simp, fun a ha b hb => by simp at hb; subst hb; exact fun e => hn' (e ▸ ha)⟩
    · exact h.nodup p
  has := by
    intro p k
    have := h.has p k
    simp only [State.put]
    split
    · next hp =>
      subst hp
      rw [← this]
      have hb : (ident d == (d.participant, k)) = (d.key == k) := by
        rw [Bool.eq_iff_iff]; simp [ident]
      rw [hb]
      simp [ServiceMap.has]
    · next hp =>
      have : (ident d == (p, k)) = false := by simp [ident]; exact fun e => absurd e.symm hp
      rw [this, Bool.or_false]; assumption
  known := by
    intro p hp
    simp only [State.put]
    split
    · next hp' => exact absurd (hp' ▸ hk) hp
    · exact h.known p hp
  knownNodup := h.knownNodup
  told := by
    intro i k hi
    have ht := h.told i k hi
    rw [heard_append, heard_append, hpre, List.nil_append, heard_change]
    have := tracks_add (b := ident d == k) ht (fun hb => by
      simp at hb; subst hb; rw [← hn, h.has]; rfl)
    simp only [beq_iff_eq] at this
    have hi' : i < (s.put d.participant (s.byParticipant d.participant ++ [(d.key, d)])).handlers := hi
    simpa only [hi', true_and] using this
  untold := by
    intro i k hi
    have hi' : ¬ i < (s.put d.participant (s.byParticipant d.participant ++ [(d.key, d)])).handlers := Nat.not_lt.mpr hi
    rw [heard_append, heard_append, hpre, heard_change, h.untold i k hi]
    simp [hi']
  index := by
    intro k
    rw [indexed_append, indexed_append, hpre', List.nil_append, indexed_change]
    have := tracks_add (b := ident d == k) (h.index k) (fun hb => by
      simp at hb; subst hb; rw [← hn, h.has]; rfl)
    simpa only [beq_iff_eq] using this

theorem inv_congr {s outs al al'} (h : Inv s outs al) (he : ∀ k, al k = al' k) : Inv s outs al' := by
  have : al = al' := funext he
  exact this ▸ h

theorem inv_addition {s outs al} (h : Inv s outs al) (d : Desc) :
    Inv (s.onServiceAddition d).1 (outs ++ (s.onServiceAddition d).2) (fun k => al k || ident d == k) := by
  have ht := inv_touch h d.participant
  unfold State.onServiceAddition
  dsimp only
  split
  · next hh =>
    rw [List.append_nil]
    refine inv_congr ht fun k => ?_
    by_cases hk : ident d = k
    · subst hk
      have := ht.has d.participant d.key
      rw [hh] at this
      have h2 : al (ident d) = true := this.symm
      simp [h2]
    · simp [hk]
  · next hh =>
    refine inv_add ht d (touch_mem s _) (by simpa using hh) _ ?_ ?_
    · intro i k; split <;> simp [heard, State.announceLocalTo]
    · intro k; split <;> simp [indexed, State.announceLocalTo]

theorem inv_addAnnounced {r : State × List Output} {outs al} (d : Desc) (h : Inv r.1 (outs ++ r.2) al) (hk : d.participant ∈ r.1.known) :
    Inv (State.addAnnounced d.participant r d).1 (outs ++ (State.addAnnounced d.participant r d).2) (fun k => al k || ident d == k) := by
  unfold State.addAnnounced
  split
  · next hh =>
    refine inv_congr h fun k => ?_
    by_cases hk : ident d = k
    · subst hk
      have := h.has d.participant d.key
      rw [hh] at this
      have h2 : al (ident d) = true := this.symm
      simp [h2]
    · simp [hk]
  · next hh =>
    have := inv_add h d hk (by simpa using hh) [] (fun _ _ => rfl) (fun _ => rfl)
    dsimp only
    rw [← List.append_assoc]
    simpa only [List.nil_append] using this

theorem inv_announcement {p : String} (ds : List Desc) (hd : ∀ d ∈ ds, d.participant = p) {r : State × List Output} {outs al}
    (h : Inv r.1 (outs ++ r.2) al) (hk : p ∈ r.1.known) :
    Inv (ds.foldl (State.addAnnounced p) r).1 (outs ++ (ds.foldl (State.addAnnounced p) r).2)
      (fun k => al k || ds.any (fun d => ident d == k)) := by
  induction ds generalizing r al with
  | nil => exact inv_congr h (by simp)
  | cons d ds ih =>
    have hp := hd d (by simp)
    subst hp
    have h1 := inv_addAnnounced d h hk
    have hk' : d.participant ∈ (State.addAnnounced d.participant r d).1.known := by
      unfold State.addAnnounced; split <;> exact hk
    have := ih (fun d' h' => hd d' (by simp [h'])) h1 hk'
    rw [List.foldl_cons]
    exact inv_congr this (fun k => by simp [Bool.or_assoc])

theorem inv_removal {s outs al} (h : Inv s outs al) (d : Desc) :
    Inv (s.onServiceRemoval d).1 (outs ++ (s.onServiceRemoval d).2) (fun k => al k && ident d != k) := by
  have ht := inv_touch h d.participant
  unfold State.onServiceRemoval
  dsimp only
  generalize s.touch d.participant = s at ht ⊢
  split
  · next hh =>
    have hal : al (ident d) = true := by rw [← hh, ht.has]; rfl
    have hflip : ∀ k, (ident d != k) = !(ident d == k) := fun k => rfl
    exact
    { entry := by
        intro p e he
        simp only [State.put] at he
        split at he
        · next hp => subst hp; exact ht.entry _ e (List.mem_filter.mp he).1
        · exact ht.entry _ e he
      nodup := by
        intro p
        simp only [State.put]
        split
        · exact (List.filter_sublist.map _).nodup (ht.nodup d.participant)
        · exact ht.nodup p
      has := by
        intro p k
        have := ht.has p k
        simp only [State.put]
        split
        · next hp =>
          subst hp
          rw [← this, Bool.eq_iff_iff, has_iff, Bool.and_eq_true, has_iff]
          simp only [List.mem_map, List.mem_filter, bne_iff_ne, ne_eq, ident]
          constructor
          · rintro ⟨e, ⟨h1, h2⟩, rfl⟩
            exact ⟨⟨e, h1, rfl⟩, fun hc => h2 (by injection hc with _ hc; exact hc.symm)⟩
          · rintro ⟨⟨e, h1, rfl⟩, h2⟩
            exact ⟨e, ⟨h1, fun hc => h2 (by rw [hc])⟩, rfl⟩
        · next hp =>
          have : (ident d != (p, k)) = true := by simp [ident]; exact fun e => absurd e.symm hp
          rw [this, Bool.and_true]; assumption
      known := by
        intro p hp
        simp only [State.put]
        split
        · next hp' => subst hp'; rw [ht.known _ hp]; rfl
        · exact ht.known p hp
      knownNodup := ht.knownNodup
      told := by
        intro i k hi
        have hi' : i < s.handlers := hi
        rw [heard_append, heard_change]
        have := tracks_remove (b := ident d == k) (ht.told i k hi) (fun hb => by simp at hb; rw [← hb]; exact hal)
        simpa only [beq_iff_eq, hi', true_and, ← hflip] using this
      untold := by
        intro i k hi
        have hi' : ¬ i < s.handlers := Nat.not_lt.mpr hi
        rw [heard_append, heard_change, ht.untold i k hi]
        simp [hi']
      index := by
        intro k
        rw [indexed_append, indexed_change]
        have := tracks_remove (b := ident d == k) (ht.index k) (fun hb => by simp at hb; rw [← hb]; exact hal)
        simpa only [beq_iff_eq, ← hflip] using this }
  · next hh =>
    rw [List.append_nil]
    refine inv_congr ht fun k => ?_
    by_cases hk : ident d = k
    · subst hk
      have := ht.has d.participant d.key
      rw [Bool.not_eq_true] at hh
      rw [hh] at this
      have h2 : al (ident d) = false := this.symm
      simp [h2]
    · simp [hk]

theorem heard_removeAll (s : State) (i : Nat) (k) (p : String) (m : ServiceMap) (hm : ∀ e ∈ m, e.1 = e.2.key ∧ e.2.participant = p)
    (hn : (m.map (·.1)).Nodup) :
    heard i k (s.removeAll m) = if i < s.handlers ∧ (k.1 = p ∧ m.has k.2) then [false] else [] := by
  induction m with
  | nil => simp [State.removeAll, ServiceMap.has]
  | cons e m ih =>
    have he := hm e (by simp)
    simp only [List.map_cons, List.nodup_cons] at hn
    have h1 : s.removeAll (e :: m) = (.store false e.2 :: s.callHandlers false e.2) ++ s.removeAll m := by
      simp [State.removeAll]
    rw [h1, heard_append, heard_change, ih (fun e' h' => hm e' (by simp [h'])) hn.2]
    by_cases hi : i < s.handlers
    · by_cases hk : ident e.2 = k
      · subst hk
        have hnot : ¬ ServiceMap.has m (ident e.2).2 = true := by
          rw [has_iff]; show e.2.key ∉ _; rw [← he.1]; exact hn.1
        have h2 : ServiceMap.has (e :: m) (ident e.2).2 = true := by rw [has_iff]; simp [ident, he.1]
        have h3 : (ident e.2).1 = p := he.2
        simp only [hi, hnot, h2, h3, and_self, and_false, if_true, if_false, Bool.false_eq_true]
        simp
      · have hh : (ServiceMap.has (e :: m) k.2 = true ∧ k.1 = p) ↔ (ServiceMap.has m k.2 = true ∧ k.1 = p) := by
          simp only [ServiceMap.has, List.any_cons, Bool.or_eq_true, beq_iff_eq]
          constructor
          · rintro ⟨h | h, hp⟩
            · exfalso; apply hk; unfold ident; rw [he.2, ← he.1, h, ← hp]
            · exact ⟨h, hp⟩
          · rintro ⟨h, hp⟩; exact ⟨Or.inr h, hp⟩
        have hh' : (k.1 = p ∧ ServiceMap.has (e :: m) k.2 = true) ↔ (k.1 = p ∧ ServiceMap.has m k.2 = true) := by
          rw [and_comm, hh, and_comm]
        simp only [hi, hk, true_and, and_false, if_false, List.nil_append, hh']
    · simp [hi]

theorem indexed_removeAll (s : State) (k) (p : String) (m : ServiceMap) (hm : ∀ e ∈ m, e.1 = e.2.key ∧ e.2.participant = p)
    (hn : (m.map (·.1)).Nodup) :
    indexed k (s.removeAll m) = if (k.1 = p ∧ m.has k.2) then [false] else [] := by
  induction m with
  | nil => simp [State.removeAll, ServiceMap.has]
  | cons e m ih =>
    have he := hm e (by simp)
    simp only [List.map_cons, List.nodup_cons] at hn
    have h1 : s.removeAll (e :: m) = (.store false e.2 :: s.callHandlers false e.2) ++ s.removeAll m := by
      simp [State.removeAll]
    rw [h1, indexed_append, indexed_change, ih (fun e' h' => hm e' (by simp [h'])) hn.2]
    by_cases hk : ident e.2 = k
    · subst hk
      have hnot : ¬ ServiceMap.has m (ident e.2).2 = true := by
        rw [has_iff]; show e.2.key ∉ _; rw [← he.1]; exact hn.1
      have h2 : ServiceMap.has (e :: m) (ident e.2).2 = true := by rw [has_iff]; simp [ident, he.1]
      have h3 : (ident e.2).1 = p := he.2
      simp only [hnot, h2, h3, and_self, and_false, if_true, if_false, Bool.false_eq_true]
      simp
    · have hh' : (k.1 = p ∧ ServiceMap.has (e :: m) k.2 = true) ↔ (k.1 = p ∧ ServiceMap.has m k.2 = true) := by
        simp only [ServiceMap.has, List.any_cons, Bool.or_eq_true, beq_iff_eq]
        constructor
        · rintro ⟨hp, h | h⟩
          · exfalso; apply hk; unfold ident; rw [he.2, ← he.1, h, ← hp]
          · exact ⟨hp, h⟩
        · rintro ⟨hp, h⟩; exact ⟨hp, Or.inr h⟩
      simp only [hk, if_false, List.nil_append, hh']

theorem inv_gone {s outs al} (h : Inv s outs al) (p : String) :
    Inv (s.onParticipantRemoval p).1 (outs ++ (s.onParticipantRemoval p).2) (fun k => al k && (k.1 != p || p == s.self)) := by
  unfold State.onParticipantRemoval
  split
  · next hs => subst hs; simpa using h
  · next hs =>
    have hb : ∀ k : String × List Char, (k.1 != p || p == s.self) = !decide (k.1 = p ∧ (al k = true)) ∨ al k = false := by
      intro k
      cases hak : al k with
      | false => exact Or.inr rfl
      | true => left; by_cases hk : k.1 = p <;> simp [hk, hs]
    have hval : ∀ k, (al k && (k.1 != p || p == s.self)) = (al k && !decide (k.1 = p ∧ (al k = true))) := by
      intro k
      rcases hb k with hb | hb
      · rw [hb]
      · rw [hb]; simp
    have hhas : ∀ k : String × List Char, (k.1 = p ∧ (s.byParticipant p).has k.2 = true) ↔ (k.1 = p ∧ al k = true) := by
      intro k
      constructor
      · rintro ⟨h1, h2⟩; rw [h.has] at h2; subst h1; exact ⟨rfl, h2⟩
      · rintro ⟨h1, h2⟩; rw [h.has]; subst h1; exact ⟨rfl, h2⟩
    refine inv_congr (al := fun k => al k && !decide (k.1 = p ∧ (al k = true))) ?_ (fun k => (hval k).symm)
    exact
    { entry := by
        intro q e he
        simp only [State.put] at he
        split at he
        · simp at he
        · exact h.entry q e he
      nodup := by
        intro q
        simp only [State.put]
        split
        · exact List.nodup_nil
        · exact h.nodup q
      has := by
        intro q k
        simp only [State.put]
        split
        · next hq => subst hq; cases ha : al (q, k) <;> simp [ServiceMap.has]
        · next hq => rw [h.has]; simp [hq]
      known := by
        intro q hq
        simp only [State.put]
        split
        · rfl
        · next hqp => exact h.known q (fun hm => hq (List.mem_filter.mpr ⟨hm, by simpa using hqp⟩))
      knownNodup := h.knownNodup.filter _
      told := by
        intro i k hi
        have hi' : i < s.handlers := hi
        rw [heard_append, heard_removeAll s i k p _ (h.entry p) (h.nodup p)]
        have := tracks_remove (b := decide (k.1 = p ∧ (al k = true))) (h.told i k hi) (fun hb => by simp at hb; exact hb.2)
        simpa only [hi', true_and, hhas, decide_eq_true_eq] using this
      untold := by
        intro i k hi
        have hi' : ¬ i < s.handlers := Nat.not_lt.mpr hi
        rw [heard_append, heard_removeAll s i k p _ (h.entry p) (h.nodup p), h.untold i k hi]
        simp [hi']
      index := by
        intro k
        rw [indexed_append, indexed_removeAll s k p _ (h.entry p) (h.nodup p)]
        have := tracks_remove (b := decide (k.1 = p ∧ (al k = true))) (h.index k) (fun hb => by simp at hb; exact hb.2)
        simpa only [true_and, hhas, decide_eq_true_eq] using this }

theorem heard_map_call (i j : Nat) (k) (ds : List Desc) :
    heard i k (ds.map (fun d => .call j true d)) = if i = j then (ds.filter (fun d => ident d == k)).map (fun _ => true) else [] := by
  induction ds with
  | nil => simp
  | cons d ds ih =>
    have : heard i k ((d :: ds).map (fun d => .call j true d)) =
        heard i k [.call j true d] ++ heard i k (ds.map (fun d => .call j true d)) := by
      rw [← heard_append]; rfl
    rw [this, ih]
    by_cases hi : i = j
    · subst hi
      by_cases hk : ident d = k <;> simp [heard, hk]
    · have hi' : ¬ j = i := fun h => hi h.symm
      simp [heard, hi, hi']

theorem filter_map_entries {p : String} (m : ServiceMap) (hm : ∀ e ∈ m, e.1 = e.2.key ∧ e.2.participant = p)
    (hn : (m.map (·.1)).Nodup) (k : String × List Char) :
    ((m.map (·.2)).filter (fun d => ident d == k)).length = if k.1 = p ∧ m.has k.2 = true then 1 else 0 := by
  induction m with
  | nil => simp [ServiceMap.has]
  | cons e m ih =>
    have he := hm e (by simp)
    simp only [List.map_cons, List.nodup_cons] at hn
    have ih := ih (fun e' h' => hm e' (by simp [h'])) hn.2
    simp only [List.map_cons, List.filter_cons]
    by_cases hk : ident e.2 = k
    · subst hk
      have hnot : ¬ ServiceMap.has m (ident e.2).2 = true := by
        rw [has_iff]; show e.2.key ∉ _; rw [← he.1]; exact hn.1
      have h1 : ServiceMap.has (e :: m) (ident e.2).2 = true := by
        rw [has_iff]; simp [ident, he.1]
      have h2 : (ident e.2).1 = p := he.2
      simp only [beq_self_eq_true, if_true, List.length_cons, ih, hnot, h1, h2]
      simp
    · have hh' : (k.1 = p ∧ ServiceMap.has (e :: m) k.2 = true) ↔ (k.1 = p ∧ ServiceMap.has m k.2 = true) := by
        simp only [ServiceMap.has, List.any_cons, Bool.or_eq_true, beq_iff_eq]
        constructor
        · rintro ⟨hp, h | h⟩
          · exfalso; apply hk; unfold ident; rw [he.2, ← he.1, h, ← hp]
          · exact ⟨hp, h⟩
        · rintro ⟨hp, h⟩; exact ⟨hp, Or.inr h⟩
      have hb : (ident e.2 == k) = false := by simpa using hk
      simp only [hb, Bool.false_eq_true, if_false, ih, hh']

theorem getServices_count {s outs al} (h : Inv s outs al) (k : String × List Char) :
    (s.getServices.filter (fun d => ident d == k)).length = if al k = true then 1 else 0 := by
  have key : ∀ ps : List String, ps.Nodup →
      ((ps.flatMap (fun p => (s.byParticipant p).map (·.2))).filter (fun d => ident d == k)).length =
        if k.1 ∈ ps ∧ al k = true then 1 else 0 := by
    intro ps hps
    induction ps with
    | nil => simp
    | cons p ps ih =>
      simp only [List.nodup_cons] at hps
      rw [List.flatMap_cons, List.filter_append, List.length_append, ih hps.2,
        filter_map_entries _ (h.entry p) (h.nodup p), h.has]
      by_cases hp : k.1 = p
      · subst hp
        have : k = (k.1, k.2) := rfl
        simp [hps.1]
      · simp [hp]
  unfold State.getServices
  rw [key _ h.knownNodup]
  by_cases ha : al k = true
  · have : k.1 ∈ s.known := by
      apply Decidable.byContradiction
      intro hn
      have h1 := h.has k.1 k.2
      rw [h.known _ hn] at h1
      have : al k = false := h1.symm
      rw [ha] at this; simp at this
    simp [ha, this]
  · simp [ha]

theorem inv_register {s outs al} (h : Inv s outs al) :
    Inv s.registerHandler.1 (outs ++ s.registerHandler.2) al :=
  { h with
    told := by
      intro i k hi
      have hi : i < s.handlers + 1 := hi
      rw [State.registerHandler, heard_append, heard_map_call]
      by_cases he : i = s.handlers
      · subst he
        rw [h.untold _ _ (Nat.le_refl _), List.nil_append, if_pos rfl]
        have hc := getServices_count h k
        by_cases ha : al k = true
        · rw [if_pos ha] at hc
          obtain ⟨d, hd⟩ := List.length_eq_one_iff.mp hc
          rw [hd, ha]
          exact tracks_snoc tracks_nil
        · rw [if_neg ha] at hc
          rw [List.eq_nil_of_length_eq_zero hc]
          have : al k = false := by simpa using ha
          rw [this]; exact tracks_nil
      · rw [if_neg he, List.append_nil]
        exact h.told i k (by omega)
    untold := by
      intro i k hi
      have hi : s.handlers + 1 ≤ i := hi
      rw [State.registerHandler, heard_append, heard_map_call, h.untold i k (by omega), if_neg (by omega)]
      rfl
    index := by
      intro k
      have : indexed k s.registerHandler.2 = [] := by simp [State.registerHandler, indexed]
      rw [indexed_append, this, List.append_nil]
      exact h.index k }

theorem inv_event {s outs al} (h : Inv s outs al) (c : Bool) (d : Desc) : Inv s (outs ++ [.event c d]) al :=
  { h with
    told := by intro i k hi; simpa [heard] using h.told i k hi
    untold := by intro i k hi; simpa [heard] using h.untold i k hi
    index := by intro k; simpa [indexed] using h.index k }

theorem addAnnounced_self (p : String) (r : State × List Output) (d : Desc) :
    (State.addAnnounced p r d).1.self = r.1.self ∧ (State.addAnnounced p r d).1.handlers = r.1.handlers := by
  unfold State.addAnnounced; split <;> exact ⟨rfl, rfl⟩

theorem announcement_self (p : String) (ds : List Desc) (r : State × List Output) :
    (ds.foldl (State.addAnnounced p) r).1.self = r.1.self ∧ (ds.foldl (State.addAnnounced p) r).1.handlers = r.1.handlers := by
  induction ds generalizing r with
  | nil => exact ⟨rfl, rfl⟩
  | cons d ds ih =>
    have h1 := addAnnounced_self p r d
    have h2 := ih (State.addAnnounced p r d)
    exact ⟨h2.1.trans h1.1, h2.2.trans h1.2⟩

theorem addition_self (s : State) (d : Desc) :
    (s.onServiceAddition d).1.self = s.self ∧ (s.onServiceAddition d).1.handlers = s.handlers := by
  unfold State.onServiceAddition; dsimp only; split <;> exact ⟨rfl, rfl⟩

theorem removal_self (s : State) (d : Desc) :
    (s.onServiceRemoval d).1.self = s.self ∧ (s.onServiceRemoval d).1.handlers = s.handlers := by
  unfold State.onServiceRemoval; dsimp only; split <;> exact ⟨rfl, rfl⟩

theorem react_self (s : State) (op : Op) : (react s op).1.self = s.self := by
  cases op with
  | announcement p ds => exact (announcement_self p ds _).1
  | remoteCreated d => exact (addition_self s d).1
  | remoteRemoved d => exact (removal_self s d).1
  | localCreated d => exact (addition_self s d).1
  | localRemoved d => exact (removal_self s d).1
  | disconnected p => simp only [react, State.onParticipantRemoval]; split <;> rfl
  | register => rfl

theorem react_handlers (s : State) (op : Op) :
    (react s op).1.handlers = s.handlers + (match op with | .register => 1 | _ => 0) := by
  cases op with
  | announcement p ds => exact (announcement_self p ds _).2
  | remoteCreated d => exact (addition_self s d).2
  | remoteRemoved d => exact (removal_self s d).2
  | localCreated d => exact (addition_self s d).2
  | localRemoved d => exact (removal_self s d).2
  | disconnected p => simp only [react, State.onParticipantRemoval]; split <;> rfl
  | register => rfl

theorem inv_react {s outs al} (h : Inv s outs al) (op : Op) (ho : op.Honest) :
    Inv (react s op).1 (outs ++ (react s op).2) (fun k => aliveStep s.self k (al k) op) := by
  cases op with
  | announcement p ds =>
    exact inv_announcement ds ho (r := (s.touch p, [])) (by rw [List.append_nil]; exact inv_touch h p) (touch_mem s p)
  | remoteCreated d => exact inv_addition h d
  | remoteRemoved d => exact inv_removal h d
  | localCreated d =>
    have := inv_event (inv_addition h d) true d
    rw [List.append_assoc] at this
    exact this
  | localRemoved d =>
    have := inv_event (inv_removal h d) false d
    rw [List.append_assoc] at this
    exact this
  | disconnected p => exact inv_gone h p
  | register => exact inv_register h

theorem run_append (self : String) (h : List Op) (op : Op) :
    run self (h ++ [op]) = ((react (run self h).1 op).1, (run self h).2 ++ (react (run self h).1 op).2) := by
  simp [run, List.foldl_append]

theorem alive_append (self : String) (h : List Op) (op : Op) (k) :
    alive self (h ++ [op]) k = aliveStep self k (alive self h k) op := by
  simp [alive, List.foldl_append]

theorem inv_run (self : String) (h : List Op) (ho : ∀ op ∈ h, op.Honest) :
    Inv (run self h).1 (run self h).2 (alive self h) ∧ (run self h).1.self = self ∧ (run self h).1.handlers = registered h := by
  rw [← List.reverse_reverse h] at ho ⊢
  generalize h.reverse = h at ho ⊢
  induction h with
  | nil => exact ⟨inv_init self, rfl, rfl⟩
  | cons op h ih =>
    rw [List.reverse_cons] at ho ⊢
    obtain ⟨h1, h2, h3⟩ := ih (fun op' h' => ho op' (List.mem_append_left _ h'))
    have h4 := inv_react h1 op (ho op (by simp))
    rw [run_append]
    refine ⟨inv_congr h4 (fun k => by rw [alive_append, h2]), by rw [react_self, h2], ?_⟩
    rw [react_handlers, h3]
    cases op <;> simp [registered]

/-- Splitting at the first separator is unique. -/
theorem split_unique {a b : List Char} {x y : List Char} (ha : '/' ∉ a) (hb : '/' ∉ b) (h : a ++ '/' :: x = b ++ '/' :: y) :
    a = b ∧ x = y := by
  induction a generalizing b with
  | nil =>
    cases b with
    | nil => simpa using h
    | cons c b =>
      simp only [List.nil_append, List.cons_append, List.cons.injEq] at h
      exact absurd (h.1 ▸ List.mem_cons_self) hb
  | cons c a ih =>
    cases b with
    | nil =>
      simp only [List.nil_append, List.cons_append, List.cons.injEq] at h
      exact absurd (h.1 ▸ List.mem_cons_self) ha
    | cons c' b =>
      simp only [List.cons_append, List.cons.injEq] at h
      obtain ⟨h1, h2⟩ := ih (fun hm => ha (List.mem_cons_of_mem _ hm)) (fun hm => hb (List.mem_cons_of_mem _ hm)) h.2
      exact ⟨by rw [h.1, h1], h2⟩

theorem joinSlash_inj : ∀ (ps qs : List String), (∀ p ∈ ps, '/' ∉ p.toList) → (∀ q ∈ qs, '/' ∉ q.toList) → ps ≠ [] → qs ≠ [] →
    joinSlash ps = joinSlash qs → ps = qs
  | [], _, _, _, h, _, _ => absurd rfl h
  | _, [], _, _, _, h, _ => absurd rfl h
  | [p], [q], _, _, _, _, h => by
    have h : p = q := String.ext (by simpa [joinSlash] using h)
    rw [h]
  | [p], q :: q' :: qs, hp, _, _, _, h => by
    simp only [joinSlash] at h
    exact absurd (h ▸ (by simp)) (hp p (by simp))
  | p :: p' :: ps, [q], _, hq, _, _, h => by
    simp only [joinSlash] at h
    exact absurd (h ▸ (by simp)) (hq q (by simp))
  | p :: p' :: ps, q :: q' :: qs, hp, hq, _, _, h => by
    simp only [joinSlash] at h
    obtain ⟨h1, h2⟩ := split_unique (hp p (by simp)) (hq q (by simp)) h
    have h3 := joinSlash_inj (p' :: ps) (q' :: qs) (fun x hx => hp x (List.mem_cons_of_mem _ hx))
      (fun x hx => hq x (List.mem_cons_of_mem _ hx)) (by simp) (by simp) h2
    rw [String.ext h1, h3]

theorem announcement_sends_nothing (target sender : String) (services : List Desc) (p : String) (ds : List Desc)
    (r : State × List Output) (hr : Output.announce target sender services ∈ (ds.foldl (State.addAnnounced p) r).2) :
    Output.announce target sender services ∈ r.2 := by
  induction ds generalizing r with
  | nil => exact hr
  | cons d ds ih =>
    have := ih _ hr
    unfold State.addAnnounced at this
    split at this
    · exact this
    · simpa [State.callHandlers] using this

end SilKit.ServiceDiscovery
