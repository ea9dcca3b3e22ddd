import Verif.Spec.Registration
/-! # Invariants of service registration -/
namespace SilKit.Registration
open Spec

theorem run_append (h : List Event) (e : Event) :
    run (h ++ [e]) = ((on (run h).1 e).1, (run h).2 ++ (on (run h).1 e).2) := by
  simp [run, List.foldl_append]

theorem connected_append (a b : List Out) (p : Nat) : connected (a ++ b) p = b.foldl (connStep p) (connected a p) := by
  simp [connected, List.foldl_append]

theorem outstanding_append (a b : List Out) : outstanding (a ++ b) = b.foldl callStep (outstanding a) := by
  simp [outstanding, List.foldl_append]

/-- Outputs that tell the observers nothing about peers. -/
def Calm : Out → Prop
  | .joined _ | .gone _ | .subscribed .. => False
  | _ => True

theorem conn_calm (p : Nat) : ∀ (l : List Out) (c : Bool), (∀ o ∈ l, Calm o) → l.foldl (connStep p) c = c
  | [], _, _ => rfl
  | o :: l, c, h => by
      have ho := h o (by simp)
      have ih := conn_calm p l (connStep p c o) (fun o' h' => h o' (by simp [h']))
      rw [List.foldl_cons, ih]
      cases o <;> simp_all [Calm, connStep]

theorem mem_newReceivers (s : Nat) : ∀ (rs known : List Nat), s ∈ newReceivers known rs ↔ s ∈ rs ∧ s ∉ known
  | [], known => by simp [newReceivers]
  | r :: rs, known => by
      unfold newReceivers
      split
      · rename_i hk
        rw [mem_newReceivers s rs known]
        constructor
        · intro ⟨a, b⟩; exact ⟨by simp [a], b⟩
        · intro ⟨a, b⟩
          refine ⟨?_, b⟩
          rcases List.mem_cons.1 a with rfl | a
          · exact absurd hk b
          · exact a
      · rename_i hk
        rw [List.mem_cons, mem_newReceivers s rs (r :: known)]
        simp only [List.mem_cons, not_or]
        constructor
        · rintro (rfl | ⟨a, b, c⟩)
          · exact ⟨Or.inl rfl, hk⟩
          · exact ⟨Or.inr a, c⟩
        · rintro ⟨rfl | a, b⟩
          · exact Or.inl rfl
          · by_cases h : s = r
            · exact Or.inl h
            · exact Or.inr ⟨a, h, b⟩

theorem nodup_newReceivers : ∀ (rs known : List Nat), (newReceivers known rs).Nodup
  | [], known => by simp [newReceivers]
  | r :: rs, known => by
      unfold newReceivers
      split
      · exact nodup_newReceivers rs known
      · refine List.nodup_cons.2 ⟨?_, nodup_newReceivers rs _⟩
        rw [mem_newReceivers]; simp

theorem mem_acksFor (peers subs : List Nat) (p s : Nat) : (p, s) ∈ acksFor peers subs ↔ p ∈ peers ∧ s ∈ subs := by
  simp only [acksFor, List.mem_flatMap, List.mem_map, Prod.mk.injEq]
  constructor
  · rintro ⟨s', hs, p', hp, rfl, rfl⟩; exact ⟨hp, hs⟩
  · rintro ⟨hp, hs⟩; exact ⟨s, hs, p, hp, rfl, rfl⟩

theorem nodup_acksFor (peers : List Nat) (hp : peers.Nodup) : ∀ subs : List Nat, subs.Nodup → (acksFor peers subs).Nodup
  | [], _ => by simp [acksFor]
  | s :: subs, h => by
      have h' := List.nodup_cons.1 h
      have e : acksFor peers (s :: subs) = peers.map (fun p => (p, s)) ++ acksFor peers subs := by simp [acksFor]
      rw [e, List.nodup_append]
      refine ⟨?_, nodup_acksFor peers hp subs h'.2, ?_⟩
      · unfold List.Nodup
        rw [List.pairwise_map]
        exact hp.imp (fun hne heq => hne (Prod.mk.inj heq).1)
      · rintro ⟨p, t⟩ ha ⟨q, u⟩ hb heq
        cases heq
        have := (mem_acksFor _ _ _ _).1 hb
        obtain ⟨p', -, hh⟩ := List.mem_map.1 ha
        cases hh
        exact h'.1 this.2

def Conn.pending (c : Conn) : Bool → List Ack
  | true => c.pendingSync
  | false => c.pendingAsync

/-- The synchronous registrations that have been posted. -/
def Conn.syncPosted (c : Conn) : List Nat := (c.posted.filter (·.1)).map (·.2.1)

/-- What holds of every history. -/
structure Inv (c : Conn) (t : List Out) : Prop where
  conn : ∀ p, p ∈ c.peers ↔ connected t p = true
  nodupP : c.peers.Nodup
  nodupA : c.pendingSync.Nodup
  knownI : ∀ s, s ∈ c.known ↔ ∃ b k subs, Out.subscribed b k subs ∈ t ∧ s ∈ subs
  fresh : ∀ b p s, (p, s) ∈ c.pending b → p ∈ c.peers ∧ s ∈ c.known
  safe : ∀ b t1 t2 k subs, t = t1 ++ .subscribed b k subs :: t2 → ∀ p, connected t1 p = true → ∀ s ∈ subs,
    (p, s) ∈ c.pending b ∨ Settled t2 p s
  stuck : ∀ p s, (p, s) ∈ c.pendingSync → ∃ t1 t2 k subs, t = t1 ++ .subscribed true k subs :: t2 ∧ connected t1 p = true ∧
    s ∈ subs ∧ ¬ Settled t2 p s
  postedI : ∀ x ∈ c.posted, Out.called x.1 x.2.1 x.2.2 ∈ t

/-- An update that removes acknowledges which have just been settled, and emits `settling :: calm outputs`. -/
theorem settled_mono {t u : List Out} {p s : Nat} (h : Settled t p s) : Settled (t ++ u) p s := by
  rcases h with h | h
  · exact Or.inl (by simp [h])
  · exact Or.inr (by simp [h])

theorem subscribed_split {t u t1 t2 : List Out} {b : Bool} {k : Nat} {subs : List Nat} (hu : ∀ o ∈ u, ∀ b k s, o ≠ .subscribed b k s)
    (h : t ++ u = t1 ++ .subscribed b k subs :: t2) : ∃ t2', t = t1 ++ .subscribed b k subs :: t2' ∧ t2 = t2' ++ u := by
  rcases List.append_eq_append_iff.1 h with ⟨w, h1, h2⟩ | ⟨w, h1, h2⟩
  · cases w with
    | nil => exact absurd rfl (hu (.subscribed b k subs) (by simp [h2]) b k subs)
    | cons o w =>
        have : Out.subscribed b k subs ∈ u := by rw [h2]; simp
        exact absurd rfl (hu _ this b k subs)
  · cases w with
    | nil => exact absurd rfl (hu (.subscribed b k subs) (by rw [List.nil_append] at h2; rw [← h2]; exact List.mem_cons_self ..) b k subs)
    | cons o w =>
        simp only [List.cons_append, List.cons.injEq] at h2
        exact ⟨w, by rw [h1, h2.1], h2.2⟩

theorem not_sub_of_calm {u : List Out} (hu : ∀ o ∈ u, Calm o) : ∀ o ∈ u, ∀ b k s, o ≠ .subscribed b k s := by
  intro o ho b k s e; subst e; exact hu _ ho

/-- Calm outputs of a step that leaves peers, receivers and pending acknowledges alone. -/
theorem Inv.calm {c c' : Conn} {t u : List Out} (i : Inv c t) (hu : ∀ o ∈ u, Calm o) (hna : ∀ o ∈ u, ∀ p s, o ≠ .acked p s)
    (h1 : c'.peers = c.peers) (h2 : c'.known = c.known) (h3 : ∀ b, c'.pending b = c.pending b)
    (h4 : ∀ x ∈ c'.posted, x ∈ c.posted ∨ Out.called x.1 x.2.1 x.2.2 ∈ u) : Inv c' (t ++ u) := by
  have h3s : c'.pendingSync = c.pendingSync := h3 true
  refine ⟨?_, h1 ▸ i.nodupP, h3s ▸ i.nodupA, ?_, ?_, ?_, ?_, ?_⟩
  · intro p; rw [h1, connected_append, conn_calm p u _ hu]; exact i.conn p
  · intro s
    rw [h2, i.knownI s]
    constructor
    · rintro ⟨b, k, subs, h, hs⟩; exact ⟨b, k, subs, by simp [h], hs⟩
    · rintro ⟨b, k, subs, h, hs⟩
      rcases List.mem_append.1 h with h | h
      · exact ⟨b, k, subs, h, hs⟩
      · exact absurd (hu _ h) id
  · intro b p s h; rw [h1, h2]; rw [h3] at h; exact i.fresh b p s h
  · intro b t1 t2 k subs e p hp s hs
    obtain ⟨t2', e1, e2⟩ := subscribed_split (not_sub_of_calm hu) e
    rcases i.safe b t1 t2' k subs e1 p hp s hs with h | h
    · left; rw [h3]; exact h
    · right; rw [e2]; exact settled_mono h
  · intro p s h
    rw [h3s] at h
    obtain ⟨t1, t2, k, subs, e, hc, hs, hn⟩ := i.stuck p s h
    refine ⟨t1, t2 ++ u, k, subs, by rw [e]; simp, hc, hs, ?_⟩
    rintro (h' | h')
    · rcases List.mem_append.1 h' with h' | h'
      · exact hn (Or.inl h')
      · exact hna _ h' p s rfl
    · rcases List.mem_append.1 h' with h' | h'
      · exact hn (Or.inr h')
      · exact absurd (hu _ h') id
  · intro x hx
    rcases h4 x hx with h | h
    · exact List.mem_append_left _ (i.postedI x h)
    · exact List.mem_append_right _ h

/-- What a completion does. -/
structure Comp (c c' : Conn) (u : List Out) : Prop where
  peers : c'.peers = c.peers
  known : c'.known = c.known
  pend : ∀ b, c'.pending b = c.pending b
  posted : c'.posted = c.posted
  calm : ∀ o ∈ u, Calm o ∧ ∀ p s, o ≠ .acked p s

theorem Comp.refl (c : Conn) : Comp c c [] := ⟨rfl, rfl, fun _ => rfl, rfl, by simp⟩

theorem Comp.sync (c : Conn) : Comp c (syncCompleted c).1 (syncCompleted c).2 := by
  unfold syncCompleted
  split <;> refine ⟨rfl, rfl, fun b => by cases b <;> rfl, rfl, ?_⟩ <;> simp [Calm]

theorem Comp.async (c : Conn) : Comp c (asyncCompleted c).1 (asyncCompleted c).2 := by
  unfold asyncCompleted
  refine ⟨rfl, rfl, fun b => by cases b <;> rfl, rfl, ?_⟩
  intro o ho
  obtain ⟨j, -, rfl⟩ := List.mem_map.1 ho
  simp [Calm]

theorem Comp.trans {a b c : Conn} {u v : List Out} (x : Comp a b u) (y : Comp b c v) : Comp a c (u ++ v) := by
  refine ⟨y.peers.trans x.peers, y.known.trans x.known, fun s => (y.pend s).trans (x.pend s), y.posted.trans x.posted, ?_⟩
  intro o ho
  rcases List.mem_append.1 ho with h | h
  · exact x.calm o h
  · exact y.calm o h

theorem Inv.comp {c c' : Conn} {t u : List Out} (i : Inv c t) (x : Comp c c' u) : Inv c' (t ++ u) :=
  i.calm (fun o h => (x.calm o h).1) (fun o h => (x.calm o h).2) x.peers x.known x.pend
    (fun y hy => Or.inl (x.posted ▸ hy))

theorem ackSync_comp (c : Conn) (a : Ack) : Comp { c with pendingSync := c.pendingSync.erase a } (ackSync c a).1 (ackSync c a).2 := by
  unfold ackSync
  split
  · dsimp only; split
    · exact Comp.sync _
    · exact Comp.refl _
  · rename_i h
    rw [List.erase_of_not_mem h]
    exact Comp.refl _

theorem ackAsync_comp (c : Conn) (a : Ack) : Comp { c with pendingAsync := c.pendingAsync.erase a } (ackAsync c a).1 (ackAsync c a).2 := by
  unfold ackAsync
  split
  · dsimp only; split
    · exact Comp.async _
    · exact Comp.refl _
  · rename_i h
    rw [List.erase_of_not_mem h]
    exact Comp.refl _

theorem filter_of_not_any {l : List Ack} {p : Nat} (h : ¬ l.any (·.1 = p) = true) : l.filter (·.1 ≠ p) = l := by
  rw [List.filter_eq_self]
  intro a ha
  simp only [List.any_eq_true, decide_eq_true_eq, not_exists, not_and] at h
  simpa using h a ha

theorem goneSync_comp (c : Conn) (p : Nat) :
    Comp { c with pendingSync := c.pendingSync.filter (·.1 ≠ p) } (goneSync c p).1 (goneSync c p).2 := by
  unfold goneSync
  split
  · dsimp only; split
    · exact Comp.sync _
    · exact Comp.refl _
  · rename_i h
    rw [filter_of_not_any h]
    exact Comp.refl _

theorem goneAsync_comp (c : Conn) (p : Nat) :
    Comp { c with pendingAsync := c.pendingAsync.filter (·.1 ≠ p) } (goneAsync c p).1 (goneAsync c p).2 := by
  unfold goneAsync
  split
  · dsimp only; split
    · exact Comp.async _
    · exact Comp.refl _
  · rename_i h
    rw [filter_of_not_any h]
    exact Comp.refl _

theorem Comp.setAsync {c c' : Conn} {u : List Out} (x : Comp c c' u) (f : List Ack → List Ack) :
    Comp { c with pendingAsync := f c.pendingAsync } { c' with pendingAsync := f c'.pendingAsync } u := by
  have h := x.pend false
  have h' := x.pend true
  simp only [Conn.pending] at h h'
  refine ⟨x.peers, x.known, fun b => ?_, x.posted, x.calm⟩
  cases b
  · simp [Conn.pending, h]
  · simp [Conn.pending, h']

/-- An acknowledge: first both lists lose it, then completions. -/
theorem Inv.ack {c : Conn} {t : List Out} (i : Inv c t) (p s : Nat) :
    Inv { c with pendingSync := c.pendingSync.erase (p, s), pendingAsync := c.pendingAsync.erase (p, s) } (t ++ [.acked p s]) := by
  have hu : ∀ o ∈ [Out.acked p s], Calm o := by simp [Calm]
  have hsub : ∀ b x, x ∈ ({ c with pendingSync := c.pendingSync.erase (p, s), pendingAsync := c.pendingAsync.erase (p, s) } : Conn).pending b →
      x ∈ c.pending b := by
    intro b x hx
    cases b <;> exact List.mem_of_mem_erase hx
  have hsup : ∀ b x, x ∈ c.pending b → x ≠ (p, s) →
      x ∈ ({ c with pendingSync := c.pendingSync.erase (p, s), pendingAsync := c.pendingAsync.erase (p, s) } : Conn).pending b := by
    intro b x hx hne
    cases b <;> exact (List.mem_erase_of_ne hne).2 hx
  refine ⟨?_, i.nodupP, i.nodupA.erase _, ?_, ?_, ?_, ?_, ?_⟩
  · intro q; rw [connected_append, conn_calm q _ _ hu]; exact i.conn q
  · intro s'
    rw [i.knownI s']; simp
  · intro b q s' h; exact i.fresh b q s' (hsub b _ h)
  · intro b t1 t2 k subs e q hq s' hs
    obtain ⟨t2', e1, e2⟩ := subscribed_split (not_sub_of_calm hu) e
    rcases i.safe b t1 t2' k subs e1 q hq s' hs with h | h
    · by_cases hx : (q, s') = (p, s)
      · cases hx
        right; rw [e2]; exact Or.inl (by simp)
      · exact Or.inl (hsup b _ h hx)
    · right; rw [e2]; exact settled_mono h
  · intro q s' h
    have hne := (i.nodupA.mem_erase_iff.1 h).1
    obtain ⟨t1, t2, k, subs, e, hc, hs, hn⟩ := i.stuck q s' (hsub true _ h)
    refine ⟨t1, t2 ++ [.acked p s], k, subs, by rw [e]; simp, hc, hs, ?_⟩
    rintro (h' | h')
    · rcases List.mem_append.1 h' with h' | h'
      · exact hn (Or.inl h')
      · simp at h'
        exact hne (by rw [h'.1, h'.2])
    · simp at h'
      exact hn (Or.inr h')
  · intro x hx; exact List.mem_append_left _ (i.postedI x hx)

theorem Inv.gone {c : Conn} {t : List Out} (i : Inv c t) (p : Nat) :
    Inv { c with peers := c.peers.filter (· ≠ p), pendingSync := c.pendingSync.filter (·.1 ≠ p),
                 pendingAsync := c.pendingAsync.filter (·.1 ≠ p) } (t ++ [.gone p]) := by
  have hns : ∀ o ∈ [Out.gone p], ∀ b k s, o ≠ .subscribed b k s := by simp
  have hmem : ∀ b x, x ∈ ({ c with peers := c.peers.filter (· ≠ p), pendingSync := c.pendingSync.filter (·.1 ≠ p), pendingAsync := c.pendingAsync.filter (·.1 ≠ p) } : Conn).pending b ↔
      x ∈ c.pending b ∧ x.1 ≠ p := by
    intro b x
    cases b <;> simp [Conn.pending, List.mem_filter]
  refine ⟨?_, i.nodupP.sublist List.filter_sublist, i.nodupA.sublist List.filter_sublist, ?_, ?_, ?_, ?_, ?_⟩
  · intro q
    rw [connected_append]
    simp only [List.mem_filter, i.conn q, List.foldl_cons, List.foldl_nil, connStep]
    split
    · rename_i h; subst h; simp
    · rename_i h; simp [Ne.symm h]
  · intro s'
    rw [i.knownI s']; simp
  · intro b q s' h
    have := (hmem b _).1 h
    have h' := i.fresh b q s' this.1
    exact ⟨by simpa using ⟨h'.1, this.2⟩, h'.2⟩
  · intro b t1 t2 k subs e q hq s' hs
    obtain ⟨t2', e1, e2⟩ := subscribed_split hns e
    rcases i.safe b t1 t2' k subs e1 q hq s' hs with h | h
    · by_cases hx : q = p
      · subst hx
        right; rw [e2]; exact Or.inr (by simp)
      · exact Or.inl ((hmem b _).2 ⟨h, hx⟩)
    · right; rw [e2]; exact settled_mono h
  · intro q s' h
    have hm := (hmem true _).1 h
    obtain ⟨t1, t2, k, subs, e, hc, hs, hn⟩ := i.stuck q s' hm.1
    refine ⟨t1, t2 ++ [.gone p], k, subs, by rw [e]; simp, hc, hs, ?_⟩
    rintro (h' | h')
    · simp at h'; exact hn (Or.inl h')
    · rcases List.mem_append.1 h' with h' | h'
      · exact hn (Or.inr h')
      · simp at h'
        exact hm.2 h'
  · intro x hx; exact List.mem_append_left _ (i.postedI x hx)

def addPending (c : Conn) (b : Bool) (subs : List Nat) : Conn :=
  if b then { c with known := c.known ++ subs, pendingSync := c.pendingSync ++ acksFor c.peers subs }
  else { c with known := c.known ++ subs, pendingAsync := c.pendingAsync ++ acksFor c.peers subs }

theorem mem_addPending (c : Conn) (b b' : Bool) (subs : List Nat) (p s : Nat) :
    (p, s) ∈ (addPending c b subs).pending b' ↔ (p, s) ∈ c.pending b' ∨ (b = b' ∧ p ∈ c.peers ∧ s ∈ subs) := by
  cases b <;> cases b' <;> simp [addPending, Conn.pending, mem_acksFor]

theorem addPending_other (c : Conn) (b : Bool) (subs : List Nat) : (addPending c b subs).peers = c.peers ∧
    (addPending c b subs).known = c.known ++ subs ∧ (addPending c b subs).posted = c.posted := by
  cases b <;> simp [addPending]

theorem Inv.subscribe {c : Conn} {t : List Out} (i : Inv c t) (b : Bool) (k : Nat) (rs : List Nat) :
    Inv (addPending c b (newReceivers c.known rs)) (t ++ [.subscribed b k (newReceivers c.known rs)]) := by
  generalize hsubs : newReceivers c.known rs = subs
  have hnew : ∀ s ∈ subs, s ∉ c.known := fun s hs => by rw [← hsubs, mem_newReceivers] at hs; exact hs.2
  have hnd : subs.Nodup := hsubs ▸ nodup_newReceivers rs c.known
  obtain ⟨o1, o2, o3⟩ := addPending_other c b subs
  have hconn : ∀ p, connected (t ++ [.subscribed b k subs]) p = connected t p := by
    intro p; rw [connected_append]; rfl
  refine ⟨?_, o1 ▸ i.nodupP, ?_, ?_, ?_, ?_, ?_, ?_⟩
  · intro p; rw [o1, hconn]; exact i.conn p
  · cases b
    · exact i.nodupA
    · show (c.pendingSync ++ acksFor c.peers subs).Nodup
      rw [List.nodup_append]
      refine ⟨i.nodupA, nodup_acksFor _ i.nodupP _ hnd, ?_⟩
      rintro ⟨p, s⟩ ha y hb rfl
      exact hnew s ((mem_acksFor _ _ _ _).1 hb).2 (i.fresh true p s ha).2
  · intro s
    rw [o2, List.mem_append, i.knownI s]
    constructor
    · rintro (⟨b', k', subs', h, hs⟩ | h)
      · exact ⟨b', k', subs', by simp [h], hs⟩
      · exact ⟨b, k, subs, by simp, h⟩
    · rintro ⟨b', k', subs', h, hs⟩
      rcases List.mem_append.1 h with h | h
      · exact Or.inl ⟨b', k', subs', h, hs⟩
      · simp at h; exact Or.inr (h.2.2 ▸ hs)
  · intro b' p s h
    rw [o1, o2]
    rcases (mem_addPending ..).1 h with h | ⟨-, hp, hs⟩
    · have := i.fresh b' p s h
      exact ⟨this.1, by simp [this.2]⟩
    · exact ⟨hp, by simp [hs]⟩
  · intro b' t1 t2 k' subs' e p hp s hs
    rcases List.append_eq_append_iff.1 e with ⟨w, h1, h2⟩ | ⟨w, h1, h2⟩
    · cases w with
      | nil =>
          simp at h1 h2
          obtain ⟨⟨rfl, rfl, rfl⟩, rfl⟩ := h2
          left
          rw [mem_addPending]
          exact Or.inr ⟨rfl, (i.conn p).2 (h1 ▸ hp), hs⟩
      | cons o w => simp at h2
    · cases w with
      | nil =>
          simp at h1 h2
          obtain ⟨⟨rfl, rfl, rfl⟩, rfl⟩ := h2
          left
          rw [mem_addPending]
          exact Or.inr ⟨rfl, (i.conn p).2 (h1 ▸ hp), hs⟩
      | cons o w =>
          simp only [List.cons_append, List.cons.injEq] at h2
          rcases i.safe b' t1 w k' subs' (by rw [h1, h2.1]) p hp s hs with h | h
          · exact Or.inl ((mem_addPending ..).2 (Or.inl h))
          · rw [h2.2]; exact Or.inr (settled_mono h)
  · intro p s h
    rcases (mem_addPending (b' := true) ..).1 h with h | ⟨hb, hp, hs⟩
    · obtain ⟨t1, t2, k', subs', e, hc, hs, hn⟩ := i.stuck p s h
      refine ⟨t1, t2 ++ [.subscribed b k subs], k', subs', by rw [e]; simp, hc, hs, ?_⟩
      rintro (h' | h') <;> simp at h'
      · exact hn (Or.inl h')
      · exact hn (Or.inr h')
    · subst hb
      exact ⟨t, [], k, subs, rfl, (i.conn p).1 hp, hs, by rintro (h | h) <;> simp at h⟩
  · intro x hx; rw [o3] at hx; exact List.mem_append_left _ (i.postedI x hx)

theorem executeOne_comp (c : Conn) (b : Bool) (k : Nat) (rs : List Nat) :
    ∃ u, (executeOne c b k rs).2 = .subscribed b k (newReceivers c.known rs) :: u ∧
      Comp (addPending c b (newReceivers c.known rs)) (executeOne c b k rs).1 u := by
  unfold executeOne addPending
  cases b
  · refine ⟨_, rfl, ?_⟩
    simp only [Bool.false_eq_true, if_false]
    split
    · exact Comp.async _
    · exact Comp.refl _
  · refine ⟨_, rfl, ?_⟩
    simp only [if_true]
    split
    · exact Comp.sync _
    · exact Comp.refl _

theorem Inv.on {c : Conn} {t : List Out} (i : Inv c t) (e : Event) : Inv (on c e).1 (t ++ (on c e).2) := by
  cases e with
  | join p =>
      simp only [Registration.on, join]
      split
      · simpa using i
      · rename_i hp
        refine ⟨?_, ?_, i.nodupA, ?_, ?_, ?_, ?_, ?_⟩
        · intro q
          rw [connected_append]
          simp only [List.mem_append, List.mem_singleton, i.conn q, List.foldl_cons, List.foldl_nil, connStep]
          split
          · rename_i h; subst h; simp
          · rename_i h; simp [Ne.symm h]
        · show (c.peers ++ [p]).Nodup
          rw [List.nodup_append]
          refine ⟨i.nodupP, by simp, ?_⟩
          intro a ha b hb; simp at hb; subst hb; intro h; subst h; exact hp ha
        · intro s; rw [i.knownI s]; simp
        · intro b q s h
          have := i.fresh b q s (by cases b <;> exact h)
          exact ⟨by simp [this.1], this.2⟩
        · intro b t1 t2 k subs e q hq s hs
          obtain ⟨t2', e1, e2⟩ := subscribed_split (by simp) e
          rcases i.safe b t1 t2' k subs e1 q hq s hs with h | h
          · exact Or.inl (by cases b <;> exact h)
          · right; rw [e2]; exact settled_mono h
        · intro q s h
          obtain ⟨t1, t2, k, subs, e, hc, hs, hn⟩ := i.stuck q s h
          refine ⟨t1, t2 ++ [.joined p], k, subs, by rw [e]; simp, hc, hs, ?_⟩
          rintro (h' | h') <;> simp at h'
          · exact hn (Or.inl h')
          · exact hn (Or.inr h')
        · intro x hx; exact List.mem_append_left _ (i.postedI x hx)
  | leave p =>
      simp only [Registration.on, leave]
      split
      · have x1 := (goneSync_comp { c with peers := c.peers.filter (· ≠ p) } p).setAsync (fun l => l.filter (·.1 ≠ p))
        have x2 := goneAsync_comp (goneSync { c with peers := c.peers.filter (· ≠ p) } p).1 p
        have := (i.gone p).comp (x1.trans x2)
        simpa using this
      · simpa using i
  | ack p s =>
      simp only [Registration.on, onAck]
      split
      · have x1 := (ackSync_comp c (p, s)).setAsync (fun l => l.erase (p, s))
        have x2 := ackAsync_comp (ackSync c (p, s)).1 (p, s)
        have := (i.ack p s).comp (x1.trans x2)
        simpa using this
      · simpa using i
  | register b k rs =>
      simp only [Registration.on, register]
      split
      · rename_i hb; subst hb
        split
        · refine i.calm ?_ ?_ rfl rfl (fun b => by cases b <;> rfl) ?_
          · intro o ho
            cases hp : c.promise <;> simp [hp] at ho
            · subst ho; simp [Calm]
            · rcases ho with rfl | rfl <;> simp [Calm]
          · intro o ho
            cases hp : c.promise <;> simp [hp] at ho
            · subst ho; simp
            · rcases ho with rfl | rfl <;> simp
          · intro x hx
            simp at hx
            rcases hx with h | rfl
            · exact Or.inl h
            · right; simp
        · refine i.calm ?_ ?_ rfl rfl (fun b => by cases b <;> rfl) (fun x hx => Or.inl hx)
          · simp [Calm]
          · simp
      · rename_i hb
        refine i.calm ?_ ?_ rfl rfl (fun b => by cases b <;> rfl) ?_
        · simp [Calm]
        · simp
        · intro x hx
          simp at hx
          rcases hx with h | rfl
          · exact Or.inl h
          · right; simp
  | execute =>
      simp only [Registration.on, execute]
      split
      · simpa using i
      · rename_i b k rs rest hposted
        obtain ⟨u, e, x⟩ := executeOne_comp { c with posted := rest } b k rs
        rw [e]
        have i' : Inv { c with posted := rest } t := by
          have := i.calm (c' := { c with posted := rest }) (u := []) (by simp) (by simp) rfl rfl (fun b => by cases b <;> rfl)
            (fun x hx => Or.inl (by rw [hposted]; exact List.mem_cons_of_mem _ hx))
          simpa using this
        have := (i'.subscribe b k rs).comp x
        simpa using this
  | addHandler j =>
      simp only [Registration.on, addHandler]
      split
      · exact i.calm (by simp [Calm]) (by simp) rfl rfl (fun b => by cases b <;> rfl) (fun x hx => Or.inl hx)
      · exact i.calm (by simp [Calm]) (by simp) rfl rfl (fun b => by cases b <;> rfl) (fun x hx => Or.inl hx)

theorem Inv.init : Inv {} [] := by
  refine ⟨by simp [connected], by simp, by simp, by simp, ?_, by simp, by simp, by simp⟩
  intro b; cases b <;> simp [Conn.pending]

theorem inv_run (h : List Event) : Inv (run h).1 (run h).2 := by
  rw [← List.reverse_reverse h]
  induction h.reverse with
  | nil => exact Inv.init
  | cons e l ih =>
      rw [List.reverse_cons, run_append]
      exact ih.on e

/-- Call `k` has been made and has not returned. -/
def Called (t : List Out) (k : Nat) (rs : List Nat) : Prop :=
  ∃ t1 t2, t = t1 ++ .called true k rs :: t2 ∧ ∀ o ∈ t2, ¬ SyncEvent o

/-- Besides, its receivers have been subscribed. -/
def Subscribed (t : List Out) (k : Nat) : Prop :=
  ∃ t1 rs t2 subs t3, t = t1 ++ .called true k rs :: (t2 ++ .subscribed true k subs :: t3) ∧
    (∀ o ∈ t2 ++ t3, ¬ SyncEvent o) ∧
    (∀ s, s ∈ subs ↔ s ∈ rs ∧ ∀ b k' subs', Out.subscribed b k' subs' ∈ t1 ++ .called true k rs :: t2 → s ∉ subs')

def Phase (c : Conn) (t : List Out) (k : Nat) : Prop :=
  (∃ rs, c.pendingSync = [] ∧ c.posted.filter (·.1) = [(true, k, rs)] ∧ Called t k rs) ∨
  (c.pendingSync ≠ [] ∧ c.posted.filter (·.1) = [] ∧ Subscribed t k)

/-- What holds when one thread registers services. -/
structure One (c : Conn) (t : List Out) : Prop where
  out : outstanding t = c.promise
  idle : c.promise = none → c.pendingSync = [] ∧ c.posted.filter (·.1) = []
  busy : ∀ k, c.promise = some k → Phase c t k
  ret : ∀ a k b, t = a ++ .returned k :: b → MayReturn a k
  exc : Out.exception ∉ t

/-- Outputs that say nothing about synchronous calls. -/
def Dull (o : Out) : Prop := ¬ SyncEvent o

theorem out_dull : ∀ (u : List Out) (o : Option Nat), (∀ x ∈ u, Dull x) → u.foldl callStep o = o
  | [], _, _ => rfl
  | x :: u, o, h => by
      have hx := h x (by simp)
      rw [List.foldl_cons, out_dull u _ (fun y hy => h y (by simp [hy]))]
      cases x with
      | called b k rs => cases b <;> simp_all [Dull, SyncEvent, callStep]
      | _ => simp_all [Dull, SyncEvent, callStep]

theorem called_append {t u : List Out} {k : Nat} {rs : List Nat} (h : Called t k rs) (hu : ∀ x ∈ u, Dull x) : Called (t ++ u) k rs := by
  obtain ⟨t1, t2, e, hn⟩ := h
  refine ⟨t1, t2 ++ u, by rw [e]; simp, fun o ho => ?_⟩
  rcases List.mem_append.1 ho with ho | ho
  · exact hn o ho
  · exact hu _ ho

theorem subscribed_append {t u : List Out} {k : Nat} (h : Subscribed t k) (hu : ∀ x ∈ u, Dull x) : Subscribed (t ++ u) k := by
  obtain ⟨t1, rs, t2, subs, t3, e, hn, hs⟩ := h
  refine ⟨t1, rs, t2, subs, t3 ++ u, by rw [e]; simp, fun o ho => ?_, hs⟩
  rw [← List.append_assoc] at ho
  rcases List.mem_append.1 ho with ho | ho
  · exact hn o ho
  · exact hu _ ho

theorem ret_append {t u : List Out} (h : ∀ a k b, t = a ++ .returned k :: b → MayReturn a k) (hu : ∀ k, Out.returned k ∉ u) :
    ∀ a k b, t ++ u = a ++ .returned k :: b → MayReturn a k := by
  intro a k b e
  rcases List.append_eq_append_iff.1 e with ⟨w, h1, h2⟩ | ⟨w, h1, h2⟩
  · exact absurd (by rw [h2]; simp) (hu k)
  · cases w with
    | nil => exact absurd (by rw [List.nil_append] at h2; rw [← h2]; simp) (hu k)
    | cons o w =>
        simp only [List.cons_append, List.cons.injEq] at h2
        exact h a k w (by rw [h1, h2.1])

theorem dull_ret {u : List Out} (hu : ∀ x ∈ u, Dull x) : ∀ k, Out.returned k ∉ u := fun _ h => hu _ h trivial
theorem dull_exc {u : List Out} (hu : ∀ x ∈ u, Dull x) : Out.exception ∉ u := fun h => hu _ h trivial

theorem One.dull {c c' : Conn} {t u : List Out} (j : One c t) (hu : ∀ x ∈ u, Dull x) (h1 : c'.promise = c.promise)
    (h2 : c'.pendingSync = c.pendingSync) (h3 : c'.posted.filter (·.1) = c.posted.filter (·.1)) : One c' (t ++ u) := by
  refine ⟨?_, ?_, ?_, ret_append j.ret (dull_ret hu), ?_⟩
  · rw [outstanding_append, out_dull u _ hu, j.out, h1]
  · intro h; rw [h2, h3]; exact j.idle (h1 ▸ h)
  · intro k hk
    rcases j.busy k (h1 ▸ hk) with ⟨rs, a, b, d⟩ | ⟨a, b, d⟩
    · exact Or.inl ⟨rs, by rw [h2, a], by rw [h3, b], called_append d hu⟩
    · exact Or.inr ⟨by rw [h2]; exact a, by rw [h3, b], subscribed_append d hu⟩
  · intro h
    rcases List.mem_append.1 h with h | h
    · exact j.exc h
    · exact dull_exc hu h

/-- The acknowledges of a registration are complete. -/
theorem One.complete {c : Conn} {t : List Out} {k : Nat} (hp : c.promise = some k) (hs : Subscribed t k) (h0 : c.pendingSync = [])
    (hq : c.posted.filter (·.1) = []) (hall : AllSettled true t) (hret : ∀ a k b, t = a ++ .returned k :: b → MayReturn a k)
    (hexc : Out.exception ∉ t) : One (syncCompleted c).1 (t ++ (syncCompleted c).2) := by
  have e : syncCompleted c = ({ c with promise := none }, [.returned k]) := by unfold syncCompleted; rw [hp]
  rw [e]
  have hmay : MayReturn t k := by
    obtain ⟨t1, rs, t2, subs, t3, e, hn, hs⟩ := hs
    exact ⟨t1, rs, t2, subs, t3, e, hn, hs, hall (t1 ++ .called true k rs :: t2) t3 k subs (by rw [e]; simp)⟩
  refine ⟨?_, fun _ => ⟨h0, hq⟩, by simp, ?_, by simpa using hexc⟩
  · rw [outstanding_append]; rfl
  · intro a k' b e
    rcases List.append_eq_append_iff.1 e with ⟨w, h1, h2⟩ | ⟨w, h1, h2⟩
    · cases w with
      | nil =>
          simp at h1 h2
          obtain ⟨rfl, rfl⟩ := h2
          exact h1 ▸ hmay
      | cons o w => simp at h2
    · cases w with
      | nil =>
          simp at h1 h2
          obtain ⟨rfl, rfl⟩ := h2
          exact h1 ▸ hmay
      | cons o w =>
          simp only [List.cons_append, List.cons.injEq] at h2
          exact hret a k' w (by rw [h1, h2.1])

theorem allSettled_of_inv {c : Conn} {t : List Out} (i : Inv c t) (h : c.pendingSync = []) : AllSettled true t := by
  intro t1 t2 k subs e p hp s hs
  rcases i.safe true t1 t2 k subs e p hp s hs with h' | h'
  · rw [show c.pending true = [] from h] at h'; cases h'
  · exact h'

/-- Some acknowledges have been removed, while others were pending. -/
theorem One.shrink {c c' : Conn} {t u : List Out} (j : One c t) (hu : ∀ x ∈ u, Dull x) (h1 : c'.promise = c.promise)
    (h3 : c'.posted = c.posted) (hne : c.pendingSync ≠ []) (hall : c'.pendingSync = [] → AllSettled true (t ++ u)) :
    One (if c'.pendingSync = [] then syncCompleted c' else (c', [])).1
      (t ++ u ++ (if c'.pendingSync = [] then syncCompleted c' else (c', [])).2) := by
  cases hp : c.promise with
  | none => exact absurd (j.idle hp).1 hne
  | some k =>
      rcases j.busy k hp with ⟨rs, a, -, -⟩ | ⟨-, b, d⟩
      · exact absurd a hne
      · have hret := ret_append j.ret (dull_ret hu)
        have hexc : Out.exception ∉ t ++ u := by
          intro h
          rcases List.mem_append.1 h with h | h
          · exact j.exc h
          · exact dull_exc hu h
        split
        · rename_i h0
          exact One.complete (h1.trans hp) (subscribed_append d hu) h0 (by rw [h3, b]) (hall h0) hret hexc
        · rename_i h0
          refine ⟨?_, ?_, ?_, by simpa using hret, by simpa using hexc⟩
          · simp only [List.append_nil]; rw [outstanding_append, out_dull u _ hu, j.out, h1]
          · intro h; rw [h1, hp] at h; cases h
          · intro k' hk'
            rw [h1, hp] at hk'; cases hk'
            refine Or.inr ⟨h0, by rw [h3, b], ?_⟩
            simpa using subscribed_append d hu

theorem asyncCompleted_dull (c : Conn) : (∀ x ∈ (asyncCompleted c).2, Dull x) ∧ (asyncCompleted c).1.promise = c.promise ∧
    (asyncCompleted c).1.pendingSync = c.pendingSync ∧ (asyncCompleted c).1.posted = c.posted := by
  refine ⟨?_, rfl, rfl, rfl⟩
  intro x hx
  obtain ⟨j, -, rfl⟩ := List.mem_map.1 hx
  simp [Dull, SyncEvent]

theorem ackAsync_dull (c : Conn) (a : Ack) : (∀ x ∈ (ackAsync c a).2, Dull x) ∧ (ackAsync c a).1.promise = c.promise ∧
    (ackAsync c a).1.pendingSync = c.pendingSync ∧ (ackAsync c a).1.posted = c.posted := by
  unfold ackAsync
  split
  · dsimp only; split
    · exact asyncCompleted_dull { c with pendingAsync := c.pendingAsync.erase a }
    · simp
  · simp

theorem goneAsync_dull (c : Conn) (p : Nat) : (∀ x ∈ (goneAsync c p).2, Dull x) ∧ (goneAsync c p).1.promise = c.promise ∧
    (goneAsync c p).1.pendingSync = c.pendingSync ∧ (goneAsync c p).1.posted = c.posted := by
  unfold goneAsync
  split
  · dsimp only; split
    · exact asyncCompleted_dull { c with pendingAsync := c.pendingAsync.filter (·.1 ≠ p) }
    · simp
  · simp

theorem One.on {c : Conn} {t : List Out} (j : One c t) (i : Inv c t) (e : Event)
    (he : ∀ k rs, e = .register true k rs → outstanding t = none) : One (on c e).1 (t ++ (on c e).2) := by
  cases e with
  | join p =>
      simp only [Registration.on, join]
      split
      · simpa using j
      · exact j.dull (by simp [Dull, SyncEvent]) rfl rfl rfl
  | leave p =>
      simp only [Registration.on, leave]
      split
      · have hd := goneAsync_dull (goneSync { c with peers := c.peers.filter (· ≠ p) } p).1 p
        have : One (goneSync { c with peers := c.peers.filter (· ≠ p) } p).1
            (t ++ .gone p :: (goneSync { c with peers := c.peers.filter (· ≠ p) } p).2) := by
          unfold goneSync
          split
          · rename_i hany
            have hne : c.pendingSync ≠ [] := by
              intro h0; rw [show ({ c with peers := c.peers.filter (· ≠ p) } : Conn).pendingSync = c.pendingSync from rfl, h0] at hany
              simp at hany
            have := j.shrink (c' := { c with peers := c.peers.filter (· ≠ p), pendingSync := c.pendingSync.filter (·.1 ≠ p) })
              (u := [.gone p]) (by simp [Dull, SyncEvent]) rfl rfl hne (fun h0 => allSettled_of_inv (i.gone p) h0)
            simpa using this
          · exact j.dull (by simp [Dull, SyncEvent]) rfl rfl rfl
        have := this.dull hd.1 hd.2.1 hd.2.2.1 (by rw [hd.2.2.2])
        simpa using this
      · simpa using j
  | ack p s =>
      simp only [Registration.on, onAck]
      split
      · have hd := ackAsync_dull (ackSync c (p, s)).1 (p, s)
        have : One (ackSync c (p, s)).1 (t ++ .acked p s :: (ackSync c (p, s)).2) := by
          unfold ackSync
          split
          · rename_i hany
            have hne : c.pendingSync ≠ [] := by intro h0; rw [h0] at hany; simp at hany
            have := j.shrink (c' := { c with pendingSync := c.pendingSync.erase (p, s) })
              (u := [.acked p s]) (by simp [Dull, SyncEvent]) rfl rfl hne (fun h0 => allSettled_of_inv (i.ack p s) h0)
            simpa using this
          · exact j.dull (by simp [Dull, SyncEvent]) rfl rfl rfl
        have := this.dull hd.1 hd.2.1 hd.2.2.1 (by rw [hd.2.2.2])
        simpa using this
      · simpa using j
  | register b k rs =>
      simp only [Registration.on, register]
      split
      · rename_i hb; subst hb
        have hn : c.promise = none := by rw [← j.out]; exact he k rs rfl
        obtain ⟨h0, hq⟩ := j.idle hn
        simp only [h0, if_true, hn, Option.toList_none, List.map_nil, List.nil_append]
        refine ⟨?_, by simp, ?_, ret_append j.ret (by simp), by simpa using j.exc⟩
        · rw [outstanding_append]; rfl
        · intro k' hk'
          cases hk'
          refine Or.inl ⟨rs, rfl, ?_, t, [], rfl, by simp⟩
          simp [List.filter_append, hq]
      · rename_i hb
        have : b = false := by cases b <;> simp_all
        subst this
        refine j.dull ?_ rfl rfl ?_
        · simp [Dull, SyncEvent]
        · simp [List.filter_append]
  | execute =>
      simp only [Registration.on, execute]
      split
      · simpa using j
      · rename_i b k rs rest hposted
        have i' : Inv { c with posted := rest } t := by
          have := i.calm (c' := { c with posted := rest }) (u := []) (by simp) (by simp) rfl rfl (fun b => by cases b <;> rfl)
            (fun x hx => Or.inl (by rw [hposted]; exact List.mem_cons_of_mem _ hx))
          simpa using this
        cases b with
        | false =>
            unfold executeOne
            simp only [Bool.false_eq_true, if_false]
            split
            · have hd := asyncCompleted_dull { c with posted := rest, known := c.known ++ newReceivers c.known rs, pendingAsync := c.pendingAsync ++ acksFor c.peers (newReceivers c.known rs) }
              refine j.dull ?_ hd.2.1 hd.2.2.1 ?_
              · intro x hx
                rcases List.mem_cons.1 hx with rfl | hx
                · simp [Dull, SyncEvent]
                · exact hd.1 x hx
              · rw [hd.2.2.2, hposted]; simp
            · refine j.dull (by simp [Dull, SyncEvent]) rfl rfl ?_
              rw [hposted]; simp
        | true =>
            obtain ⟨o, hp⟩ : ∃ o, c.promise = o := ⟨_, rfl⟩
            cases o with
            | none =>
                have := (j.idle hp).2
                rw [hposted] at this; simp at this
            | some k' =>
                rcases j.busy k' hp with ⟨rs', h0, hq, t1, t2, e, hn⟩ | ⟨-, hq, -⟩
                · rw [hposted] at hq
                  simp only [List.filter_cons, if_true, List.cons.injEq, Prod.mk.injEq, true_and] at hq
                  obtain ⟨⟨rfl, rfl⟩, hrest⟩ := hq
                  have hsub : Subscribed (t ++ [.subscribed true k (newReceivers c.known rs)]) k := by
                    refine ⟨t1, rs, t2, newReceivers c.known rs, [], by rw [e]; simp, by simpa using hn, ?_⟩
                    intro s
                    rw [mem_newReceivers, i.knownI s, ← e]
                    constructor
                    · rintro ⟨h1, h2⟩
                      exact ⟨h1, fun b k' subs' hm hs => h2 ⟨b, k', subs', hm, hs⟩⟩
                    · rintro ⟨h1, h2⟩
                      exact ⟨h1, fun ⟨b, k', subs', hm, hs⟩ => h2 b k' subs' hm hs⟩
                  have hret := ret_append (u := [.subscribed true k (newReceivers c.known rs)]) j.ret (by simp)
                  have hexc : Out.exception ∉ t ++ [.subscribed true k (newReceivers c.known rs)] := by simpa using j.exc
                  unfold executeOne
                  simp only [if_true]
                  split
                  · rename_i h1
                    have := One.complete (c := { c with posted := rest, known := c.known ++ newReceivers c.known rs, pendingSync := c.pendingSync ++ acksFor c.peers (newReceivers c.known rs) })
                      hp hsub h1 hrest (allSettled_of_inv (i'.subscribe true k rs) h1) hret hexc
                    simpa using this
                  · rename_i h1
                    refine ⟨?_, ?_, ?_, hret, hexc⟩
                    · rw [outstanding_append]; exact j.out
                    · intro h
                      have h' : c.promise = none := h
                      rw [hp] at h'; cases h'
                    · intro k'' hk
                      have hk' : c.promise = some k'' := hk
                      rw [hp] at hk'
                      cases hk'
                      exact Or.inr ⟨h1, hrest, hsub⟩
                · rw [hposted] at hq; simp at hq
  | addHandler n =>
      simp only [Registration.on, addHandler]
      split
      · exact j.dull (by simp [Dull, SyncEvent]) rfl rfl rfl
      · exact j.dull (by simp [Dull, SyncEvent]) rfl rfl rfl

theorem One.init : One {} [] := ⟨rfl, fun _ => ⟨rfl, rfl⟩, by simp, by simp, by simp⟩

theorem oneThread_prefix {h : List Event} {e : Event} (ho : OneThread (h ++ [e])) : OneThread h := by
  intro a b k rs e'
  exact ho a (b ++ [e]) k rs (by rw [e']; simp)

theorem one_run (h : List Event) (ho : OneThread h) : One (run h).1 (run h).2 := by
  revert ho
  rw [← List.reverse_reverse h]
  induction h.reverse with
  | nil => intro _; exact One.init
  | cons e l ih =>
      rw [List.reverse_cons]
      intro ho
      rw [run_append]
      refine (ih (oneThread_prefix ho)).on (inv_run _) e ?_
      intro k rs he
      exact ho l.reverse [] k rs (by rw [he])

/-- When the handlers for asynchronous registrations are called. -/
def Asy (t : List Out) : Prop :=
  ∀ a j b, t = a ++ .handlerCalled j :: b → (∃ a', a = a' ++ [.handlerAdded j]) ∨ AllSettled false a

theorem asy_append {t u : List Out} (h : Asy t) (hu : ∀ j, Out.handlerCalled j ∉ u) : Asy (t ++ u) := by
  intro a k b e
  rcases List.append_eq_append_iff.1 e with ⟨w, h1, h2⟩ | ⟨w, h1, h2⟩
  · exact absurd (by rw [h2]; simp) (hu k)
  · cases w with
    | nil => exact absurd (by rw [List.nil_append] at h2; rw [← h2]; simp) (hu k)
    | cons o w =>
        simp only [List.cons_append, List.cons.injEq] at h2
        exact h a k w (by rw [h1, h2.1])

theorem asy_one {t : List Out} {j : Nat} (h : Asy t) (hj : (∃ a', t = a' ++ [.handlerAdded j]) ∨ AllSettled false t) :
    Asy (t ++ [.handlerCalled j]) := by
  intro a k b e
  rcases List.append_eq_append_iff.1 e with ⟨w, h1, h2⟩ | ⟨w, h1, h2⟩
  · cases w with
    | nil => simp at h1 h2; obtain ⟨rfl, rfl⟩ := h2; exact h1 ▸ hj
    | cons o w => simp at h2
  · cases w with
    | nil => simp at h1 h2; obtain ⟨rfl, rfl⟩ := h2; exact h1 ▸ hj
    | cons o w =>
        simp only [List.cons_append, List.cons.injEq] at h2
        exact h a k w (by rw [h1, h2.1])

theorem allSettled_append {b : Bool} {t u : List Out} (h : AllSettled b t) (hu : ∀ o ∈ u, ∀ b k s, o ≠ .subscribed b k s) :
    AllSettled b (t ++ u) := by
  intro t1 t2 k subs e p hp s hs
  obtain ⟨t2', e1, e2⟩ := subscribed_split hu e
  rw [e2]
  exact settled_mono (h t1 t2' k subs e1 p hp s hs)

theorem asy_handlers : ∀ (l : List Nat) {t : List Out}, Asy t → AllSettled false t → Asy (t ++ l.map .handlerCalled)
  | [], t, h, _ => by simpa using h
  | j :: l, t, h, hs => by
      have := asy_handlers l (asy_one (j := j) h (Or.inr hs)) (allSettled_append hs (by simp))
      simpa using this

theorem allSettledA_of_inv {c : Conn} {t : List Out} (i : Inv c t) (h : c.pendingAsync = []) : AllSettled false t := by
  intro t1 t2 k subs e p hp s hs
  rcases i.safe false t1 t2 k subs e p hp s hs with h' | h'
  · rw [show c.pending false = [] from h] at h'; cases h'
  · exact h'

theorem syncCompleted_other (c : Conn) : (syncCompleted c).1.pendingAsync = c.pendingAsync ∧
    (∀ j, Out.handlerCalled j ∉ (syncCompleted c).2) ∧ ∀ o ∈ (syncCompleted c).2, ∀ b k s, o ≠ .subscribed b k s := by
  unfold syncCompleted; split <;> simp

theorem ackSync_other (c : Conn) (a : Ack) : (ackSync c a).1.pendingAsync = c.pendingAsync ∧
    (∀ j, Out.handlerCalled j ∉ (ackSync c a).2) ∧ ∀ o ∈ (ackSync c a).2, ∀ b k s, o ≠ .subscribed b k s := by
  unfold ackSync
  split
  · dsimp only; split
    · exact syncCompleted_other { c with pendingSync := c.pendingSync.erase a }
    · simp
  · simp

theorem goneSync_other (c : Conn) (p : Nat) : (goneSync c p).1.pendingAsync = c.pendingAsync ∧
    (∀ j, Out.handlerCalled j ∉ (goneSync c p).2) ∧ ∀ o ∈ (goneSync c p).2, ∀ b k s, o ≠ .subscribed b k s := by
  unfold goneSync
  split
  · dsimp only; split
    · exact syncCompleted_other { c with pendingSync := c.pendingSync.filter (·.1 ≠ p) }
    · simp
  · simp

theorem Asy.on {c : Conn} {t : List Out} (h : Asy t) (i : Inv c t) (e : Event) : Asy (t ++ (on c e).2) := by
  cases e with
  | join p =>
      simp only [Registration.on, join]
      split
      · simpa using h
      · exact asy_append h (by simp)
  | leave p =>
      simp only [Registration.on, leave]
      split
      · have ho := goneSync_other { c with peers := c.peers.filter (· ≠ p) } p
        have h1 : Asy (t ++ .gone p :: (goneSync { c with peers := c.peers.filter (· ≠ p) } p).2) :=
          asy_append h (by simpa using ho.2.1)
        have : Asy (t ++ .gone p :: (goneSync { c with peers := c.peers.filter (· ≠ p) } p).2 ++
            (goneAsync (goneSync { c with peers := c.peers.filter (· ≠ p) } p).1 p).2) := by
          unfold goneAsync
          split
          · dsimp only; split
            · rename_i h0
              refine asy_handlers _ h1 ?_
              rw [ho.1] at h0
              have := allSettled_append (allSettledA_of_inv (i.gone p) h0) ho.2.2
              simpa using this
            · simpa using h1
          · simpa using h1
        simpa using this
      · simpa using h
  | ack p s =>
      simp only [Registration.on, onAck]
      split
      · have ho := ackSync_other c (p, s)
        have h1 : Asy (t ++ .acked p s :: (ackSync c (p, s)).2) := asy_append h (by simpa using ho.2.1)
        have : Asy (t ++ .acked p s :: (ackSync c (p, s)).2 ++ (ackAsync (ackSync c (p, s)).1 (p, s)).2) := by
          unfold ackAsync
          split
          · dsimp only; split
            · rename_i h0
              refine asy_handlers _ h1 ?_
              rw [ho.1] at h0
              have := allSettled_append (allSettledA_of_inv (i.ack p s) h0) ho.2.2
              simpa using this
            · simpa using h1
          · simpa using h1
        simpa using this
      · simpa using h
  | register b k rs =>
      simp only [Registration.on, register]
      split
      · split
        · refine asy_append h ?_
          cases c.promise <;> simp
        · exact asy_append h (by simp)
      · exact asy_append h (by simp)
  | execute =>
      simp only [Registration.on, execute]
      split
      · simpa using h
      · rename_i b k rs rest hposted
        have i' : Inv { c with posted := rest } t := by
          have := i.calm (c' := { c with posted := rest }) (u := []) (by simp) (by simp) rfl rfl (fun b => by cases b <;> rfl)
            (fun x hx => Or.inl (by rw [hposted]; exact List.mem_cons_of_mem _ hx))
          simpa using this
        unfold executeOne
        cases b with
        | true =>
            simp only [if_true]
            refine asy_append h ?_
            intro j hj
            rcases List.mem_cons.1 hj with hj | hj
            · cases hj
            · split at hj
              · exact (syncCompleted_other _).2.1 j hj
              · simp at hj
        | false =>
            simp only [Bool.false_eq_true, if_false]
            have h1 : Asy (t ++ [.subscribed false k (newReceivers c.known rs)]) := asy_append h (by simp)
            split
            · rename_i h0
              have := asy_handlers c.handlers h1 (allSettledA_of_inv (i'.subscribe false k rs) h0)
              simpa [asyncCompleted] using this
            · exact h1
  | addHandler n =>
      simp only [Registration.on, addHandler]
      split
      · exact asy_append h (by simp)
      · have := asy_one (j := n) (asy_append (u := [.handlerAdded n]) h (by simp)) (Or.inl ⟨t, rfl⟩)
        simpa using this

theorem asy_run (h : List Event) : Asy (run h).2 := by
  rw [← List.reverse_reverse h]
  induction h.reverse with
  | nil => intro a j b e; simp [run] at e
  | cons e l ih =>
      rw [List.reverse_cons, run_append]
      exact ih.on (inv_run _) e

end SilKit.Registration
