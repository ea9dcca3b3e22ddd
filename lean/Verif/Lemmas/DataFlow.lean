import Verif.Spec.DataFlow
import Verif.Lemmas.PubSubMatching
import Verif.Lemmas.LinksAccept
/-! # Lemmas: publish/subscribe from end to end -/
namespace SilKit.DataFlow
open SilKit.Links (MsgType)
open SilKit.Discovery SilKit.Spec SilKit.Labels

variable {V : Type} {off : Nat → MsgType → String → Bool}

theorem channel_inj {u u' : Nat} (h : channel u = channel u') : u = u' := by
  have e : Nat.toDigits 10 u = Nat.toDigits 10 u' := by
    have := congrArg String.toList h
    simpa [channel, String.toList_ofList] using this
  have := congrArg (fun l => Nat.ofDigitChars 10 l 0) e
  simpa only [Nat.ofDigitChars_toDigits (by decide : 1 < 10) (by decide)] using this

/-! ## Notices -/

theorem noticeStep_fst (r : (Nat → Option Subscriber) × List (Nat × Nat)) (n : Notice) (j : Nat) :
    (noticeStep r n).1 j = if n.handler = j then (r.1 j).map (fun sub => sub.onNotice n) else r.1 j := by
  unfold noticeStep
  cases h : r.1 n.handler with
  | none =>
    by_cases e : n.handler = j
    · subst e; simp [h]
    · simp [e]
  | some sub =>
    by_cases e : n.handler = j
    · subst e; simp [h]
    · have e' : ¬ j = n.handler := fun x => e x.symm
      simp [e, e']

theorem foldl_notices_fst (ns : List Notice) (r : (Nat → Option Subscriber) × List (Nat × Nat)) (j : Nat) :
    (ns.foldl noticeStep r).1 j = (r.1 j).map (fun sub => (ns.filter (fun n => n.handler == j)).foldl Subscriber.onNotice sub) := by
  induction ns generalizing r with
  | nil => simp
  | cons n ns ih =>
    rw [List.foldl_cons, ih, noticeStep_fst]
    by_cases e : n.handler = j
    · have e' : (n.handler == j) = true := by simpa using e
      rw [if_pos e, List.filter_cons, if_pos e', Option.map_map]
      rfl
    · have e' : ¬ (n.handler == j) = true := by simpa using e
      rw [if_neg e, List.filter_cons, if_neg e']

theorem worldStep_subs (w : World) (ev : PubSubEvent) (j : Nat) :
    (worldStep w ev).subs j = ((notices w ev).foldl noticeStep (before w ev, [])).1 j := by
  rw [foldl_notices_fst]
  cases ev <;> rfl

theorem onNotice_mediaType (sub : Subscriber) (n : Notice) : (sub.onNotice n).mediaType = sub.mediaType := by
  unfold Subscriber.onNotice
  by_cases h1 : n.created ∧ n.service.id ∈ sub.connected
  · rw [if_pos h1]
  · rw [if_neg h1]
    by_cases h2 : matchMediaType sub.mediaType n.service.mediaType = true
    · rw [if_pos h2]
      by_cases h3 : n.created = true
      · rw [if_pos h3]
      · rw [if_neg h3]
    · rw [if_neg h2]

theorem onNotice_cases (sub : Subscriber) (n : Notice) :
    (sub.connected.length < (sub.onNotice n).connected.length ∧ n.created = true ∧ matchMediaType sub.mediaType n.service.mediaType = true ∧
      (sub.onNotice n).connected = sub.connected ++ [n.service.id]) ∨
    (¬ sub.connected.length < (sub.onNotice n).connected.length ∧ ∀ u, u ∈ (sub.onNotice n).connected → u ∈ sub.connected) := by
  unfold Subscriber.onNotice
  by_cases h1 : n.created ∧ n.service.id ∈ sub.connected
  · rw [if_pos h1]; exact .inr ⟨Nat.lt_irrefl _, fun _ h => h⟩
  · rw [if_neg h1]
    by_cases h2 : matchMediaType sub.mediaType n.service.mediaType = true
    · rw [if_pos h2]
      by_cases h3 : n.created = true
      · rw [if_pos h3]; exact .inl ⟨by simp, h3, h2, rfl⟩
      · rw [if_neg h3]
        refine .inr ⟨?_, fun u hu => (List.mem_filter.1 hu).1⟩
        have := List.length_filter_le (fun u => u != n.service.id) sub.connected
        show ¬ sub.connected.length < (sub.connected.filter _).length
        omega
    · rw [if_neg h2]; exact .inr ⟨Nat.lt_irrefl _, fun _ h => h⟩

/-- Why an internal subscriber is created. -/
theorem mem_added (ns : List Notice) (r : (Nat → Option Subscriber) × List (Nat × Nat)) (j u : Nat) (h : (j, u) ∈ (ns.foldl noticeStep r).2) :
    (j, u) ∈ r.2 ∨ ∃ n ∈ ns, n.handler = j ∧ n.service.id = u ∧ n.created = true ∧
      ∃ sub, r.1 j = some sub ∧ matchMediaType sub.mediaType n.service.mediaType = true := by
  induction ns generalizing r with
  | nil => exact .inl h
  | cons n ns ih =>
    rw [List.foldl_cons] at h
    rcases ih _ h with h1 | ⟨n', hn', e1, e2, e3, sub, e4, e5⟩
    · unfold noticeStep at h1
      cases hr : r.1 n.handler with
      | none => rw [hr] at h1; exact .inl h1
      | some sub =>
        rw [hr] at h1
        rcases onNotice_cases sub n with ⟨c1, c2, c3, _⟩ | ⟨c1, _⟩
        · simp only [if_pos c1, List.mem_append, List.mem_singleton, Prod.mk.injEq] at h1
          rcases h1 with h1 | ⟨rfl, rfl⟩
          · exact .inl h1
          · exact .inr ⟨n, by simp, rfl, rfl, c2, sub, hr, c3⟩
        · simp only [if_neg c1] at h1; exact .inl h1
    · refine .inr ⟨n', by simp [hn'], e1, e2, e3, ?_⟩
      rw [noticeStep_fst] at e4
      by_cases e : n.handler = j
      · rw [if_pos e, Option.map_eq_some_iff] at e4
        obtain ⟨sub0, g1, g2⟩ := e4
        refine ⟨sub0, g1, ?_⟩
        rw [← onNotice_mediaType sub0 n, g2]; exact e5
      · rw [if_neg e] at e4; exact ⟨sub, e4, e5⟩

/-- Whoever is connected afterwards was connected before or got an internal subscriber. -/
theorem connected_added (ns : List Notice) (r : (Nat → Option Subscriber) × List (Nat × Nat)) (j u : Nat) (sub : Subscriber)
    (h : (ns.foldl noticeStep r).1 j = some sub) (hu : u ∈ sub.connected) :
    (j, u) ∈ (ns.foldl noticeStep r).2 ∨ ∃ sub0, r.1 j = some sub0 ∧ u ∈ sub0.connected := by
  have mono : ∀ (ns : List Notice) (r : (Nat → Option Subscriber) × List (Nat × Nat)) a, a ∈ r.2 → a ∈ (ns.foldl noticeStep r).2 := by
    intro ns
    induction ns with
    | nil => intro r a h; exact h
    | cons n ns ih =>
      intro r a h
      refine ih _ a ?_
      unfold noticeStep
      cases hr : r.1 n.handler with
      | none => exact h
      | some sub =>
        show a ∈ (if _ then _ else _)
        split
        · exact List.mem_append_left _ h
        · exact h
  induction ns generalizing r with
  | nil => exact .inr ⟨sub, h, hu⟩
  | cons n ns ih =>
    rw [List.foldl_cons] at h ⊢
    rcases ih _ h with h1 | ⟨sub0, h1, h2⟩
    · exact .inl h1
    · rw [noticeStep_fst] at h1
      by_cases e : n.handler = j
      · rw [if_pos e, Option.map_eq_some_iff] at h1
        obtain ⟨sub1, g1, g2⟩ := h1
        subst g2
        rcases onNotice_cases sub1 n with ⟨c1, _, _, c4⟩ | ⟨_, c2⟩
        · rw [c4, List.mem_append, List.mem_singleton] at h2
          rcases h2 with h2 | h2
          · exact .inr ⟨sub1, g1, h2⟩
          · refine .inl (mono _ _ _ ?_)
            unfold noticeStep
            rw [e, g1]
            simp only [if_pos c1, List.mem_append, List.mem_singleton]
            exact .inr (by rw [h2])
        · exact .inr ⟨sub1, g1, c2 u h2⟩
      · rw [if_neg e] at h1; exact .inr ⟨sub0, h1, h2⟩

theorem subs_origin {h : List PubSubEvent} : ∀ j sub, (worldAfter h).subs j = some sub →
    ∃ t i, PubSubEvent.subscribe t sub.mediaType i ∈ h ∧ i.handler = j := by
  suffices H : ∀ l : List PubSubEvent, ∀ j sub, (worldAfter l.reverse).subs j = some sub →
      ∃ t i, PubSubEvent.subscribe t sub.mediaType i ∈ l.reverse ∧ i.handler = j by
    intro j sub hs; simpa using H h.reverse j sub (by simpa using hs)
  intro l
  induction l with
  | nil => intro j sub hs; cases hs
  | cons ev l ih =>
    intro j sub hs
    rw [List.reverse_cons] at hs ⊢
    rw [worldAfter_append, worldStep_subs, foldl_notices_fst, Option.map_eq_some_iff] at hs
    obtain ⟨sub0, h0, rfl⟩ := hs
    have hm : ∀ (ns : List Notice) (s : Subscriber), (ns.foldl Subscriber.onNotice s).mediaType = s.mediaType := by
      intro ns
      induction ns with
      | nil => intro s; rfl
      | cons n ns ih => intro s; rw [List.foldl_cons, ih, onNotice_mediaType]
    rw [hm]
    have old : (worldAfter l.reverse).subs j = some sub0 → ∃ t i, PubSubEvent.subscribe t sub0.mediaType i ∈ l.reverse ++ [ev] ∧ i.handler = j := by
      intro hx
      obtain ⟨t, i, a, b⟩ := ih j sub0 hx
      exact ⟨t, i, List.mem_append_left _ a, b⟩
    cases ev with
    | publish s => exact old h0
    | unpublish s => exact old h0
    | subscribe t m i =>
      simp only [before] at h0
      by_cases e : j = i.handler
      · rw [if_pos e] at h0
        cases h0
        exact ⟨t, i, by simp, e.symm⟩
      · rw [if_neg e] at h0; exact old h0

/-- Internal subscribers are created for matching publishers only. -/
theorem added_matches {h : List PubSubEvent} {ev : PubSubEvent} (hw : PubSubHistory (h ++ [ev])) (hw0 : PubSubHistory h)
    (hc : ∀ s, ev = .publish s → s.controllerType = dataPublisher) {j u : Nat} (ha : (j, u) ∈ added (worldAfter h) ev) :
    ∃ t m i s, PubSubEvent.subscribe t m i ∈ h ++ [ev] ∧ i.handler = j ∧ PubSubEvent.publish s ∈ h ++ [ev] ∧ s.id = u ∧ Matches t m i s := by
  unfold added at ha
  rcases mem_added _ _ j u ha with h1 | ⟨n, hn, e1, e2, e3, sub, e4, e5⟩
  · cases h1
  · cases ev with
    | unpublish s =>
      simp only [notices, Store.serviceChange] at hn
      split at hn
      · simp only [List.mem_map] at hn
        obtain ⟨_, _, rfl⟩ := hn
        cases e3
      · cases hn
    | publish s =>
      have hs := hc s rfl
      have hal : allowed s.controllerType = true := by rw [hs]; decide
      have hrep := rep_storeAfter (h.map toDiscovery) s.controllerType s.key hal
      rw [← worldAfter_store] at hrep
      simp only [notices, Store.serviceChange, hal, if_true, List.mem_map] at hn
      obtain ⟨i', hi', rfl⟩ := hn
      obtain ⟨hm, hwt⟩ := onChange_sound hrep s i' hi'
      rw [hs] at hm
      obtain ⟨m', hm'⟩ := mem_listeners.mp hm
      rw [wants_publisher hs] at hwt
      obtain ⟨t'', i'', g1, g2⟩ := subs_origin j sub e4
      obtain ⟨_, k2, _⟩ := subscribe_unique hw0 g1 hm' (g2.trans e1.symm)
      rw [k2] at e5
      exact ⟨s.key, m', i', s, List.mem_append_left _ hm', e1, by simp, e2, rfl, e5, hwt⟩
    | subscribe t m i =>
      simp only [notices, Store.register, List.mem_map] at hn
      obtain ⟨s, hs, rfl⟩ := hn
      have hrep := rep_storeAfter (h.map toDiscovery) dataPublisher t (by decide)
      rw [← worldAfter_store, alive_publishers hw0] at hrep
      obtain ⟨a, b⟩ := onRegistration_sound hrep i.labels s hs
      obtain ⟨t1, t2, t3⟩ := publishers_type hw0 t s a
      rw [labelsOf_publisher t1] at b
      have e1' : i.handler = j := e1
      simp only [before, if_pos e1'.symm] at e4
      cases e4
      exact ⟨t, m, i, s, by simp, e1', List.mem_append_left _ t3, e2, t2, e5, b⟩

/-! ## The invariant -/

structure Inv (r : Control × List (Links.Event V)) : Prop where
  hist : ∀ q, PubSubHistory (r.1.news q)
  known : ∀ q s, PubSubEvent.publish s ∈ r.1.news q → ∃ p, r.1.pubs s.id = some (p, s)
  pubs : ∀ u p s, r.1.pubs u = some (p, s) → s.id = u ∧ s.controllerType = dataPublisher
  reg : ∀ q ty net svc, Links.Event.register q ty net svc ∈ r.2 → ty = .dataMessage ∧ ∃ j u t m i p s, svc = internal j ∧ net = channel u ∧
    PubSubEvent.subscribe t m i ∈ r.1.news q ∧ i.handler = j ∧ r.1.pubs u = some (p, s) ∧ Matches t m i s
  conn : ∀ q j sub u, (worldAfter (r.1.news q)).subs j = some sub → u ∈ sub.connected →
    Links.Event.register q .dataMessage (channel u) (internal j) ∈ r.2
  sent : ∀ p svc ty net v, Links.Event.send p svc ty net v ∈ r.2 → svc = 0 ∧ ty = .dataMessage ∧ ∃ u s, net = channel u ∧ r.1.pubs u = some (p, s)

theorem inv_init : Inv (({}, []) : Control × List (Links.Event V)) where
  hist := fun _ => .start
  known := fun _ _ h => by cases h
  pubs := fun _ _ _ h => by cases h
  reg := fun _ _ _ _ h => by cases h
  conn := fun _ _ _ _ h => by cases h
  sent := fun _ _ _ _ _ h => by cases h

theorem inv_handle {r : Control × List (Links.Event V)} (h : Inv r) (q : Nat) (ev : PubSubEvent) (hw : PubSubHistory (r.1.news q ++ [ev]))
    (hp : ∀ s, ev = .publish s → ∃ p, r.1.pubs s.id = some (p, s)) :
    Inv ((r.1.handle q ev : Control × List (Links.Event V)).1, r.2 ++ (r.1.handle q ev).2) := by
  have hn : (r.1.handle q ev : Control × List (Links.Event V)).1.news q = r.1.news q ++ [ev] := by simp [Control.handle, Control.hear]
  have hn' : ∀ x, x ≠ q → (r.1.handle q ev : Control × List (Links.Event V)).1.news x = r.1.news x := by
    intro x hx; simp [Control.handle, Control.hear, hx]
  have hsub : ∀ x e, e ∈ r.1.news x → e ∈ (r.1.handle q ev : Control × List (Links.Event V)).1.news x := by
    intro x e he
    by_cases hx : x = q
    · subst hx; rw [hn]; exact List.mem_append_left _ he
    · rw [hn' x hx]; exact he
  have hknown : ∀ x s, PubSubEvent.publish s ∈ (r.1.handle q ev : Control × List (Links.Event V)).1.news x → ∃ p, r.1.pubs s.id = some (p, s) := by
    intro x s he
    by_cases hx : x = q
    · subst hx
      rw [hn, List.mem_append, List.mem_singleton] at he
      rcases he with he | he
      · exact h.known x s he
      · exact hp s he.symm
    · rw [hn' x hx] at he; exact h.known x s he
  have hctl : ∀ s, ev = .publish s → s.controllerType = dataPublisher := by
    intro s e
    obtain ⟨p, g⟩ := hp s e
    exact (h.pubs _ _ _ g).2
  refine ⟨?_, hknown, h.pubs, ?_, ?_, ?_⟩
  · intro x
    by_cases hx : x = q
    · subst hx; rw [hn]; exact hw
    · rw [hn' x hx]; exact h.hist x
  · intro x ty net svc hm
    rw [List.mem_append] at hm
    rcases hm with hm | hm
    · obtain ⟨g1, j, u, t, m, i, p, s, g2, g3, g4, g5⟩ := h.reg x ty net svc hm
      exact ⟨g1, j, u, t, m, i, p, s, g2, g3, hsub x _ g4, g5⟩
    · simp only [Control.handle, List.mem_map, registration] at hm
      obtain ⟨⟨j, u⟩, ha, e⟩ := hm
      cases e
      obtain ⟨t, m, i, s, k1, k2, k3, k4, k5⟩ := added_matches hw (h.hist _) hctl ha
      rw [← hn] at k1 k3
      obtain ⟨p, k6⟩ := hknown _ s k3
      exact ⟨rfl, j, u, t, m, i, p, s, rfl, rfl, k1, k2, by rw [← k4]; exact k6, k5⟩
  · intro x j sub u hs hu
    by_cases hx : x = q
    · subst hx
      rw [hn, worldAfter_append, worldStep_subs] at hs
      rcases connected_added _ _ j u sub hs hu with g | ⟨sub0, g1, g2⟩
      · refine List.mem_append_right _ ?_
        simp only [Control.handle, List.mem_map]
        exact ⟨(j, u), g, rfl⟩
      · refine List.mem_append_left _ ?_
        cases ev with
        | publish s => exact h.conn x j sub0 u g1 g2
        | unpublish s => exact h.conn x j sub0 u g1 g2
        | subscribe t m i =>
          simp only [before] at g1
          by_cases e : j = i.handler
          · rw [if_pos e] at g1; cases g1; cases g2
          · rw [if_neg e] at g1; exact h.conn x j sub0 u g1 g2
    · rw [hn' x hx] at hs
      exact List.mem_append_left _ (h.conn x j sub u hs hu)
  · intro p svc ty net v hm
    rw [List.mem_append] at hm
    rcases hm with hm | hm
    · exact h.sent p svc ty net v hm
    · simp only [Control.handle, List.mem_map, registration] at hm
      obtain ⟨_, _, e⟩ := hm
      cases e

/-- Events that are only passed on. -/
theorem inv_pass {r : Control × List (Links.Event V)} (h : Inv r) (es : List (Links.Event V)) (h1 : ∀ q ty net svc, Links.Event.register q ty net svc ∉ es)
    (h2 : ∀ p svc ty net v, Links.Event.send p svc ty net v ∈ es → svc = 0 ∧ ty = .dataMessage ∧ ∃ u s, net = channel u ∧ r.1.pubs u = some (p, s)) :
    Inv (r.1, r.2 ++ es) where
  hist := h.hist
  known := h.known
  pubs := h.pubs
  reg := fun q ty net svc hm => by
    rcases List.mem_append.1 hm with hm | hm
    · exact h.reg q ty net svc hm
    · exact absurd hm (h1 q ty net svc)
  conn := fun q j sub u hs hu => List.mem_append_left _ (h.conn q j sub u hs hu)
  sent := fun p svc ty net v hm => by
    rcases List.mem_append.1 hm with hm | hm
    · exact h.sent p svc ty net v hm
    · exact h2 p svc ty net v hm

theorem inv_step {r : Control × List (Links.Event V)} (h : Inv r) (e : Event V) : Inv (controlStep r e) := by
  have idle : Inv (r.1, r.2 ++ []) := by rw [List.append_nil]; exact h
  unfold controlStep
  cases e with
  | createPublisher p s =>
    unfold control
    by_cases hc : s.controllerType = dataPublisher ∧ r.1.pubs s.id = none
    · simp only [if_pos hc, List.append_nil]
      have keep : ∀ u x, r.1.pubs u = some x → (if u = s.id then some (p, s) else r.1.pubs u) = some x := by
        intro u x hx
        by_cases e : u = s.id
        · rw [e, hc.2] at hx; cases hx
        · rw [if_neg e]; exact hx
      exact
        { hist := h.hist
          known := fun q s' hs => by
            obtain ⟨p', g⟩ := h.known q s' hs
            exact ⟨p', keep _ _ g⟩
          pubs := fun u p' s' hu => by
            have hu : (if u = s.id then some (p, s) else r.1.pubs u) = some (p', s') := hu
            by_cases e : u = s.id
            · rw [if_pos e] at hu; cases hu; exact ⟨e.symm, hc.1⟩
            · rw [if_neg e] at hu; exact h.pubs u p' s' hu
          reg := fun q ty net svc hm => by
            obtain ⟨g1, j, u, t, m, i, p', s', g2, g3, g4, g5, g6, g7⟩ := h.reg q ty net svc hm
            exact ⟨g1, j, u, t, m, i, p', s', g2, g3, g4, g5, keep _ _ g6, g7⟩
          conn := h.conn
          sent := fun p' svc ty net v hm => by
            obtain ⟨g1, g2, u, s', g3, g4⟩ := h.sent p' svc ty net v hm
            exact ⟨g1, g2, u, s', g3, keep _ _ g4⟩ }
    · simp only [if_neg hc]; exact idle
  | createSubscriber q t m i =>
    unfold control
    by_cases hc : (r.1.news q).any (isSubscriber i.handler) = true
    · simp only [if_pos hc]; exact idle
    · simp only [if_neg hc]
      refine inv_handle h q _ (.subscribe (h.hist q) ?_) (by intro s e; cases e)
      intro t' m' i' hm he
      apply hc
      rw [List.any_eq_true]
      exact ⟨_, hm, by simp [isSubscriber, he]⟩
  | learn q u =>
    cases hu : r.1.pubs u with
    | none => simp only [control, hu]; exact idle
    | some x =>
      obtain ⟨p, s⟩ := x
      simp only [control, hu]
      by_cases hc : PubSubEvent.publish s ∈ r.1.news q
      · simp only [if_pos hc]; exact idle
      · simp only [if_neg hc]
        obtain ⟨e1, e2⟩ := h.pubs u p s hu
        refine inv_handle h q _ (.publish (h.hist q) e2 ?_) (by intro s' e; cases e; exact ⟨p, by rw [e1]; exact hu⟩)
        intro s' hs' he
        obtain ⟨p', g⟩ := h.known q s' (publishers_type (h.hist q) _ s' hs').2.2
        rw [he, e1, hu] at g
        cases g
        exact hc (publishers_type (h.hist q) _ s hs').2.2
  | forget q u =>
    cases hu : r.1.pubs u with
    | none => simp only [control, hu]; exact idle
    | some x =>
      obtain ⟨p, s⟩ := x
      simp only [control, hu]
      by_cases hc : s ∈ publishers s.key (r.1.news q)
      · simp only [if_pos hc]
        exact inv_handle h q _ (.unpublish (h.hist q) (h.pubs u p s hu).2 hc) (by intro s e; cases e)
      · simp only [if_neg hc]; exact idle
  | publish u v =>
    cases hu : r.1.pubs u with
    | none => simp only [control, hu]; exact idle
    | some x =>
      simp only [control, hu]
      refine inv_pass h _ (by simp) ?_
      intro p svc ty net v' hm
      rw [List.mem_singleton] at hm
      cases hm
      exact ⟨rfl, rfl, u, x.2, rfl, hu⟩
  | connect p q => exact inv_pass h _ (by simp [control]) (by simp [control])
  | announce p q => exact inv_pass h _ (by simp [control]) (by simp [control])
  | deliver p q => exact inv_pass h _ (by simp [control]) (by simp [control])
  | close p q => exact inv_pass h _ (by simp [control]) (by simp [control])

theorem runControl_append (h : List (Event V)) (e : Event V) : runControl (h ++ [e]) = controlStep (runControl h) e := by simp [runControl]

theorem inv_run (h : List (Event V)) : Inv (runControl h) := by
  suffices H : ∀ l : List (Event V), Inv (runControl l.reverse) by simpa using H h.reverse
  intro l
  induction l with
  | nil => exact inv_init
  | cons e l ih => rw [List.reverse_cons, runControl_append]; exact inv_step ih e

theorem control_mono (c : Control) (e : Event V) (u : Nat) (x : Nat × Service) (hx : c.pubs u = some x) : (control c e).1.pubs u = some x := by
  cases e with
  | createPublisher p s =>
    by_cases hc : s.controllerType = dataPublisher ∧ c.pubs s.id = none
    · simp only [control, if_pos hc]
      by_cases e : u = s.id
      · rw [e, hc.2] at hx; cases hx
      · rw [if_neg e]; exact hx
    · simp only [control, if_neg hc]; exact hx
  | createSubscriber q t m i => simp only [control]; split <;> exact hx
  | learn q u' =>
    cases h : c.pubs u' with
    | none => simp only [control, h]; exact hx
    | some y => simp only [control, h]; split <;> exact hx
  | forget q u' =>
    cases h : c.pubs u' with
    | none => simp only [control, h]; exact hx
    | some y => simp only [control, h]; split <;> exact hx
  | publish u' v =>
    cases h : c.pubs u' with
    | none => simp only [control, h]; exact hx
    | some y => simp only [control, h]; exact hx
  | connect p q => exact hx
  | announce p q => exact hx
  | deliver p q => exact hx
  | close p q => exact hx

theorem runControl_split (h1 h2 : List (Event V)) : ∃ es, (runControl (h1 ++ h2)).2 = (runControl h1).2 ++ es := by
  suffices H : ∀ (h2 : List (Event V)) r, ∃ es, (h2.foldl controlStep r).2 = r.2 ++ es by
    obtain ⟨es, g⟩ := H h2 (runControl h1)
    exact ⟨es, by rw [← g]; simp [runControl]⟩
  intro h2
  induction h2 with
  | nil => intro r; exact ⟨[], by simp⟩
  | cons e h2 ih =>
    intro r
    obtain ⟨es, g⟩ := ih (controlStep r e)
    exact ⟨(control r.1 e).2 ++ es, by rw [List.foldl_cons, g]; simp [controlStep]⟩

theorem created_append {h1 : List (Event V)} {u p : Nat} {s : Service} (hc : Created h1 u p s) (h2 : List (Event V)) : Created (h1 ++ h2) u p s := by
  suffices H : ∀ (h2 : List (Event V)) (r : Control × List (Links.Event V)), r.1.pubs u = some (p, s) → (h2.foldl controlStep r).1.pubs u = some (p, s) by
    show (runControl (h1 ++ h2)).1.pubs u = _
    rw [runControl, List.foldl_append]
    exact H h2 _ hc
  intro h2
  induction h2 with
  | nil => intro r hr; exact hr
  | cons e h2 ih => intro r hr; exact ih _ (control_mono r.1 e u _ hr)

/-! ## The links -/

theorem links_split (a b : List (Links.Event V)) : ∃ t, Links.Spec.trace off (a ++ b) = Links.Spec.trace off a ++ t := by
  suffices H : ∀ (b : List (Links.Event V)) (r : Links.State V × List (Links.Out V)),
      ∃ t, (b.foldl (fun r e => ((Links.on r.1 e).1, r.2 ++ (Links.on r.1 e).2)) r).2 = r.2 ++ t by
    obtain ⟨t, g⟩ := H b (Links.Spec.run off a)
    exact ⟨t, by rw [Links.Spec.trace, Links.run_append_list, g]; rfl⟩
  intro b
  induction b with
  | nil => intro r; exact ⟨[], by simp⟩
  | cons e b ih =>
    intro r
    obtain ⟨t, g⟩ := ih ((Links.on r.1 e).1, r.2 ++ (Links.on r.1 e).2)
    exact ⟨(Links.on r.1 e).2 ++ t, by rw [List.foldl_cons, g]; simp⟩

theorem on_registered {s : Links.State V} {e : Links.Event V} {q svc : Nat} {ty : MsgType} {net : String}
    (h : Links.Out.registered q ty net svc ∈ (Links.on s e).2) : e = .register q ty net svc := by
  cases e with
  | register x ty' net' svc' =>
    simp only [Links.on, List.mem_singleton] at h
    cases h
    rfl
  | connect x y => simp [Links.on] at h
  | announce x y => simp [Links.on] at h
  | send x svc' ty' net' v => simp [Links.on, Links.send] at h
  | deliver x y =>
    simp only [Links.on] at h
    rcases Links.deliver_cases s x y with h' | ⟨w, ws, hc, ho, e⟩
    · rw [h'] at h; cases h
    · rw [e] at h
      cases w with
      | data idx ty' v =>
        simp only [Links.handle] at h
        split at h
        · cases h
        · split at h <;> simp at h
      | subscribe idx net' sd =>
        simp only [Links.handle] at h
        obtain ⟨-, l, h2⟩ := Links.foldl_subscribe_facts y x idx net' sd q ty net Links.allTypes (s.pop x y ws, [])
        rw [h2] at h
        simp at h
  | close x y => simp only [Links.on, Links.close] at h; split at h <;> simp at h

theorem on_published {s : Links.State V} {e : Links.Event V} {p svc : Nat} {ty : MsgType} {net : String} {v : V}
    (h : Links.Out.published p svc ty net v ∈ (Links.on s e).2) : e = .send p svc ty net v := by
  cases e with
  | register x ty' net' svc' => simp [Links.on] at h
  | connect x y => simp [Links.on] at h
  | announce x y => simp [Links.on] at h
  | send x svc' ty' net' v' =>
    simp only [Links.on, Links.send, List.mem_cons, List.mem_map] at h
    rcases h with h | ⟨_, _, h⟩
    · cases h; rfl
    · cases h
  | deliver x y =>
    simp only [Links.on] at h
    rcases Links.deliver_cases s x y with h' | ⟨w, ws, hc, ho, e⟩
    · rw [h'] at h; cases h
    · rw [e] at h
      cases w with
      | data idx ty' v =>
        simp only [Links.handle] at h
        split at h
        · cases h
        · split at h <;> simp at h
      | subscribe idx net' sd =>
        simp only [Links.handle] at h
        obtain ⟨-, l, h2⟩ := Links.foldl_subscribe_facts y x idx net' sd p ty net Links.allTypes (s.pop x y ws, [])
        rw [h2] at h
        simp at h
  | close x y => simp only [Links.on, Links.close] at h; split at h <;> simp at h

theorem trace_event {o : Links.Out V} {P : Links.Event V → Prop} (hP : ∀ (s : Links.State V) e, o ∈ (Links.on s e).2 → P e) (es : List (Links.Event V))
    (h : o ∈ Links.Spec.trace off es) : ∃ e ∈ es, P e := by
  suffices H : ∀ l : List (Links.Event V), o ∈ Links.Spec.trace off l.reverse → ∃ e ∈ l.reverse, P e by
    simpa using H es.reverse (by simpa using h)
  intro l
  induction l with
  | nil => intro h; simp [Links.Spec.trace, Links.Spec.run] at h
  | cons e l ih =>
    intro h
    rw [List.reverse_cons, Links.Spec.trace, Links.run_append, List.mem_append] at h
    rcases h with h | h
    · obtain ⟨e', a, b⟩ := ih h
      exact ⟨e', by rw [List.reverse_cons]; exact List.mem_append_left _ a, b⟩
    · exact ⟨e, by simp, hP _ _ h⟩

theorem registered_event {es : List (Links.Event V)} {q svc : Nat} {ty : MsgType} {net : String} :
    Links.Out.registered q ty net svc ∈ Links.Spec.trace off es ↔ Links.Event.register q ty net svc ∈ es := by
  constructor
  · intro h
    obtain ⟨e, he, rfl⟩ := trace_event (P := fun e => e = .register q ty net svc) (fun _ _ => on_registered) es h
    exact he
  · intro h
    obtain ⟨a, b, rfl, _⟩ := List.eq_append_cons_of_mem h
    obtain ⟨t, ht⟩ := links_split (off := off) (a ++ [.register q ty net svc]) b
    rw [show a ++ Links.Event.register q ty net svc :: b = (a ++ [.register q ty net svc]) ++ b by simp, ht]
    refine List.mem_append_left _ ?_
    rw [Links.Spec.trace, Links.run_append]
    exact List.mem_append_right _ (by simp [Links.on])

theorem published_event {es : List (Links.Event V)} {p svc : Nat} {ty : MsgType} {net : String} {v : V}
    (h : Links.Out.published p svc ty net v ∈ Links.Spec.trace off es) : Links.Event.send p svc ty net v ∈ es := by
  obtain ⟨e, he, rfl⟩ := trace_event (P := fun e => e = .send p svc ty net v) (fun _ _ => on_published) es h
  exact he

end SilKit.DataFlow
