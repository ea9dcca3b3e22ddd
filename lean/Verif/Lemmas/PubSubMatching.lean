import Verif.Spec.PubSubMatching
import Verif.Lemmas.DiscoveryStore
/-!
# Subscribers are connected to the matching publishers
-/
namespace SilKit.Discovery
open Labels Spec

/-- The discovery event belonging to an event. -/
def toDiscovery : PubSubEvent → DiscoveryEvent
  | .publish s => .appear s
  | .unpublish s => .vanish s
  | .subscribe t _ i => .listen dataPublisher t i

theorem publishers_append (t : String) (h : List PubSubEvent) (ev : PubSubEvent) :
    publishers t (h ++ [ev]) = publishersStep t (publishers t h) ev := by
  simp [publishers, List.foldl_append]

theorem worldAfter_append (h : List PubSubEvent) (ev : PubSubEvent) :
    worldAfter (h ++ [ev]) = worldStep (worldAfter h) ev := by
  simp [worldAfter, List.foldl_append]

theorem worldAfter_store (h : List PubSubEvent) : (worldAfter h).store = storeAfter (h.map toDiscovery) := by
  rw [← List.reverse_reverse h]
  induction h.reverse with
  | nil => rfl
  | cons ev h ih =>
    rw [List.reverse_cons, worldAfter_append, List.map_append, List.map_cons, List.map_nil, storeAfter_append, ← ih]
    cases ev <;> rfl

theorem alive_publishers {h : List PubSubEvent} (hw : PubSubHistory h) (t : String) :
    alive dataPublisher t (h.map toDiscovery) = publishers t h := by
  induction hw with
  | start => rfl
  | publish _ hc _ ih => simp only [List.map_append, List.map_cons, List.map_nil, alive_append, publishers_append, ih,
      toDiscovery, aliveStep, publishersStep, hc, true_and]
  | unpublish _ hc _ ih => simp only [List.map_append, List.map_cons, List.map_nil, alive_append, publishers_append, ih,
      toDiscovery, aliveStep, publishersStep, hc, true_and]
  | subscribe _ _ ih => simp only [List.map_append, List.map_cons, List.map_nil, alive_append, publishers_append, ih,
      toDiscovery, aliveStep, publishersStep]

theorem mem_listeners {t : String} {h : List PubSubEvent} {i : Info} :
    i ∈ listeners dataPublisher t (h.map toDiscovery) ↔ ∃ m, PubSubEvent.subscribe t m i ∈ h := by
  induction h with
  | nil => simp [listeners]
  | cons ev h ih =>
    cases ev with
    | publish s => simp only [List.map_cons, toDiscovery, listeners, ih, List.mem_cons, reduceCtorEq, false_or]
    | unpublish s => simp only [List.map_cons, toDiscovery, listeners, ih, List.mem_cons, reduceCtorEq, false_or]
    | subscribe t' m' i' =>
      simp only [List.map_cons, toDiscovery, listeners, true_and]
      split
      · rename_i ht
        subst ht
        simp only [List.mem_cons, ih, PubSubEvent.subscribe.injEq, true_and]
        constructor
        · rintro (rfl | ⟨m, hm⟩)
          · exact ⟨m', Or.inl ⟨rfl, rfl⟩⟩
          · exact ⟨m, Or.inr hm⟩
        · rintro ⟨m, ⟨_, rfl⟩ | hm⟩
          · exact Or.inl rfl
          · exact Or.inr ⟨m, hm⟩
      · rename_i ht
        simp only [List.mem_cons, ih, PubSubEvent.subscribe.injEq]
        constructor
        · rintro ⟨m, hm⟩; exact ⟨m, Or.inr hm⟩
        · rintro ⟨m, ⟨h1, _⟩ | hm⟩
          · exact absurd h1.symm ht
          · exact ⟨m, hm⟩

theorem subscribe_unique {h : List PubSubEvent} (hw : PubSubHistory h) {t t' m m' : String} {i i' : Info}
    (h1 : PubSubEvent.subscribe t m i ∈ h) (h2 : PubSubEvent.subscribe t' m' i' ∈ h) (he : i.handler = i'.handler) :
    t = t' ∧ m = m' ∧ i = i' := by
  induction hw with
  | start => simp at h1
  | publish _ _ _ ih => exact ih (by simpa using h1) (by simpa using h2)
  | unpublish _ _ _ ih => exact ih (by simpa using h1) (by simpa using h2)
  | subscribe hw hf ih =>
    simp only [List.mem_append, List.mem_singleton] at h1 h2
    rcases h1 with h1 | h1 <;> rcases h2 with h2 | h2
    · exact ih h1 h2
    · cases h2; exact absurd he (hf _ _ _ h1)
    · cases h1; exact absurd he.symm (hf _ _ _ h2)
    · cases h1; cases h2; exact ⟨rfl, rfl, rfl⟩

/-- The effect of a sequence of notices on the connections. -/
theorem created_notices (m : String) (ns : List Notice) : ∀ sub : Subscriber, sub.mediaType = m →
    (∀ n ∈ ns, n.created = true) →
    (ns.foldl Subscriber.onNotice sub).mediaType = m ∧
    ∀ u, u ∈ (ns.foldl Subscriber.onNotice sub).connected ↔
      u ∈ sub.connected ∨ ∃ n ∈ ns, n.service.id = u ∧ matchMediaType m n.service.mediaType = true := by
  induction ns with
  | nil => intro sub h _; simp [h]
  | cons n ns ih =>
    intro sub hm hc
    have hn := hc n (by simp)
    have step : (sub.onNotice n).mediaType = m ∧ ∀ u, u ∈ (sub.onNotice n).connected ↔
        u ∈ sub.connected ∨ (n.service.id = u ∧
          (matchMediaType m n.service.mediaType = true)) ∨ (n.service.id = u ∧ n.service.id ∈ sub.connected) := by
      unfold Subscriber.onNotice
      simp only [hn, true_and]
      split
      · rename_i hin
        refine ⟨hm, fun u => ⟨fun h => Or.inl h, ?_⟩⟩
        rintro (h | ⟨rfl, _⟩ | ⟨rfl, h⟩)
        · exact h
        · exact hin
        · exact h
      · rename_i hin
        split
        · rename_i hmt
          rw [hm] at hmt
          refine ⟨hm, fun u => ?_⟩
          simp only [if_true, List.mem_append, List.mem_singleton]
          constructor
          · rintro (h | rfl)
            · exact Or.inl h
            · exact Or.inr (Or.inl ⟨rfl, hmt⟩)
          · rintro (h | ⟨rfl, _⟩ | ⟨rfl, h⟩)
            · exact Or.inl h
            · exact Or.inr rfl
            · exact Or.inr rfl
        · rename_i hmt
          rw [hm] at hmt
          refine ⟨hm, fun u => ⟨fun h => Or.inl h, ?_⟩⟩
          rintro (h | ⟨rfl, h⟩ | ⟨rfl, h⟩)
          · exact h
          · exact absurd h hmt
          · exact h
    obtain ⟨g1, g2⟩ := ih (sub.onNotice n) step.1 (fun x hx => hc x (by simp [hx]))
    refine ⟨g1, fun u => ?_⟩
    rw [List.foldl_cons, g2, step.2]
    simp only [List.mem_cons, exists_eq_or_imp]
    constructor
    · rintro ((h | h | ⟨rfl, h⟩) | h)
      · exact Or.inl h
      · exact Or.inr (Or.inl h)
      · exact Or.inl h
      · exact Or.inr (Or.inr h)
    · rintro (h | h | h)
      · exact Or.inl (Or.inl h)
      · exact Or.inl (Or.inr (Or.inl h))
      · exact Or.inr h

theorem removed_notices (m : String) (ns : List Notice) : ∀ sub : Subscriber, sub.mediaType = m →
    (∀ n ∈ ns, n.created = false) →
    (ns.foldl Subscriber.onNotice sub).mediaType = m ∧
    ∀ u, u ∈ (ns.foldl Subscriber.onNotice sub).connected ↔
      u ∈ sub.connected ∧ ¬ ∃ n ∈ ns, n.service.id = u ∧ matchMediaType m n.service.mediaType = true := by
  induction ns with
  | nil => intro sub h _; simp [h]
  | cons n ns ih =>
    intro sub hm hc
    have hn := hc n (by simp)
    have step : (sub.onNotice n).mediaType = m ∧ ∀ u, u ∈ (sub.onNotice n).connected ↔
        u ∈ sub.connected ∧ ¬ (n.service.id = u ∧ matchMediaType m n.service.mediaType = true) := by
      unfold Subscriber.onNotice
      simp only [hn, Bool.false_eq_true, false_and, if_false]
      split
      · rename_i hmt
        rw [hm] at hmt
        refine ⟨hm, fun u => ?_⟩
        simp only [List.mem_filter, bne_iff_ne, ne_eq, hmt, and_true]
        constructor
        · rintro ⟨h1, h2⟩; exact ⟨h1, fun h => h2 h.symm⟩
        · rintro ⟨h1, h2⟩; exact ⟨h1, fun h => h2 h.symm⟩
      · rename_i hmt
        rw [hm] at hmt
        refine ⟨hm, fun u => ?_⟩
        simp [hmt]
    obtain ⟨g1, g2⟩ := ih (sub.onNotice n) step.1 (fun x hx => hc x (by simp [hx]))
    refine ⟨g1, fun u => ?_⟩
    rw [List.foldl_cons, g2, step.2]
    simp only [List.mem_cons, exists_eq_or_imp, not_or, and_assoc]

theorem publishers_type {h : List PubSubEvent} (hw : PubSubHistory h) (t : String) :
    ∀ s ∈ publishers t h, s.controllerType = dataPublisher ∧ s.key = t ∧ PubSubEvent.publish s ∈ h := by
  induction hw with
  | start => simp [publishers]
  | publish _ hc _ ih =>
    intro s hs
    rw [publishers_append] at hs
    simp only [publishersStep] at hs
    split at hs
    · rename_i hk
      rcases List.mem_append.mp hs with hs | hs
      · obtain ⟨a, b, c⟩ := ih s hs; exact ⟨a, b, by simp [c]⟩
      · rw [List.mem_singleton] at hs; subst hs; exact ⟨hc, hk, by simp⟩
    · obtain ⟨a, b, c⟩ := ih s hs; exact ⟨a, b, by simp [c]⟩
  | unpublish _ hc _ ih =>
    intro s hs
    rw [publishers_append] at hs
    simp only [publishersStep] at hs
    split at hs
    · obtain ⟨a, b, c⟩ := ih s (List.mem_filter.mp hs).1; exact ⟨a, b, by simp [c]⟩
    · obtain ⟨a, b, c⟩ := ih s hs; exact ⟨a, b, by simp [c]⟩
  | subscribe _ _ ih =>
    intro s hs
    rw [publishers_append] at hs
    obtain ⟨a, b, c⟩ := ih s hs; exact ⟨a, b, by simp [c]⟩

theorem publishers_unique {h : List PubSubEvent} (hw : PubSubHistory h) (t : String) :
    ∀ s ∈ publishers t h, ∀ s' ∈ publishers t h, s.id = s'.id → s = s' := by
  induction hw with
  | start => simp [publishers]
  | publish _ _ hf ih =>
    intro s hs s' hs' he
    rw [publishers_append] at hs hs'
    simp only [publishersStep] at hs hs'
    split at hs
    · rename_i hk
      rw [if_pos hk] at hs'
      rw [hk] at hf
      rcases List.mem_append.mp hs with g | g <;> rcases List.mem_append.mp hs' with g' | g'
      · exact ih s g s' g' he
      · rw [List.mem_singleton.mp g'] at he; exact absurd he (hf s g)
      · rw [List.mem_singleton.mp g] at he; exact absurd he.symm (hf s' g')
      · rw [List.mem_singleton] at g g'; rw [g, g']
    · rename_i hk
      rw [if_neg hk] at hs'
      exact ih s hs s' hs' he
  | unpublish _ _ _ ih =>
    intro s hs s' hs' he
    rw [publishers_append] at hs hs'
    simp only [publishersStep] at hs hs'
    split at hs
    · rename_i hk
      rw [if_pos hk] at hs'
      exact ih s (List.mem_filter.mp hs).1 s' (List.mem_filter.mp hs').1 he
    · rename_i hk
      rw [if_neg hk] at hs'
      exact ih s hs s' hs' he
  | subscribe _ _ ih =>
    intro s hs s' hs' he
    rw [publishers_append] at hs hs'
    exact ih s hs s' hs' he

theorem labelsOf_publisher {s : Service} (h : s.controllerType = dataPublisher) : s.labelsOf = s.labels := by
  unfold Service.labelsOf
  rw [h, if_neg (by decide)]

theorem wants_publisher {s : Service} (h : s.controllerType = dataPublisher) (i : Info) :
    wants s i = matchLabels i.labels s.labels := by
  unfold wants
  rw [labelsOf_publisher h, h]
  rw [show (dataPublisher == rpcServerInternal) = false by decide]
  simp

/-- The notices a subscriber gets about a publisher that appears or disappears. -/
theorem change_notices {h : List PubSubEvent} (hw : PubSubHistory h) {topic media : String} {i : Info}
    (hsub : PubSubEvent.subscribe topic media i ∈ h) (s : Service) (hs : s.controllerType = dataPublisher) (created : Bool)
    (hidx : s.key = topic → matchLabels i.labels s.labels = true → Indexable i.labels s.labels) :
    ((∃ n ∈ ((worldAfter h).store.serviceChange created s).2.filter (fun n => n.handler == i.handler), True) ↔
      s.key = topic ∧ matchLabels i.labels s.labels = true) ∧
    (∀ n ∈ ((worldAfter h).store.serviceChange created s).2.filter (fun n => n.handler == i.handler),
      n.created = created ∧ n.service = s) := by
  have hal : allowed s.controllerType = true := by rw [hs]; decide
  have hrep := rep_storeAfter (h.map toDiscovery) s.controllerType s.key hal
  rw [← worldAfter_store] at hrep
  have hshape : ∀ n ∈ ((worldAfter h).store.serviceChange created s).2, n.created = created ∧ n.service = s := by
    intro n hn
    simp only [Store.serviceChange, hal, if_true, List.mem_map] at hn
    obtain ⟨i', _, rfl⟩ := hn
    exact ⟨rfl, rfl⟩
  refine ⟨⟨?_, ?_⟩, fun n hn => hshape n (List.mem_filter.mp hn).1⟩
  · rintro ⟨n, hn, _⟩
    obtain ⟨hn, hh⟩ := List.mem_filter.mp hn
    simp only [Store.serviceChange, hal, if_true, List.mem_map] at hn
    obtain ⟨i', hi', rfl⟩ := hn
    obtain ⟨hm, hwt⟩ := onChange_sound hrep s i' hi'
    rw [hs] at hm
    obtain ⟨m', hm'⟩ := mem_listeners.mp hm
    simp only [beq_iff_eq] at hh
    obtain ⟨h1, _, h3⟩ := subscribe_unique hw hm' hsub hh
    subst h3
    rw [wants_publisher hs] at hwt
    exact ⟨h1, hwt⟩
  · rintro ⟨hk, hm⟩
    subst hk
    have hmem := mem_listeners.mpr ⟨media, hsub⟩
    rw [← hs] at hmem
    have := onChange_complete hrep s i hmem (by rw [wants_publisher hs]; exact hm)
      (by rw [labelsOf_publisher hs]; exact (hidx rfl hm).2)
    refine ⟨⟨i.handler, created, s⟩, List.mem_filter.mpr ⟨?_, by simp⟩, trivial⟩
    simp only [Store.serviceChange, hal, if_true, List.mem_map]
    exact ⟨i, this, rfl⟩

theorem connections_exact {h : List PubSubEvent} (hw : PubSubHistory h) {topic media : String} {i : Info}
    (hsub : PubSubEvent.subscribe topic media i ∈ h)
    (hidx : ∀ s, PubSubEvent.publish s ∈ h → s.key = topic → matchLabels i.labels s.labels = true → Indexable i.labels s.labels) :
    ∃ sub, (worldAfter h).subs i.handler = some sub ∧ sub.mediaType = media ∧
      ∀ u, u ∈ sub.connected ↔ ∃ s ∈ publishers topic h, s.id = u ∧ matchMediaType media s.mediaType = true ∧
        matchLabels i.labels s.labels = true := by
  induction hw with
  | start => simp at hsub
  | @publish h s hw hc hf ih =>
    have hsub' : PubSubEvent.subscribe topic media i ∈ h := by simpa using hsub
    obtain ⟨sub, e1, e2, e3⟩ := ih hsub' (fun s' hs' => hidx s' (by simp [hs']))
    obtain ⟨n1, n2⟩ := change_notices hw hsub' s hc true (hidx s (by simp))
    rw [worldAfter_append]
    simp only [worldStep, World.publish, World.deliver, e1, Option.map_some]
    generalize ((worldAfter h).store.serviceChange true s).2.filter (fun n => n.handler == i.handler) = ns at *
    obtain ⟨g1, g2⟩ := created_notices media ns sub e2 (fun n hn => (n2 n hn).1)
    refine ⟨_, rfl, g1, fun u => ?_⟩
    rw [g2, e3, publishers_append]
    simp only [publishersStep]
    have hex : (∃ n ∈ ns, n.service.id = u ∧ matchMediaType media n.service.mediaType = true) ↔
        (s.key = topic ∧ matchLabels i.labels s.labels = true) ∧ s.id = u ∧ matchMediaType media s.mediaType = true := by
      rw [← n1]
      constructor
      · rintro ⟨n, hn, h1, h2⟩
        rw [(n2 n hn).2] at h1 h2
        exact ⟨⟨n, hn, trivial⟩, h1, h2⟩
      · rintro ⟨⟨n, hn, _⟩, h1, h2⟩
        exact ⟨n, hn, by rw [(n2 n hn).2]; exact ⟨h1, h2⟩⟩
    rw [hex]
    by_cases hk : s.key = topic
    · rw [if_pos hk]
      simp only [List.mem_append, List.mem_singleton, or_and_right, exists_or, exists_eq_left, hk, true_and]
      constructor
      · rintro (h | ⟨a, b, c⟩)
        · exact Or.inl h
        · exact Or.inr ⟨b, c, a⟩
      · rintro (h | ⟨a, b, c⟩)
        · exact Or.inl h
        · exact Or.inr ⟨c, a, b⟩
    · rw [if_neg hk]
      simp only [hk, false_and, or_false]
  | @unpublish h s hw hc hf ih =>
    have hsub' : PubSubEvent.subscribe topic media i ∈ h := by simpa using hsub
    obtain ⟨sub, e1, e2, e3⟩ := ih hsub' (fun s' hs' => hidx s' (by simp [hs']))
    have hpub := (publishers_type hw s.key s hf).2.2
    obtain ⟨n1, n2⟩ := change_notices hw hsub' s hc false (hidx s (by simp [hpub]))
    rw [worldAfter_append]
    simp only [worldStep, World.unpublish, World.deliver, e1, Option.map_some]
    generalize ((worldAfter h).store.serviceChange false s).2.filter (fun n => n.handler == i.handler) = ns at *
    obtain ⟨g1, g2⟩ := removed_notices media ns sub e2 (fun n hn => (n2 n hn).1)
    refine ⟨_, rfl, g1, fun u => ?_⟩
    rw [g2, e3, publishers_append]
    simp only [publishersStep]
    have hex : (∃ n ∈ ns, n.service.id = u ∧ matchMediaType media n.service.mediaType = true) ↔
        (s.key = topic ∧ matchLabels i.labels s.labels = true) ∧ s.id = u ∧ matchMediaType media s.mediaType = true := by
      rw [← n1]
      constructor
      · rintro ⟨n, hn, h1, h2⟩
        rw [(n2 n hn).2] at h1 h2
        exact ⟨⟨n, hn, trivial⟩, h1, h2⟩
      · rintro ⟨⟨n, hn, _⟩, h1, h2⟩
        exact ⟨n, hn, by rw [(n2 n hn).2]; exact ⟨h1, h2⟩⟩
    rw [hex]
    by_cases hk : s.key = topic
    · rw [if_pos hk]
      rw [hk] at hf
      constructor
      · rintro ⟨⟨s', h1, h2, h3, h4⟩, hn⟩
        refine ⟨s', List.mem_filter.mpr ⟨h1, ?_⟩, h2, h3, h4⟩
        simp only [bne_iff_ne, ne_eq]
        intro he
        have := publishers_unique hw topic s' h1 s hf he
        subst this
        exact hn ⟨⟨hk, h4⟩, h2, h3⟩
      · rintro ⟨s', h1, h2, h3, h4⟩
        obtain ⟨h1, h5⟩ := List.mem_filter.mp h1
        simp only [bne_iff_ne, ne_eq] at h5
        refine ⟨⟨s', h1, h2, h3, h4⟩, ?_⟩
        rintro ⟨_, h6, _⟩
        exact h5 (by rw [h2, h6])
    · rw [if_neg hk]
      simp only [hk, false_and, not_false_eq_true, and_true]
  | @subscribe h topic' media' i' hw hf ih =>
    rw [worldAfter_append, publishers_append]
    simp only [worldStep, World.subscribe, World.deliver, publishersStep]
    have hnotice : ∀ n ∈ ((worldAfter h).store.register dataPublisher topic' i').2, n.handler = i'.handler ∧ n.created = true := by
      intro n hn
      simp only [Store.register, List.mem_map] at hn
      obtain ⟨_, _, rfl⟩ := hn
      exact ⟨rfl, rfl⟩
    by_cases he : i.handler = i'.handler
    · have hnew : PubSubEvent.subscribe topic media i = .subscribe topic' media' i' := by
        simp only [List.mem_append, List.mem_singleton] at hsub
        rcases hsub with hsub | hsub
        · exact absurd he (hf _ _ _ hsub)
        · exact hsub
      cases hnew
      simp only [if_true, Option.map_some]
      obtain ⟨g1, g2⟩ := created_notices media
        (((worldAfter h).store.register dataPublisher topic i).2.filter (fun n => n.handler == i.handler))
        { mediaType := media } rfl (fun n hn => (hnotice n (List.mem_filter.mp hn).1).2)
      refine ⟨_, rfl, g1, fun u => ?_⟩
      rw [g2]
      have hrep := rep_storeAfter (h.map toDiscovery) dataPublisher topic (by decide)
      rw [← worldAfter_store, alive_publishers hw] at hrep
      have hmem : ∀ s, s ∈ publishers topic h → matchLabels i.labels s.labels = true →
          s ∈ (((worldAfter h).store.lookup dataPublisher topic).onRegistration i.labels).2 := by
        intro s hs hm
        obtain ⟨t1, t2, t3⟩ := publishers_type hw topic s hs
        have hl := labelsOf_publisher t1
        exact onRegistration_complete hrep i.labels s hs (by rw [hl]; exact hm)
          (by rw [hl]; exact (hidx s (by simp [t3]) t2 hm).1)
      constructor
      · rintro (h1 | ⟨n, hn, h1, h2⟩)
        · simp at h1
        · have hn := (List.mem_filter.mp hn).1
          simp only [Store.register, List.mem_map] at hn
          obtain ⟨s, hs, rfl⟩ := hn
          obtain ⟨a, b⟩ := onRegistration_sound hrep i.labels s hs
          rw [labelsOf_publisher (publishers_type hw topic s a).1] at b
          exact ⟨s, a, h1, h2, b⟩
      · rintro ⟨s, hs, h1, h2, h3⟩
        refine Or.inr ⟨⟨i.handler, true, s⟩, List.mem_filter.mpr ⟨?_, by simp⟩, h1, h2⟩
        simp only [Store.register, List.mem_map]
        exact ⟨s, hmem s hs h3, rfl⟩
    · have hsub' : PubSubEvent.subscribe topic media i ∈ h := by
        simp only [List.mem_append, List.mem_singleton] at hsub
        rcases hsub with hsub | hsub
        · exact hsub
        · cases hsub; exact absurd rfl he
      obtain ⟨sub, e1, e2, e3⟩ := ih hsub' (fun s' hs' => hidx s' (by simp [hs']))
      have hnil : ((worldAfter h).store.register dataPublisher topic' i').2.filter (fun n => n.handler == i.handler) = [] := by
        rw [List.filter_eq_nil_iff]
        intro n hn
        rw [(hnotice n hn).1]
        simpa using fun h => he h.symm
      rw [if_neg he, e1, hnil]
      exact ⟨sub, rfl, e2, e3⟩

/-- A subscriber never holds two connections to the same publisher. -/
theorem onNotice_nodup (sub : Subscriber) (n : Notice) (h : sub.connected.Nodup) : (sub.onNotice n).connected.Nodup := by
  unfold Subscriber.onNotice
  split
  · exact h
  · next hn =>
    split
    · split
      · next hc =>
        have : n.service.id ∉ sub.connected := fun hm => hn ⟨hc, hm⟩
        simp only [List.nodup_append, h, true_and]
        refine ⟨by simp, ?_⟩
        intro a ha b hb
        simp only [List.mem_singleton] at hb
        subst hb
        exact fun e => this (e ▸ ha)
      · exact h.filter _
    · exact h

theorem notices_nodup (ns : List Notice) (sub : Subscriber) (h : sub.connected.Nodup) :
    (ns.foldl Subscriber.onNotice sub).connected.Nodup := by
  induction ns generalizing sub with
  | nil => exact h
  | cons n ns ih => exact ih _ (onNotice_nodup sub n h)

theorem deliver_nodup (w : World) (ns : List Notice) (h : ∀ j sub, w.subs j = some sub → sub.connected.Nodup) :
    ∀ j sub, (w.deliver ns).subs j = some sub → sub.connected.Nodup := by
  intro j sub hj
  simp only [World.deliver, Option.map_eq_some_iff] at hj
  obtain ⟨sub0, h0, rfl⟩ := hj
  exact notices_nodup _ _ (h j sub0 h0)

theorem connected_nodup (evs : List PubSubEvent) : ∀ j sub, (worldAfter evs).subs j = some sub → sub.connected.Nodup := by
  suffices H : ∀ (w : World), (∀ j sub, w.subs j = some sub → sub.connected.Nodup) →
      ∀ j sub, (evs.foldl worldStep w).subs j = some sub → sub.connected.Nodup by
    exact H {} (fun j sub h => by cases h)
  induction evs with
  | nil => intro w hw; exact hw
  | cons ev evs ih =>
    intro w hw
    refine ih _ ?_
    cases ev with
    | publish s => exact deliver_nodup _ _ hw
    | unpublish s => exact deliver_nodup _ _ hw
    | subscribe t m i =>
      refine deliver_nodup _ _ ?_
      intro j sub hj
      dsimp only at hj
      split at hj
      · cases hj; exact List.nodup_nil
      · exact hw j sub hj

end SilKit.Discovery
