import Verif.Lemmas.DashboardOrder
/-!
# Lemmas about the listener of the dashboard
-/
namespace SilKit.Dashboard
open SilKit SilKit.SystemState SilKit.Dashboard.Spec

/-! ## Metrics -/

theorem metrics_append (id : Nat) (a b : List Request) : metrics id (a ++ b) = metrics id a ++ metrics id b := List.filterMap_append

theorem metrics_requests (id : Nat) (bs : List (Nat × Bulk)) : metrics id (bs.filterMap request) = [] := by
  unfold metrics
  rw [List.filterMap_eq_nil_iff]
  intro r hr
  obtain ⟨b, _, hb⟩ := List.mem_filterMap.1 hr
  obtain ⟨_, d, _, rfl⟩ := request_spec b r hb
  rfl

theorem metrics_flush {answer : Nat → Nat} {w : Worker} {es : List (String × Event)} (hf : Follows answer w es) (id : Nat) :
    metrics id w.flush.sent = metrics id w.sent := by
  show metrics id (w.sent ++ (flush w.bulks).2.1) = _
  rw [metrics_append, (flush_facts w.bulks hf.desc).2.2]
  exact (congrArg (_ ++ ·) (metrics_requests id w.bulks)).trans (List.append_nil _)

theorem metricEvents_append (a b : List Event) : metricEvents (a ++ b) = metricEvents a ++ metricEvents b := List.filterMap_append

theorem metrics_event {answer : Nat → Nat} {w : Worker} {es : List (String × Event)} (hf : Follows answer w es) (e : String × Event)
    (id : Nat) (h : metrics id w.sent = metricEvents (eventsOf id (assigned answer {} es))) :
    metrics id (w.event answer e).sent = metricEvents (eventsOf id (assigned answer {} (es ++ [e]))) := by
  obtain ⟨sim, ev⟩ := e
  rw [assigned_snoc]
  unfold Worker.event
  rw [if_neg (by rw [hf.ok]; exact Bool.false_ne_true)]
  have other : (∀ t, ev ≠ .start t) →
      metrics id (match w.names.lookup sim with | none => w | some id => w.item sim id ev).sent
        = metricEvents (eventsOf id (assigned answer {} es ++ (((books answer es).idOf (sim, ev)).map (fun id => (id, ev))).toList)) := by
    intro hne
    rw [idOf_of_ne _ (sim, ev) hne, ← hf.names, eventsOf_append, metricEvents_append, ← h]
    show _ = _ ++ metricEvents (eventsOf id ((w.names.lookup sim).map (fun id => (id, ev))).toList)
    cases hl : w.names.lookup sim with
    | none => exact (List.append_nil _).symm
    | some i =>
      show metrics id (w.item sim i ev).sent = _ ++ metricEvents (eventsOf id [(i, ev)])
      by_cases hi : i = id
      · subst hi
        have : eventsOf i [(i, ev)] = [ev] := by simp [eventsOf]
        rw [this]
        unfold Worker.item
        cases ev <;> try exact (List.append_nil _).symm
        show metrics i (w.sent ++ [_]) = _
        rw [metrics_append]
        simp [metrics, metricEvents]
      · have : eventsOf id [(i, ev)] = [] := by simp [eventsOf, hi]
        rw [this]
        unfold Worker.item
        cases ev <;> try exact (List.append_nil _).symm
        show metrics id (w.sent ++ [_]) = _
        rw [metrics_append]
        simp [metrics, metricEvents, hi]
  cases ev <;> try exact other (fun _ => nofun)
  rename_i t
  show metrics id (if w.flush.failed = true then w.flush else w.flush.start answer sim t).sent
    = metricEvents (eventsOf id (assigned answer {} es ++ []))
  rw [if_neg (by rw [hf.flush.ok]; exact Bool.false_ne_true), List.append_nil, ← h, ← metrics_flush hf id]
  unfold Worker.start
  cases w.flush.names.lookup sim with
  | some i => rfl
  | none =>
    show metrics id (w.flush.sent ++ [_]) = _
    rw [metrics_append]
    exact List.append_nil _

theorem metrics_events {answer : Nat → Nat} {w : Worker} {es : List (String × Event)} (hg : Good systemObs answer w es)
    (id : Nat) (h : metrics id w.sent = metricEvents (eventsOf id (assigned answer {} es))) (xs : List (String × Event)) (hd : Describable xs) :
    metrics id (w.events answer xs).sent = metricEvents (eventsOf id (assigned answer {} (es ++ xs))) := by
  induction xs generalizing w es with
  | nil => rw [List.append_nil]; exact h
  | cons x xs ih =>
    have := ih (hg.event systemObs nofun x (fun d e => hd x.1 d (by rw [← e]; exact List.mem_cons_self ..)))
      (metrics_event hg.follows x id h) (fun sim d hm => hd sim d (List.mem_cons_of_mem _ hm))
    rw [List.append_assoc] at this
    exact this

theorem metrics_run (answer : Nat → Nat) (bs : List (List (String × Event))) (hd : Describable bs.flatten) (id : Nat) :
    metrics id (Worker.run answer bs).sent = metricEvents (eventsOf id (assigned answer {} bs.flatten)) := by
  have : ∀ (w : Worker) (es : List (String × Event)), Good systemObs answer w es →
      metrics id w.sent = metricEvents (eventsOf id (assigned answer {} es)) →
      metrics id (bs.foldl (Worker.batch answer) w).sent = metricEvents (eventsOf id (assigned answer {} (es ++ bs.flatten))) := by
    induction bs with
    | nil => intro w es _ h; rw [List.flatten_nil, List.append_nil]; exact h
    | cons b bs ih =>
      intro w es hg h
      rw [List.flatten_cons] at hd
      have hdb : Describable b := fun s d hm => hd s d (List.mem_append_left _ hm)
      have h1 := hg.events systemObs nofun b hdb
      have h2 := metrics_events hg id h b hdb
      have hb : w.batch answer b = (w.events answer b).flush := by
        show (if (w.events answer b).failed = true then _ else _) = _
        rw [if_neg (by rw [h1.follows.ok]; exact Bool.false_ne_true)]
      have := ih (fun s d hm => hd s d (List.mem_append_right _ hm)) (w.batch answer b) (es ++ b) (hg.batch systemObs nofun b hdb).1
        (by rw [hb, metrics_flush h1.follows, h2])
      rw [List.flatten_cons, ← List.append_assoc]
      exact this
  exact this {} [] (Good.initial systemObs answer) rfl

/-! ## The trackers -/

theorem lookup_filter_ne {β : Type} (l : List (String × β)) (a b : String) (h : a ≠ b) :
    (l.filter (fun e => e.1 ≠ b)).lookup a = l.lookup a := by
  induction l with
  | nil => rfl
  | cons x l ih =>
    obtain ⟨k, v⟩ := x
    rw [List.filter_cons]
    by_cases hk : k = b
    · subst hk
      have : (a == k) = false := by simpa using h
      simp only [ne_eq, not_true_eq_false, decide_false, Bool.false_eq_true, if_false, List.lookup_cons, this]
      exact ih
    · simp only [ne_eq, hk, not_false_eq_true, decide_true, if_true, List.lookup_cons, ih]

theorem lookup_filter_self {β : Type} (l : List (String × β)) (b : String) : (l.filter (fun e => e.1 ≠ b)).lookup b = none := by
  rw [List.lookup_eq_none_iff]
  intro x hx
  have := of_decide_eq_true (List.mem_filter.1 hx).2
  simpa using fun e : b = x.1 => this e.symm

theorem tracker_put_self (l : Listener) (sim : String) (t : Tracker) : (l.put sim t).tracker sim = t := by
  simp [Listener.put, Listener.tracker]

theorem tracker_put_ne (l : Listener) (a sim : String) (t : Tracker) (h : a ≠ sim) : (l.put sim t).tracker a = l.tracker a := by
  unfold Listener.put Listener.tracker
  have : (a == sim) = false := by simpa using h
  rw [List.lookup_cons, this]
  show ((l.filter (fun e => e.1 ≠ sim)).lookup a).getD {} = _
  rw [lookup_filter_ne l a sim h]

theorem tracker_erase_self (l : Listener) (sim : String) : (l.erase sim).tracker sim = {} := by
  unfold Listener.erase Listener.tracker
  rw [lookup_filter_self]; rfl

theorem tracker_erase_ne (l : Listener) (a sim : String) (h : a ≠ sim) : (l.erase sim).tracker a = l.tracker a := by
  unfold Listener.erase Listener.tracker
  rw [lookup_filter_ne l a sim h]

/-- The states the tracker has stored. -/
theorem status_update (t : Tracker) (p q : String) (s : ParticipantState) (hs : s ≠ .invalid) :
    (t.update p s).tracker.status q = if q = p ∧ t.status p ≠ some .shutdown then some s else t.status q := by
  have hset : ∀ t' : Tracker, t'.cache = (t.setStatus p s).cache → t'.status q = if q = p then some s else t.status q := by
    intro t' ht
    unfold Tracker.status
    rw [ht]
    show ((p, s) :: t.cache.filter (fun e => e.1 ≠ p)).lookup q = _
    by_cases h : q = p
    · subst h; simp
    · have : (q == p) = false := by simpa using h
      rw [List.lookup_cons, this, if_neg h]
      exact lookup_filter_ne t.cache q p h
  unfold Tracker.update
  rw [if_neg hs]
  by_cases hsh : t.status p = some .shutdown
  · rw [if_pos (by rw [hsh]; rfl), if_neg (by rw [hsh]; simp)]
  · have h1 : ¬ (t.status p).getD .invalid = .shutdown := by
      cases hp : t.status p with
      | none => exact nofun
      | some x => intro e; exact hsh (by rw [hp]; exact congrArg some e)
    rw [if_neg h1]
    have h2 : (if q = p ∧ t.status p ≠ some .shutdown then some s else t.status q) = if q = p then some s else t.status q := by
      by_cases h : q = p <;> simp [h, hsh]
    rw [h2]
    dsimp only
    by_cases h3 : (t.status p).getD .invalid = s
    · rw [if_pos h3]; exact hset _ rfl
    · rw [if_neg h3]
      by_cases h4 : ((t.setStatus p s).required.contains p) = true
      · rw [if_pos h4]; exact hset _ rfl
      · rw [if_neg h4]; exact hset _ rfl

theorem status_remove (t : Tracker) (p q : String) : (t.remove p).1.status q = if q = p then none else t.status q := by
  unfold Tracker.remove
  by_cases h : t.status p = none
  · rw [if_pos h]
    by_cases hq : q = p
    · subst hq; rw [if_pos rfl]; exact h
    · rw [if_neg hq]
  · rw [if_neg h]
    show (t.cache.filter (fun e => e.1 ≠ p)).lookup q = _
    by_cases hq : q = p
    · subst hq; rw [if_pos rfl]; exact lookup_filter_self _ _
    · rw [if_neg hq]; exact lookup_filter_ne _ _ _ hq

theorem status_require (t : Tracker) (ns : List String) (q : String) : (t.require ns).1.status q = t.status q := rfl

theorem cache_isEmpty_iff (t : Tracker) : t.cache.isEmpty = true ↔ ∀ q, t.status q = none := by
  constructor
  · intro h q
    rw [List.isEmpty_iff] at h
    unfold Tracker.status; rw [h]; rfl
  · intro h
    cases hc : t.cache with
    | nil => rfl
    | cons x l =>
      have := h x.1
      unfold Tracker.status at this
      rw [hc] at this
      obtain ⟨k, v⟩ := x
      simp at this

/-! ## Histories, the newest call first -/

/-- The trackers and the queue after a history. -/
def trackers (cs : List Call) : Listener := Listener.after [] cs.reverse
def queueOf (cs : List Call) : List (String × Event) := Listener.queue [] cs.reverse

theorem trackers_cons (c : Call) (cs : List Call) : trackers (c :: cs) = ((trackers cs).on c).1 := by
  unfold trackers Listener.after
  rw [List.reverse_cons, List.foldl_append]; rfl

theorem queue_append (l : Listener) (xs ys : List Call) :
    Listener.queue l (xs ++ ys) = Listener.queue l xs ++ Listener.queue (l.after xs) ys := by
  induction xs generalizing l with
  | nil => rfl
  | cons x xs ih =>
    rw [List.cons_append, Listener.queue, Listener.queue, ih, List.append_assoc]
    rfl

/-- What one more call puts into the queue. -/
def added (cs : List Call) (c : Call) : List (String × Event) :=
  ((trackers cs).on c).2.2.map (fun e => (((trackers cs).on c).2.1, e))

theorem queueOf_cons (c : Call) (cs : List Call) : queueOf (c :: cs) = queueOf cs ++ added cs c := by
  unfold queueOf
  rw [List.reverse_cons, queue_append]
  show _ ++ (_ ++ []) = _
  rw [List.append_nil]; rfl

theorem on_sim (l : Listener) (c : Call) : (l.on c).2.1 = (Call.origin c).1 := by cases c <;> rfl

/-- The stored states after a call. -/
def nextStatus (f : String → Option ParticipantState) (sim q : String) : Call → Option ParticipantState
  | .status s p st => if s = sim ∧ q = p ∧ f p ≠ some .shutdown then some st else f q
  | .disconnected s p _ => if s = sim ∧ q = p then none else f q
  | _ => f q

theorem status_cons (c : Call) (cs : List Call) (hv : ∀ sim p, c ≠ .status sim p .invalid) (sim q : String) :
    ((trackers (c :: cs)).tracker sim).status q = nextStatus (((trackers cs).tracker sim).status ·) sim q c := by
  rw [trackers_cons]
  cases c with
  | connected s p t =>
    show (((trackers cs).put s _).tracker sim).status q = _
    by_cases h : sim = s
    · subst h; rw [tracker_put_self]; rfl
    · rw [tracker_put_ne _ _ _ _ h]; rfl
  | disconnected s p t =>
    show ((if ((((trackers cs).tracker s).remove p).1.cache.isEmpty) = true then (trackers cs).erase s else _ : Listener).tracker sim).status q = _
    unfold nextStatus
    dsimp only
    by_cases h : sim = s
    · subst h
      simp only [true_and]
      rw [← status_remove ((trackers cs).tracker sim) p q]
      by_cases he : (((trackers cs).tracker sim).remove p).1.cache.isEmpty = true
      · rw [if_pos he, tracker_erase_self]
        exact ((cache_isEmpty_iff _).1 he q).symm
      · rw [if_neg he, tracker_put_self]
    · have hne : ¬ (s = sim ∧ q = p) := fun e => h e.1.symm
      simp only [if_neg hne]
      by_cases he : (((trackers cs).tracker s).remove p).1.cache.isEmpty = true
      · rw [if_pos he, tracker_erase_ne _ _ _ h]
      · rw [if_neg he, tracker_put_ne _ _ _ _ h]
  | required s p ns =>
    show (((trackers cs).put s _).tracker sim).status q = _
    by_cases h : sim = s
    · subst h; rw [tracker_put_self]; rfl
    · rw [tracker_put_ne _ _ _ _ h]; rfl
  | status s p st =>
    show (((trackers cs).put s _).tracker sim).status q = _
    unfold nextStatus
    dsimp only
    by_cases h : sim = s
    · subst h
      rw [tracker_put_self, status_update _ p q st (fun e => hv sim p (by rw [e]))]
      simp only [true_and]
    · have hne : ¬ (s = sim ∧ q = p ∧ ((trackers cs).tracker sim).status p ≠ some .shutdown) := fun e => h e.1.symm
      rw [tracker_put_ne _ _ _ _ h]
      simp only [if_neg hne]
  | service s p c d => rfl
  | metrics s p u => rfl

theorem status_eq_lastState (cs : List Call) (hv : Valid cs) (sim q : String) :
    ((trackers cs).tracker sim).status q = lastState sim q cs := by
  induction cs with
  | nil => rfl
  | cons c cs ih =>
    have ih := ih (fun s p hm => hv s p (List.mem_cons_of_mem _ hm))
    rw [status_cons c cs (fun s p e => hv s p (by rw [e]; exact List.mem_cons_self ..))]
    cases c with
    | status s p st =>
      unfold nextStatus lastState
      dsimp only
      by_cases hq : q = p
      · subst hq
        rw [← ih]
      · rw [if_neg (fun e => hq e.2.1), if_neg (fun e => hq e.2.1.symm), ih]
    | disconnected s p t =>
      unfold nextStatus lastState
      dsimp only
      by_cases h : s = sim ∧ q = p
      · rw [if_pos h, if_pos ⟨h.1, h.2.symm⟩]
      · rw [if_neg h, if_neg (fun e => h ⟨e.1, e.2.symm⟩), ih]
    | _ => exact ih

theorem mem_reported (cs : List Call) (hv : Valid cs) (sim q : String) :
    q ∈ reported sim cs ↔ ((trackers cs).tracker sim).status q ≠ none := by
  induction cs with
  | nil => exact ⟨nofun, fun h => absurd rfl h⟩
  | cons c cs ih =>
    have ih := ih (fun s p hm => hv s p (List.mem_cons_of_mem _ hm))
    rw [status_cons c cs (fun s p e => hv s p (by rw [e]; exact List.mem_cons_self ..))]
    cases c with
    | status s p st =>
      unfold reported nextStatus
      dsimp only
      by_cases hs : s = sim
      · rw [if_pos hs]
        by_cases hq : q = p
        · subst hq
          simp only [List.mem_cons, true_or, true_iff]
          by_cases hsh : ((trackers cs).tracker sim).status q = some .shutdown
          · rw [if_neg (fun e => e.2.2 hsh), hsh]; exact nofun
          · rw [if_pos ⟨hs, trivial, hsh⟩]; exact nofun
        · rw [if_neg (fun e => hq e.2.1), ← ih]
          simp [hq]
      · rw [if_neg hs, if_neg (fun e => hs e.1)]; exact ih
    | disconnected s p t =>
      unfold reported nextStatus
      dsimp only
      by_cases hs : s = sim
      · rw [if_pos hs]
        by_cases hq : q = p
        · rw [if_pos ⟨hs, hq⟩]; simp [hq]
        · rw [if_neg (fun e => hq e.2), ← ih]; simp [hq]
      · rw [if_neg hs, if_neg (fun e => hs e.1)]; exact ih
    | _ => exact ih

theorem reported_connected (cs : List Call) (hp : Proper cs) (sim q : String) (h : q ∈ reported sim cs) : q ∈ connected sim cs := by
  induction cs with
  | nil => cases h
  | cons c cs ih =>
    have hp' : Proper cs := hp.1
    have hc := hp.2
    have ih := ih hp'
    cases c with
    | connected s p t =>
      unfold reported at h
      dsimp only at h
      have := ih h
      unfold connected
      dsimp only
      by_cases hs : s = sim
      · rw [if_pos hs]
        by_cases hq : q = p
        · subst hq; exact List.mem_cons_self ..
        · exact List.mem_cons_of_mem _ (List.mem_filter.2 ⟨this, by simp [hq]⟩)
      · rw [if_neg hs]; exact this
    | disconnected s p t =>
      unfold reported at h
      dsimp only at h
      unfold connected
      dsimp only
      by_cases hs : s = sim
      · rw [if_pos hs] at h ⊢
        rw [List.mem_filter] at h ⊢
        exact ⟨ih h.1, h.2⟩
      · rw [if_neg hs] at h ⊢; exact ih h
    | status s p st =>
      unfold reported at h
      dsimp only at h
      unfold connected
      dsimp only
      by_cases hs : s = sim
      · rw [if_pos hs] at h
        rcases List.mem_cons.1 h with rfl | h
        · subst hs; exact hc
        · exact ih (List.mem_filter.1 h).1
      · rw [if_neg hs] at h; exact ih h
    | _ => exact ih h

/-! ## The books during a history -/

theorem lookup_after_other (answer : Nat → Nat) (b : Books) (e : String × Event) (sim : String) (h : sim ≠ e.1) :
    (b.after answer e).open_.lookup sim = b.open_.lookup sim := by
  obtain ⟨n, ev⟩ := e
  have hb : (sim == n) = false := by simpa using h
  cases ev with
  | start t =>
    unfold Books.after
    show (if (b.open_.lookup n).isSome = true then b else _ : Books).open_.lookup sim = _
    by_cases hs : (b.open_.lookup n).isSome = true
    · rw [if_pos hs]
    · rw [if_neg hs]
      show (if answer b.asked = 0 then b.open_ else (n, answer b.asked) :: b.open_).lookup sim = _
      by_cases h0 : answer b.asked = 0
      · rw [if_pos h0]
      · rw [if_neg h0, List.lookup_cons, hb]
  | stop t => exact lookup_filter_ne _ _ _ h
  | _ => rfl

theorem lookup_afterAll_other (answer : Nat → Nat) (b : Books) (es : List (String × Event)) (sim : String) (h : ∀ e ∈ es, sim ≠ e.1) :
    (es.foldl (Books.after answer) b).open_.lookup sim = b.open_.lookup sim := by
  induction es generalizing b with
  | nil => rfl
  | cons e es ih =>
    rw [List.foldl_cons, ih _ (fun e he => h e (List.mem_cons_of_mem _ he)), lookup_after_other answer b e sim (h e (List.mem_cons_self ..))]

/-- An event that neither opens nor closes. -/
def Plain : Event → Prop
  | .start _ => False
  | .stop _ => False
  | _ => True

theorem after_plain (answer : Nat → Nat) (b : Books) (e : String × Event) (h : Plain e.2) : b.after answer e = b := by
  obtain ⟨n, ev⟩ := e
  cases ev <;> first | rfl | exact absurd h id

theorem afterAll_plain (answer : Nat → Nat) (b : Books) (es : List (String × Event)) (h : ∀ e ∈ es, Plain e.2) :
    es.foldl (Books.after answer) b = b := by
  induction es with
  | nil => rfl
  | cons e es ih =>
    rw [List.foldl_cons, after_plain answer b e (h e (List.mem_cons_self ..))]
    exact ih (fun e he => h e (List.mem_cons_of_mem _ he))

theorem assigned_plain (answer : Nat → Nat) (b : Books) (sim : String) (es : List Event) (h : ∀ e ∈ es, Plain e) (i : Nat)
    (hl : b.open_.lookup sim = some i) : assigned answer b (es.map (fun e => (sim, e))) = es.map (fun e => (i, e)) := by
  induction es with
  | nil => rfl
  | cons e es ih =>
    have hp := h e (List.mem_cons_self ..)
    rw [List.map_cons, assigned, after_plain answer b (sim, e) hp, ih (fun e he => h e (List.mem_cons_of_mem _ he))]
    have : b.idOf (sim, e) = some i := by
      rw [idOf_of_ne _ _ (fun t et => by rw [show e = .start t from et] at hp; exact hp)]; exact hl
    rw [this]; rfl

theorem assigned_append' (answer : Nat → Nat) (xs ys : List (String × Event)) :
    assigned answer {} (xs ++ ys) = assigned answer {} xs ++ assigned answer (books answer xs) ys := assigned_append answer {} xs ys

theorem books_append (answer : Nat → Nat) (xs ys : List (String × Event)) :
    books answer (xs ++ ys) = ys.foldl (Books.after answer) (books answer xs) := by
  unfold books; rw [List.foldl_append]

theorem mem_onlyIf (b : Bool) (e x : Event) (h : x ∈ onlyIf b e) : b = true ∧ x = e := by
  unfold onlyIf at h
  cases b with
  | false => cases h
  | true => exact ⟨rfl, List.mem_singleton.1 h⟩

/-- No start. -/
def isStart : Event → Bool
  | .start _ => true
  | _ => false

/-- The effect of a call on the books. -/
theorem step_facts (answer : Nat → Nat) (ha : ∀ n, answer n ≠ 0) (c : Call) (cs : List Call) (hv : Valid (c :: cs)) (hp : Proper (c :: cs))
    (hr : Reporting (c :: cs))
    (hopen : ∀ sim, ((books answer (queueOf cs)).open_.lookup sim).isSome = true ↔ connected sim cs ≠ []) :
    (∃ id, (assigned answer (books answer (queueOf cs)) (added cs c))
        = (((trackers cs).on c).2.2.filter (fun e => !isStart e)).map (fun e => (id, e)))
      ∧ ∀ sim, ((books answer (queueOf (c :: cs))).open_.lookup sim).isSome = true ↔ connected sim (c :: cs) ≠ [] := by
  have hv' : Valid cs := fun s p hm => hv s p (List.mem_cons_of_mem _ hm)
  have hp' : Proper cs := hp.1
  have hothers : ∀ sim, sim ≠ (Call.origin c).1 →
      (books answer (queueOf (c :: cs))).open_.lookup sim = (books answer (queueOf cs)).open_.lookup sim := by
    intro sim hne
    rw [queueOf_cons, books_append]
    apply lookup_afterAll_other
    intro e he
    unfold added at he
    obtain ⟨x, _, rfl⟩ := List.mem_map.1 he
    show sim ≠ ((trackers cs).on c).2.1
    rw [on_sim]; exact hne
  -- a call that neither opens nor closes
  have plain : (∀ e ∈ ((trackers cs).on c).2.2, Plain e) → connected (Call.origin c).1 cs ≠ [] →
      (∀ sim, connected sim (c :: cs) ≠ [] ↔ connected sim cs ≠ []) →
      (∃ id, (assigned answer (books answer (queueOf cs)) (added cs c))
        = (((trackers cs).on c).2.2.filter (fun e => !isStart e)).map (fun e => (id, e)))
      ∧ ∀ sim, ((books answer (queueOf (c :: cs))).open_.lookup sim).isSome = true ↔ connected sim (c :: cs) ≠ [] := by
    intro hpl hne hconn
    obtain ⟨i, hi⟩ := Option.isSome_iff_exists.1 ((hopen _).2 hne)
    refine ⟨⟨i, ?_⟩, ?_⟩
    · unfold added
      rw [on_sim, assigned_plain answer _ _ _ hpl i hi, List.filter_eq_self.2]
      intro e he
      have := hpl e he
      cases e <;> first | rfl | exact absurd this id
    · intro sim
      rw [hconn, ← hopen sim, queueOf_cons, books_append, afterAll_plain]
      intro e he
      unfold added at he
      obtain ⟨x, hx, rfl⟩ := List.mem_map.1 he
      exact hpl x hx
  cases c with
  | connected s p t =>
    have hadd : added cs (.connected s p t) = (onlyIf ((trackers cs).tracker s).cache.isEmpty (.start t) ++ [Event.connected p]).map (fun e => (s, e)) := rfl
    have hev : ((trackers cs).on (.connected s p t)).2.2 = onlyIf ((trackers cs).tracker s).cache.isEmpty (.start t) ++ [.connected p] := rfl
    have hnonempty : connected s (.connected s p t :: cs) ≠ [] := by
      unfold connected; dsimp only; rw [if_pos rfl]; exact nofun
    have hsame : ∀ sim, sim ≠ s → connected sim (.connected s p t :: cs) = connected sim cs := by
      intro sim hne
      show (if s = sim then _ else _) = _
      rw [if_neg (fun e => hne e.symm)]
    by_cases he : ((trackers cs).tracker s).cache.isEmpty = true
    · -- a start is queued
      have hstart : ∃ i, ((books answer (queueOf cs)).after answer (s, .start t)).open_.lookup s = some i := by
        unfold Books.after
        by_cases hs : ((books answer (queueOf cs)).open_.lookup s).isSome = true
        · obtain ⟨i, hi⟩ := Option.isSome_iff_exists.1 hs
          refine ⟨i, ?_⟩
          show (if ((books answer (queueOf cs)).open_.lookup s).isSome = true then _ else _ : Books).open_.lookup s = _
          rw [if_pos hs]; exact hi
        · refine ⟨answer (books answer (queueOf cs)).asked, ?_⟩
          show (if ((books answer (queueOf cs)).open_.lookup s).isSome = true then _ else _ : Books).open_.lookup s = _
          rw [if_neg hs]
          show (if answer (books answer (queueOf cs)).asked = 0 then _ else _ : List _).lookup s = _
          rw [if_neg (ha _), List.lookup_cons, beq_self_eq_true]
      obtain ⟨i, hi⟩ := hstart
      rw [he] at hadd hev
      have hadd : added cs (.connected s p t) = (s, .start t) :: [Event.connected p].map (fun e => (s, e)) := hadd
      refine ⟨⟨i, ?_⟩, ?_⟩
      · rw [hadd, hev, assigned, assigned_plain answer _ s [.connected p] (by simp [Plain]) i hi]
        rfl
      · intro sim
        by_cases hsim : sim = s
        · subst hsim
          rw [queueOf_cons, books_append, hadd, List.foldl_cons, afterAll_plain _ _ _ (by simp [Plain]), hi]
          simp [hnonempty]
        · rw [hothers sim hsim, hopen sim, hsame sim hsim]
    · have hne : connected s cs ≠ [] := by
        intro hc
        apply he
        rw [cache_isEmpty_iff]
        intro q
        apply Classical.byContradiction
        intro hq
        have := reported_connected cs hp' s q ((mem_reported cs hv' s q).2 hq)
        rw [hc] at this; cases this
      refine plain ?_ hne ?_
      · intro e hem
        rw [hev, show ((trackers cs).tracker s).cache.isEmpty = false from by simpa using he] at hem
        rw [List.mem_singleton.1 (show e ∈ [Event.connected p] from hem)]; trivial
      · intro sim
        by_cases hsim : sim = s
        · subst hsim; exact ⟨fun _ => hne, fun _ => hnonempty⟩
        · rw [hsame sim hsim]
  | disconnected s p t =>
    have hmem : p ∈ connected s cs := hp.2
    have hne : connected s cs ≠ [] := fun e => by rw [e] at hmem; cases hmem
    have hsame : ∀ sim, sim ≠ s → connected sim (.disconnected s p t :: cs) = connected sim cs := by
      intro sim hne
      show (if s = sim then _ else _) = _
      rw [if_neg (fun e => hne e.symm)]
    have hstat : ∀ q, (((trackers cs).tracker s).remove p).1.status q ≠ none ↔ q ∈ reported s (.disconnected s p t :: cs) := by
      intro q
      rw [mem_reported _ hv s q, status_cons _ cs (fun a b (e : Call.disconnected s p t = .status a b .invalid) => by cases e), status_remove]
      simp only [nextStatus, true_and]
    have hev : ((trackers cs).on (.disconnected s p t)).2.2
        = onlyIf (((trackers cs).tracker s).remove p).2 (.system (((trackers cs).tracker s).remove p).1.system)
          ++ onlyIf (((trackers cs).tracker s).remove p).1.cache.isEmpty (.stop t) := rfl
    by_cases he : (((trackers cs).tracker s).remove p).1.cache.isEmpty = true
    · have hnone : reported s (.disconnected s p t :: cs) = [] := by
        rw [List.eq_nil_iff_forall_not_mem]
        intro q hq
        exact (hstat q).2 hq ((cache_isEmpty_iff _).1 he q)
      have hcon : connected s (.disconnected s p t :: cs) = [] := by
        rcases hr.2 with h | h
        · exact h
        · exact absurd hnone h
      obtain ⟨i, hi⟩ := Option.isSome_iff_exists.1 ((hopen s).2 hne)
      rw [he] at hev
      have hpl : ∀ e ∈ onlyIf (((trackers cs).tracker s).remove p).2 (.system (((trackers cs).tracker s).remove p).1.system), Plain e := by
        intro e hem; rw [(mem_onlyIf _ _ _ hem).2]; trivial
      have hadd : added cs (.disconnected s p t)
          = (onlyIf (((trackers cs).tracker s).remove p).2 (.system (((trackers cs).tracker s).remove p).1.system)).map (fun e => (s, e))
            ++ [(s, .stop t)] := by
        show ((trackers cs).on (.disconnected s p t)).2.2.map (fun e => (s, e)) = _
        rw [hev, List.map_append]; rfl
      refine ⟨⟨i, ?_⟩, ?_⟩
      · rw [hadd, assigned_append, afterAll_plain _ _ _ (by
            intro e hem
            obtain ⟨x, hx, rfl⟩ := List.mem_map.1 hem
            exact hpl x hx), assigned_plain answer _ s _ hpl i hi, hev, List.filter_append, List.map_append]
        have h1 : (onlyIf (((trackers cs).tracker s).remove p).2 (.system (((trackers cs).tracker s).remove p).1.system)).filter (fun e => !isStart e)
            = onlyIf (((trackers cs).tracker s).remove p).2 (.system (((trackers cs).tracker s).remove p).1.system) := by
          rw [List.filter_eq_self]
          intro e hem; rw [(mem_onlyIf _ _ _ hem).2]; rfl
        rw [h1]
        congr 1
        show ((((books answer (queueOf cs)).open_.lookup s).map (fun id => (id, Event.stop t))).toList ++ []) = [(i, .stop t)]
        rw [hi]; rfl
      · intro sim
        by_cases hsim : sim = s
        · subst hsim
          rw [queueOf_cons, books_append, hadd, List.foldl_append, hcon]
          show ((((_ : Books).open_.filter (fun n => n.1 ≠ sim)).lookup sim).isSome = true ↔ _)
          rw [lookup_filter_self]
          simp
        · rw [hothers sim hsim, hopen sim, hsame sim hsim]
    · have hsome : connected s (.disconnected s p t :: cs) ≠ [] := by
        intro hc
        apply he
        rw [cache_isEmpty_iff]
        intro q
        apply Classical.byContradiction
        intro hq
        have := reported_connected _ hp s q ((hstat q).1 hq)
        rw [hc] at this; cases this
      refine plain ?_ hne ?_
      · intro e hem
        rw [hev, show (((trackers cs).tracker s).remove p).1.cache.isEmpty = false from by simpa using he] at hem
        rcases List.mem_append.1 hem with h | h
        · rw [(mem_onlyIf _ _ _ h).2]; trivial
        · cases h
      · intro sim
        by_cases hsim : sim = s
        · subst hsim; exact ⟨fun _ => hne, fun _ => hsome⟩
        · rw [hsame sim hsim]
  | required s p ns =>
    have hmem : p ∈ connected s cs := hp.2
    refine plain ?_ (fun e => by rw [show connected s cs = [] from e] at hmem; cases hmem) (fun _ => Iff.rfl)
    intro e he
    rw [(mem_onlyIf _ _ _ he).2]; trivial
  | status s p st =>
    have hmem : p ∈ connected s cs := hp.2
    refine plain ?_ (fun e => by rw [show connected s cs = [] from e] at hmem; cases hmem) (fun _ => Iff.rfl)
    intro e he
    rcases List.mem_append.1 he with he | he
    · rw [(mem_onlyIf _ _ _ he).2]; trivial
    · rw [(mem_onlyIf _ _ _ he).2]; trivial
  | service s p cr d =>
    have hmem : p ∈ connected s cs := hp.2
    refine plain ?_ (fun e => by rw [show connected s cs = [] from e] at hmem; cases hmem) (fun _ => Iff.rfl)
    intro e he
    have he : e ∈ if skipped cr d = true then [] else [Event.service d] := he
    by_cases h : skipped cr d = true
    · rw [if_pos h] at he; cases he
    · rw [if_neg h] at he; rw [List.mem_singleton.1 he]; trivial
  | metrics s p u =>
    have hmem : p ∈ connected s cs := hp.2
    refine plain ?_ (fun e => by rw [show connected s cs = [] from e] at hmem; cases hmem) (fun _ => Iff.rfl)
    intro e he
    rw [List.mem_singleton.1 (show e ∈ [Event.metrics p u] from he)]; trivial

theorem open_iff_connected (answer : Nat → Nat) (ha : ∀ n, answer n ≠ 0) (cs : List Call) (hv : Valid cs) (hp : Proper cs) (hr : Reporting cs)
    (sim : String) : ((books answer (queueOf cs)).open_.lookup sim).isSome = true ↔ connected sim cs ≠ [] := by
  induction cs generalizing sim with
  | nil => exact ⟨nofun, fun h => absurd rfl h⟩
  | cons c cs ih =>
    exact (step_facts answer ha c cs hv hp hr (ih (fun s p hm => hv s p (List.mem_cons_of_mem _ hm)) hp.1 hr.1)).2 sim

theorem nothing_lost (answer : Nat → Nat) (ha : ∀ n, answer n ≠ 0) (cs : List Call) (hv : Valid cs) (hp : Proper cs) (hr : Reporting cs) :
    (assigned answer {} (queueOf cs)).map (·.2) = ((queueOf cs).map (·.2)).filter (fun e => !isStart e) := by
  induction cs with
  | nil => rfl
  | cons c cs ih =>
    have hv' : Valid cs := fun s p hm => hv s p (List.mem_cons_of_mem _ hm)
    obtain ⟨id, h⟩ := (step_facts answer ha c cs hv hp hr (open_iff_connected answer ha cs hv' hp.1 hr.1)).1
    rw [queueOf_cons, assigned_append', List.map_append, ih hv' hp.1 hr.1, h, List.map_append, List.filter_append]
    congr 1
    unfold added
    rw [List.map_map, List.map_map]
    simp only [Function.comp_def, List.map_id']

/-! ## Ids belong to their simulations -/

/-- Every open simulation has been created. -/
def OwnNames (w : Worker) : Prop := ∀ n ∈ w.names, ∃ t, Request.create n.1 t n.2 ∈ w.sent

theorem OwnNames.event {answer : Nat → Nat} {w : Worker} {es : List (String × Event)} (hf : Follows answer w es) (h : OwnNames w)
    (e : String × Event) : OwnNames (w.event answer e) ∧ ∀ r ∈ w.sent, r ∈ (w.event answer e).sent := by
  obtain ⟨sim, ev⟩ := e
  unfold Worker.event
  rw [if_neg (by rw [hf.ok]; exact Bool.false_ne_true)]
  have hflush : ∀ r ∈ w.sent, r ∈ w.flush.sent := fun r hr => List.mem_append_left _ hr
  have other : OwnNames (match w.names.lookup sim with | none => w | some id => w.item sim id ev)
      ∧ ∀ r ∈ w.sent, r ∈ (match w.names.lookup sim with | none => w | some id => w.item sim id ev).sent := by
    cases hl : w.names.lookup sim with
    | none => exact ⟨h, fun _ hr => hr⟩
    | some i =>
      show OwnNames (w.item sim i ev) ∧ ∀ r ∈ w.sent, r ∈ (w.item sim i ev).sent
      unfold Worker.item
      cases ev <;> try exact ⟨h, fun _ hr => hr⟩
      · exact ⟨fun n hn => h n (List.mem_filter.1 hn).1, fun _ hr => hr⟩
      · refine ⟨fun n hn => ?_, fun r hr => List.mem_append_left _ hr⟩
        obtain ⟨t, ht⟩ := h n hn
        exact ⟨t, List.mem_append_left _ ht⟩
  cases ev <;> try exact other
  rename_i t
  show OwnNames (if w.flush.failed = true then w.flush else w.flush.start answer sim t)
    ∧ ∀ r ∈ w.sent, r ∈ (if w.flush.failed = true then w.flush else w.flush.start answer sim t).sent
  rw [if_neg (by rw [hf.flush.ok]; exact Bool.false_ne_true)]
  have h' : OwnNames w.flush := fun n hn => by
    obtain ⟨t, ht⟩ := h n hn
    exact ⟨t, hflush _ ht⟩
  unfold Worker.start
  cases hl : w.flush.names.lookup sim with
  | some i => exact ⟨h', hflush⟩
  | none =>
    refine ⟨?_, fun r hr => List.mem_append_left _ (hflush r hr)⟩
    intro n hn
    have hn : n ∈ (if answer w.flush.created = 0 then w.flush.names else (sim, answer w.flush.created) :: w.flush.names) := hn
    by_cases h0 : answer w.flush.created = 0
    · rw [if_pos h0] at hn
      obtain ⟨t, ht⟩ := h' n hn
      exact ⟨t, List.mem_append_left _ ht⟩
    · rw [if_neg h0] at hn
      rcases List.mem_cons.1 hn with rfl | hn
      · exact ⟨t, List.mem_append_right _ (List.mem_singleton.2 rfl)⟩
      · obtain ⟨t, ht⟩ := h' n hn
        exact ⟨t, List.mem_append_left _ ht⟩

/-- A record of which simulation was open at which time. -/
theorem own_events {answer : Nat → Nat} {w : Worker} {es : List (String × Event)} (hg : Good systemObs answer w es) (h : OwnNames w)
    (xs : List (String × Event)) (hd : Describable xs) :
    OwnNames (w.events answer xs) ∧ (∀ r ∈ w.sent, r ∈ (w.events answer xs).sent)
      ∧ ∀ a e c, xs = a ++ e :: c → ∀ id, (books answer (es ++ a)).open_.lookup e.1 = some id →
        ∃ t, Request.create e.1 t id ∈ (w.events answer xs).sent := by
  induction xs generalizing w es with
  | nil => exact ⟨h, fun _ hr => hr, fun a e c he => by cases a <;> cases he⟩
  | cons x xs ih =>
    have h1 := h.event hg.follows x
    have hg1 := hg.event systemObs nofun x (fun d e => hd x.1 d (by rw [← e]; exact List.mem_cons_self ..))
    obtain ⟨i1, i2, i3⟩ := ih hg1 h1.1 (fun sim d hm => hd sim d (List.mem_cons_of_mem _ hm))
    refine ⟨i1, fun r hr => i2 r (h1.2 r hr), ?_⟩
    intro a e c he id hid
    cases a with
    | nil =>
      injection he with he _
      subst he
      rw [List.append_nil, ← hg.follows.names, List.lookup_eq_some_iff] at hid
      obtain ⟨l1, l2, hn, _⟩ := hid
      obtain ⟨t, ht⟩ := h (x.1, id) (by rw [hn]; simp)
      exact ⟨t, i2 _ (h1.2 _ ht)⟩
    | cons y a =>
      injection he with he he'
      subst he
      refine i3 a e c he' id ?_
      rw [List.append_assoc]; exact hid

theorem own_run (answer : Nat → Nat) (bs : List (List (String × Event))) (hd : Describable bs.flatten) :
    ∀ a e c, bs.flatten = a ++ e :: c → ∀ id, (books answer a).open_.lookup e.1 = some id →
      ∃ t, Request.create e.1 t id ∈ (Worker.run answer bs).sent := by
  have : ∀ (w : Worker) (es : List (String × Event)), Good systemObs answer w es → OwnNames w →
      (∀ r ∈ w.sent, r ∈ (bs.foldl (Worker.batch answer) w).sent)
      ∧ ∀ a e c, bs.flatten = a ++ e :: c → ∀ id, (books answer (es ++ a)).open_.lookup e.1 = some id →
        ∃ t, Request.create e.1 t id ∈ (bs.foldl (Worker.batch answer) w).sent := by
    induction bs with
    | nil => intro w es _ _; exact ⟨fun _ hr => hr, fun a e c he => by cases a <;> cases he⟩
    | cons b bs ih =>
      intro w es hg h
      rw [List.flatten_cons] at hd
      have hdb : Describable b := fun s d hm => hd s d (List.mem_append_left _ hm)
      have h1 := hg.events systemObs nofun b hdb
      obtain ⟨o1, o2, o3⟩ := own_events hg h b hdb
      have hb : w.batch answer b = (w.events answer b).flush := by
        show (if (w.events answer b).failed = true then _ else _) = _
        rw [if_neg (by rw [h1.follows.ok]; exact Bool.false_ne_true)]
      have hfl : ∀ r ∈ (w.events answer b).sent, r ∈ (w.batch answer b).sent := by
        rw [hb]; exact fun r hr => List.mem_append_left _ hr
      have ho : OwnNames (w.batch answer b) := by
        intro n hn
        rw [hb] at hn
        obtain ⟨t, ht⟩ := o1 n hn
        exact ⟨t, hfl _ ht⟩
      obtain ⟨r1, r2⟩ := ih (fun s d hm => hd s d (List.mem_append_right _ hm)) _ _ (hg.batch systemObs nofun b hdb).1 ho
      refine ⟨fun r hr => r1 r (hfl r (o2 r hr)), ?_⟩
      intro a e c he id hid
      rw [List.flatten_cons] at he
      rcases List.append_eq_append_iff.1 he with ⟨z, h2, h3⟩ | ⟨z, h2, h3⟩
      · subst h2
        rw [← List.append_assoc] at hid
        exact r2 z e c h3 id hid
      · cases z with
        | nil =>
          rw [List.append_nil] at h2
          subst h2
          refine r2 [] e c (by simpa using h3.symm) id ?_
          rw [List.append_nil]; exact hid
        | cons q z =>
          rw [List.cons_append] at h3
          injection h3 with h3 h4
          subst h3
          obtain ⟨t, ht⟩ := o3 a e z h2 id hid
          exact ⟨t, r1 _ (hfl _ ht)⟩
  intro a e c he id hid
  exact (this {} [] (Good.initial systemObs answer) (fun n hn => nomatch hn)).2 a e c he id hid

end SilKit.Dashboard
