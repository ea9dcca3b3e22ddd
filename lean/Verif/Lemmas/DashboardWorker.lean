import Verif.Lemmas.Dashboard
/-!
# Lemmas about the worker of the dashboard
-/
namespace SilKit.Dashboard
open SilKit SilKit.Dashboard.Spec

/-! ## Observations -/

/-- Something that can be read off events, bulk updates and requests alike. -/
structure Obs (M : Type) where
  mul : M → M → M
  one : M
  assoc : ∀ a b c, mul (mul a b) c = mul a (mul b c)
  one_mul : ∀ a, mul one a = a
  mul_one : ∀ a, mul a one = a
  ofEvent : Event → M
  ofBulk : Bulk → M
  ofDto : Dto → M
  fresh : ofBulk {} = one
  needs : Prop
  add : ∀ b e, (needs → ∀ t, e = .stop t → b.stopped = none) → ofBulk (b.add e) = mul (ofBulk b) (ofEvent e)
  dto : ∀ b d, b.dto = some d → ofDto d = ofBulk b

variable {M : Type} (O : Obs M)

/-- All of them together. -/
def Obs.total {α : Type} (f : α → M) (l : List α) : M := l.foldr (fun x m => O.mul (f x) m) O.one

theorem Obs.total_append {α : Type} (f : α → M) (l k : List α) : O.total f (l ++ k) = O.mul (O.total f l) (O.total f k) := by
  induction l with
  | nil => exact (O.one_mul _).symm
  | cons x l ih =>
    show O.mul (f x) (O.total f (l ++ k)) = O.mul (O.mul (f x) (O.total f l)) (O.total f k)
    rw [ih, O.assoc]

theorem Obs.total_cons {α : Type} (f : α → M) (x : α) (l : List α) : O.total f (x :: l) = O.mul (f x) (O.total f l) := rfl

theorem Obs.total_singleton {α : Type} (f : α → M) (x : α) : O.total f [x] = f x := O.mul_one _

theorem Bulk.eq_of_empty (b : Bulk) (h : b.empty = true) : b = {} := by
  obtain ⟨a, b, c, d, e⟩ := b
  unfold Bulk.empty at h
  simp only [Bool.and_eq_true, Option.isNone_iff_eq_none, List.isEmpty_iff] at h
  obtain ⟨⟨⟨⟨rfl, rfl⟩, rfl⟩, rfl⟩, rfl⟩ := h
  rfl

/-- What is not yet sent. -/
def Obs.pending (id : Nat) (bs : List (Nat × Bulk)) : M := O.total (fun b => O.ofBulk b.2) (bs.filter (·.1 = id))

theorem map_fst_change (bs : List (Nat × Bulk)) (id : Nat) (f : Bulk → Bulk) :
    (change bs id f).map (·.1) = if id ∈ bs.map (·.1) then bs.map (·.1) else bs.map (·.1) ++ [id] := by
  induction bs with
  | nil => simp [change]
  | cons b bs ih =>
    unfold change
    by_cases h : b.1 = id
    · rw [if_pos h]; simp [h]
    · rw [if_neg h]
      have h' : ¬ id = b.1 := fun e => h e.symm
      by_cases hm : id ∈ bs.map (·.1)
      · simp only [List.map_cons, ih, if_pos hm, List.mem_cons, hm, or_true, if_true]
      · rw [if_neg hm] at ih
        rw [if_neg (by simp only [List.map_cons, List.mem_cons, not_or]; exact ⟨h', hm⟩), List.map_cons, List.map_cons, ih,
          List.cons_append]

theorem nodup_change (bs : List (Nat × Bulk)) (id : Nat) (f : Bulk → Bulk) (h : (bs.map (·.1)).Nodup) :
    ((change bs id f).map (·.1)).Nodup := by
  rw [map_fst_change]
  by_cases hm : id ∈ bs.map (·.1)
  · rw [if_pos hm]; exact h
  · rw [if_neg hm, List.nodup_append]
    refine ⟨h, by simp, fun a ha b hb => ?_⟩
    rw [List.mem_singleton] at hb
    intro e; exact hm (by rw [← hb, ← e]; exact ha)

/-- The elements after a change. -/
theorem mem_change (bs : List (Nat × Bulk)) (id : Nat) (f : Bulk → Bulk) (b : Nat × Bulk) (hb : b ∈ change bs id f) :
    b ∈ bs ∨ (b.1 = id ∧ (b.2 = f {} ∧ id ∉ bs.map (·.1) ∨ ∃ c ∈ bs, c.1 = id ∧ b.2 = f c.2)) := by
  induction bs with
  | nil =>
    simp only [change, List.mem_singleton] at hb
    subst hb; exact .inr ⟨rfl, .inl ⟨rfl, by simp⟩⟩
  | cons c bs ih =>
    unfold change at hb
    by_cases h : c.1 = id
    · rw [if_pos h] at hb
      rcases List.mem_cons.1 hb with rfl | hb
      · exact .inr ⟨rfl, .inr ⟨c, List.mem_cons_self .., h, rfl⟩⟩
      · exact .inl (List.mem_cons_of_mem _ hb)
    · rw [if_neg h] at hb
      rcases List.mem_cons.1 hb with rfl | hb
      · exact .inl (List.mem_cons_self ..)
      · rcases ih hb with hb | ⟨h1, ⟨h2, h3⟩ | ⟨c', hc, hc1, hc2⟩⟩
        · exact .inl (List.mem_cons_of_mem _ hb)
        · refine .inr ⟨h1, .inl ⟨h2, ?_⟩⟩
          rw [List.map_cons, List.mem_cons]
          rintro (e | e)
          · exact h e.symm
          · exact h3 e
        · exact .inr ⟨h1, .inr ⟨c', List.mem_cons_of_mem _ hc, hc1, hc2⟩⟩

/-- With distinct keys, exactly one element is changed. -/
theorem mem_change' (bs : List (Nat × Bulk)) (id : Nat) (f : Bulk → Bulk) (hn : (bs.map (·.1)).Nodup) (b : Nat × Bulk)
    (hb : b ∈ change bs id f) :
    (b ∈ bs ∧ b.1 ≠ id) ∨ (b.1 = id ∧ (b.2 = f {} ∧ id ∉ bs.map (·.1) ∨ ∃ c ∈ bs, c.1 = id ∧ b.2 = f c.2)) := by
  induction bs with
  | nil =>
    simp only [change, List.mem_singleton] at hb
    subst hb; exact .inr ⟨rfl, .inl ⟨rfl, by simp⟩⟩
  | cons c bs ih =>
    rw [List.map_cons, List.nodup_cons] at hn
    unfold change at hb
    by_cases h : c.1 = id
    · rw [if_pos h] at hb
      rcases List.mem_cons.1 hb with rfl | hb
      · exact .inr ⟨rfl, .inr ⟨c, List.mem_cons_self .., h, rfl⟩⟩
      · exact .inl ⟨List.mem_cons_of_mem _ hb, fun e => hn.1 (by rw [h, ← e]; exact List.mem_map.2 ⟨b, hb, rfl⟩)⟩
    · rw [if_neg h] at hb
      rcases List.mem_cons.1 hb with rfl | hb
      · exact .inl ⟨List.mem_cons_self .., h⟩
      · rcases ih hn.2 hb with ⟨hb, he⟩ | ⟨h1, ⟨h2, h3⟩ | ⟨c', hc, hc1, hc2⟩⟩
        · exact .inl ⟨List.mem_cons_of_mem _ hb, he⟩
        · refine .inr ⟨h1, .inl ⟨h2, ?_⟩⟩
          rw [List.map_cons, List.mem_cons]
          rintro (e | e)
          · exact h e.symm
          · exact h3 e
        · exact .inr ⟨h1, .inr ⟨c', List.mem_cons_of_mem _ hc, hc1, hc2⟩⟩

theorem Obs.pending_none (id : Nat) (bs : List (Nat × Bulk)) (h : id ∉ bs.map (·.1)) : O.pending id bs = O.one := by
  unfold Obs.pending
  rw [List.filter_eq_nil_iff.2]
  · rfl
  · intro b hb e
    exact h (List.mem_map.2 ⟨b, hb, of_decide_eq_true e⟩)

theorem Obs.pending_cons_eq (b : Nat × Bulk) (bs : List (Nat × Bulk)) :
    O.pending b.1 (b :: bs) = O.mul (O.ofBulk b.2) (O.pending b.1 bs) := by
  unfold Obs.pending
  rw [List.filter_cons, if_pos (decide_eq_true rfl), O.total_cons]

theorem Obs.pending_cons_ne (id : Nat) (b : Nat × Bulk) (bs : List (Nat × Bulk)) (h : b.1 ≠ id) :
    O.pending id (b :: bs) = O.pending id bs := by
  unfold Obs.pending
  rw [List.filter_cons, if_neg (by simp [h])]

theorem Obs.pending_change (bs : List (Nat × Bulk)) (id : Nat) (e : Event) (hn : (bs.map (·.1)).Nodup)
    (hs : O.needs → ∀ t, e = .stop t → ∀ b ∈ bs, b.1 = id → b.2.stopped = none) (i : Nat) :
    O.pending i (change bs id (·.add e)) = O.mul (O.pending i bs) (if id = i then O.ofEvent e else O.one) := by
  induction bs with
  | nil =>
    unfold change
    by_cases h : id = i
    · subst h
      refine (O.pending_cons_eq (id, ({} : Bulk).add e) []).trans ?_
      show O.mul (O.ofBulk (({} : Bulk).add e)) O.one = O.mul O.one _
      rw [if_pos rfl, O.add _ _ (fun _ _ _ => rfl), O.fresh, O.mul_one]
    · rw [O.pending_cons_ne i _ _ h, if_neg h, O.mul_one]
  | cons b bs ih =>
    rw [List.map_cons, List.nodup_cons] at hn
    unfold change
    by_cases hb : b.1 = id
    · rw [if_pos hb]
      by_cases h : id = i
      · subst h
        have hno : id ∉ bs.map (·.1) := hb ▸ hn.1
        have h1 := O.pending_cons_eq (id, b.2.add e) bs
        have h2 : O.pending id (b :: bs) = O.mul (O.ofBulk b.2) (O.pending id bs) := by
          rw [← hb]; exact O.pending_cons_eq b bs
        rw [h2, if_pos rfl]
        refine h1.trans ?_
        show O.mul (O.ofBulk (b.2.add e)) (O.pending id bs) = _
        rw [O.pending_none id bs hno, O.mul_one, O.mul_one,
          O.add _ _ (fun hneed t ht => hs hneed t ht b (List.mem_cons_self ..) hb)]
      · rw [O.pending_cons_ne i _ _ h, O.pending_cons_ne i b _ (by rw [hb]; exact h), if_neg h, O.mul_one]
    · rw [if_neg hb]
      have ih' := ih hn.2 (fun a t ht c hc => hs a t ht c (List.mem_cons_of_mem _ hc))
      by_cases h : b.1 = i
      · subst h
        rw [O.pending_cons_eq, O.pending_cons_eq, ih', O.assoc]
      · rw [O.pending_cons_ne i b _ h, O.pending_cons_ne i b _ h, ih']

/-! ## Sending the bulk updates -/

theorem updates_append (id : Nat) (a b : List Request) : updates id (a ++ b) = updates id a ++ updates id b := List.filterMap_append

theorem flush_facts (bs : List (Nat × Bulk)) (h : ∀ b ∈ bs, ∀ d ∈ b.2.services, (entries d).isSome) :
    (flush bs).2.2 = false ∧ (flush bs).1 = bs.map (fun b => (b.1, {}))
      ∧ (flush bs).2.1 = bs.filterMap (fun b => if b.2.empty then none else b.2.dto.map (fun d => Request.update b.1 d)) := by
  induction bs with
  | nil => exact ⟨rfl, rfl, rfl⟩
  | cons b bs ih =>
    obtain ⟨id, b⟩ := b
    obtain ⟨h1, h2, h3⟩ := ih (fun b hb => h b (List.mem_cons_of_mem _ hb))
    unfold flush
    by_cases he : b.empty = true
    · rw [if_pos he]
      refine ⟨h1, ?_, ?_⟩
      · show (id, b) :: (flush bs).1 = _
        rw [h2, List.map_cons, Bulk.eq_of_empty b he]
      · rw [List.filterMap_cons]
        simp only [he, if_true]
        exact h3
    · rw [if_neg he]
      have := dto_isSome b (h (id, b) (List.mem_cons_self ..))
      obtain ⟨d, hd⟩ := Option.isSome_iff_exists.1 this
      simp only [hd]
      refine ⟨h1, ?_, ?_⟩
      · rw [h2]; rfl
      · rw [List.filterMap_cons]
        simp only [he, hd, Option.map_some, Bool.false_eq_true, if_false]
        rw [h3]

theorem Obs.pending_cleared (id : Nat) (bs : List (Nat × Bulk)) : O.pending id (bs.map (fun b => (b.1, {}))) = O.one := by
  induction bs with
  | nil => rfl
  | cons b bs ih =>
    rw [List.map_cons]
    by_cases h : b.1 = id
    · subst h
      refine (O.pending_cons_eq (b.1, {}) _).trans ?_
      rw [ih, O.mul_one]; exact O.fresh
    · rw [O.pending_cons_ne id (b.1, {}) _ h, ih]

theorem Obs.flushed (id : Nat) (bs : List (Nat × Bulk)) (h : ∀ b ∈ bs, ∀ d ∈ b.2.services, (entries d).isSome) :
    O.total O.ofDto (updates id (flush bs).2.1) = O.pending id bs := by
  rw [(flush_facts bs h).2.2]
  induction bs with
  | nil => rfl
  | cons b bs ih =>
    have ih := ih (fun b hb => h b (List.mem_cons_of_mem _ hb))
    rw [List.filterMap_cons]
    have := dto_isSome b.2 (h b (List.mem_cons_self ..))
    obtain ⟨d, hd⟩ := Option.isSome_iff_exists.1 this
    by_cases he : b.2.empty = true
    · simp only [he, if_true]
      rw [ih]
      by_cases hb : b.1 = id
      · subst hb
        rw [O.pending_cons_eq, Bulk.eq_of_empty _ he, O.fresh, O.one_mul]
      · rw [O.pending_cons_ne id b bs hb]
    · simp only [he, hd, Option.map_some, Bool.false_eq_true, if_false]
      by_cases hb : b.1 = id
      · subst hb
        rw [O.pending_cons_eq]
        unfold updates at ih ⊢
        rw [List.filterMap_cons]
        simp only [if_true]
        rw [O.total_cons, ih, O.dto _ _ hd]
      · rw [O.pending_cons_ne id b bs hb]
        unfold updates at ih ⊢
        rw [List.filterMap_cons]
        simp only [if_neg hb]
        exact ih

/-! ## The worker follows the books -/

/-- The books after a sequence of events. -/
def books (answer : Nat → Nat) (es : List (String × Event)) : Books := es.foldl (Books.after answer) {}

theorem assigned_append (answer : Nat → Nat) (b : Books) (xs ys : List (String × Event)) :
    assigned answer b (xs ++ ys) = assigned answer b xs ++ assigned answer (xs.foldl (Books.after answer) b) ys := by
  induction xs generalizing b with
  | nil => rfl
  | cons x xs ih => simp only [List.cons_append, assigned, ih, List.foldl_cons, List.append_assoc]

theorem assigned_snoc (answer : Nat → Nat) (es : List (String × Event)) (e : String × Event) :
    assigned answer {} (es ++ [e]) = assigned answer {} es ++ (((books answer es).idOf e).map (fun id => (id, e.2))).toList := by
  rw [assigned_append]
  simp [assigned, books]

theorem books_snoc (answer : Nat → Nat) (es : List (String × Event)) (e : String × Event) :
    books answer (es ++ [e]) = (books answer es).after answer e := by
  unfold books; rw [List.foldl_append]; rfl

theorem eventsOf_append (id : Nat) (a b : List (Nat × Event)) : eventsOf id (a ++ b) = eventsOf id a ++ eventsOf id b := by
  unfold eventsOf; rw [List.filter_append, List.map_append]

/-- The worker and the books. -/
structure Follows (answer : Nat → Nat) (w : Worker) (es : List (String × Event)) : Prop where
  ok : w.failed = false
  names : w.names = (books answer es).open_
  created : w.created = (books answer es).asked
  keys : (w.bulks.map (·.1)).Nodup
  desc : ∀ b ∈ w.bulks, ∀ d ∈ b.2.services, (entries d).isSome

/-- Nothing is lost or invented. -/
def Balanced (answer : Nat → Nat) (w : Worker) (es : List (String × Event)) : Prop :=
  ∀ id, O.mul (O.total O.ofDto (updates id w.sent)) (O.pending id w.bulks)
    = O.total O.ofEvent (eventsOf id (assigned answer {} es))

theorem Follows.flush {answer : Nat → Nat} {w : Worker} {es : List (String × Event)} (h : Follows answer w es) :
    Follows answer w.flush es := by
  obtain ⟨h1, h2, _⟩ := flush_facts w.bulks h.desc
  refine ⟨h1, h.names, h.created, ?_, ?_⟩
  · show ((Dashboard.flush w.bulks).1.map (·.1)).Nodup
    rw [h2, List.map_map]
    exact h.keys
  · show ∀ b ∈ (Dashboard.flush w.bulks).1, _
    rw [h2]
    intro b hb
    obtain ⟨c, _, rfl⟩ := List.mem_map.1 hb
    intro d hd; cases hd

theorem Balanced.flush {answer : Nat → Nat} {w : Worker} {es : List (String × Event)} (hf : Follows answer w es)
    (h : Balanced O answer w es) : Balanced O answer w.flush es := by
  intro id
  show O.mul (O.total O.ofDto (updates id (w.sent ++ (Dashboard.flush w.bulks).2.1))) (O.pending id (Dashboard.flush w.bulks).1) = _
  rw [updates_append, O.total_append, O.flushed id w.bulks hf.desc, (flush_facts w.bulks hf.desc).2.1, O.pending_cleared, O.mul_one, h id]

theorem flush_pending {answer : Nat → Nat} {w : Worker} {es : List (String × Event)} (hf : Follows answer w es) (id : Nat) :
    O.pending id w.flush.bulks = O.one := by
  show O.pending id (Dashboard.flush w.bulks).1 = _
  rw [(flush_facts w.bulks hf.desc).2.1, O.pending_cleared]

theorem updates_create (id : Nat) (s : String) (t a : Nat) : updates id [.create s t a] = [] := rfl
theorem updates_metrics (id i : Nat) (o m : String) : updates id [.metrics i o m] = [] := rfl

theorem idOf_of_ne (b : Books) (e : String × Event) (h : ∀ t, e.2 ≠ .start t) : b.idOf e = b.open_.lookup e.1 := by
  obtain ⟨n, e⟩ := e
  cases e <;> first | rfl | exact absurd rfl (h _)

/-- One event. -/
theorem event_facts {answer : Nat → Nat} {w : Worker} {es : List (String × Event)} (hf : Follows answer w es) (e : String × Event)
    (hd : ∀ d, e.2 = .service d → (entries d).isSome)
    (hs : O.needs → ∀ b ∈ w.bulks, b.1 ∈ w.names.map (·.2) → b.2.stopped = none) (hb : Balanced O answer w es) :
    Follows answer (w.event answer e) (es ++ [e]) ∧ Balanced O answer (w.event answer e) (es ++ [e]) := by
  obtain ⟨sim, ev⟩ := e
  by_cases hst : ∃ t, ev = .start t
  · obtain ⟨t, rfl⟩ := hst
    have hf' := hf.flush
    have hb' := Balanced.flush O hf hb
    have he : w.event answer (sim, .start t) = w.flush.start answer sim t := by
      unfold Worker.event
      rw [if_neg (by rw [hf.ok]; exact Bool.false_ne_true)]
      show (if w.flush.failed = true then w.flush else _) = _
      rw [if_neg (by rw [hf'.ok]; exact Bool.false_ne_true)]
    rw [he]
    have hass : assigned answer {} (es ++ [(sim, .start t)]) = assigned answer {} es := by
      rw [assigned_snoc]; exact List.append_nil _
    have hbk := books_snoc answer es (sim, .start t)
    unfold Worker.start
    cases hl : w.flush.names.lookup sim with
    | some i =>
      simp only []
      have hsome : ((books answer es).open_.lookup sim).isSome := by rw [← hf'.names, hl]; rfl
      have : (books answer es).after answer (sim, .start t) = books answer es := by
        unfold Books.after; exact if_pos hsome
      rw [this] at hbk
      refine ⟨⟨hf'.ok, by rw [hbk]; exact hf'.names, by rw [hbk]; exact hf'.created, hf'.keys, hf'.desc⟩, ?_⟩
      intro id; rw [hass]; exact hb' id
    | none =>
      simp only []
      have hno : ¬ ((books answer es).open_.lookup sim).isSome := by rw [← hf'.names, hl]; exact Bool.false_ne_true
      have : (books answer es).after answer (sim, .start t)
          = { open_ := if answer (books answer es).asked = 0 then (books answer es).open_
                       else (sim, answer (books answer es).asked) :: (books answer es).open_
              asked := (books answer es).asked + 1 } := by
        unfold Books.after; exact if_neg hno
      rw [this] at hbk
      refine ⟨⟨hf'.ok, ?_, ?_, hf'.keys, hf'.desc⟩, ?_⟩
      · rw [hbk]
        show (if answer w.flush.created = 0 then w.flush.names else (sim, answer w.flush.created) :: w.flush.names) = _
        rw [hf'.created, hf'.names]
      · rw [hbk]
        show w.flush.created + 1 = _
        rw [hf'.created]
      · intro id
        rw [hass]
        show O.mul (O.total O.ofDto (updates id (w.flush.sent ++ [_]))) (O.pending id w.flush.bulks) = _
        rw [updates_append, updates_create, List.append_nil]
        exact hb' id
  · have hst' : ∀ t, ev ≠ .start t := fun t e => hst ⟨t, e⟩
    have he : w.event answer (sim, ev) = match w.names.lookup sim with | none => w | some id => w.item sim id ev := by
      unfold Worker.event
      rw [if_neg (by rw [hf.ok]; exact Bool.false_ne_true)]
      cases ev <;> first | rfl | exact absurd rfl (hst' _)
    have hid : (books answer es).idOf (sim, ev) = w.names.lookup sim := by
      rw [idOf_of_ne _ _ hst', hf.names]
    have hass := assigned_snoc answer es (sim, ev)
    have hbk := books_snoc answer es (sim, ev)
    rw [hid] at hass
    rw [he]
    cases hl : w.names.lookup sim with
    | none =>
      simp only []
      rw [hl] at hass
      have hass : assigned answer {} (es ++ [(sim, ev)]) = assigned answer {} es := by rw [hass]; exact List.append_nil _
      have hsame : (books answer es).after answer (sim, ev) = books answer es := by
        cases ev with
        | start t => exact absurd rfl (hst' t)
        | stop t =>
          show ({ books answer es with open_ := (books answer es).open_.filter (fun n => n.1 ≠ sim) } : Books) = books answer es
          have : (books answer es).open_.filter (fun n => n.1 ≠ sim) = (books answer es).open_ := by
            rw [List.filter_eq_self]
            intro n hn
            apply decide_eq_true
            intro e
            rw [← hf.names] at hn
            rw [List.lookup_eq_none_iff] at hl
            have := hl n hn
            simp [e] at this
          rw [this]
        | _ => rfl
      rw [hsame] at hbk
      refine ⟨⟨hf.ok, by rw [hbk]; exact hf.names, by rw [hbk]; exact hf.created, hf.keys, hf.desc⟩, ?_⟩
      intro id; rw [hass]; exact hb id
    | some i =>
      simp only []
      rw [hl] at hass
      have hass : assigned answer {} (es ++ [(sim, ev)]) = assigned answer {} es ++ [(i, ev)] := hass
      have hmem : i ∈ w.names.map (·.2) := by
        rw [List.lookup_eq_some_iff] at hl
        obtain ⟨l1, l2, h, _⟩ := hl
        rw [h]; simp
      have hbulks : (w.item sim i ev).bulks = change w.bulks i (·.add ev) := by
        unfold Worker.item; cases ev <;> rfl
      have hupd : ∀ id, updates id (w.item sim i ev).sent = updates id w.sent := by
        intro id
        unfold Worker.item
        cases ev <;> try rfl
        show updates id (w.sent ++ [_]) = _
        rw [updates_append, updates_metrics, List.append_nil]
      refine ⟨⟨?_, ?_, ?_, ?_, ?_⟩, ?_⟩
      · rw [← hf.ok]; unfold Worker.item; cases ev <;> rfl
      · rw [hbk]
        unfold Worker.item
        cases ev <;> first | exact hf.names | exact absurd rfl (hst' _) | skip
        show w.names.filter (fun n => n.1 ≠ sim) = (books answer es).open_.filter (fun n => n.1 ≠ sim)
        rw [hf.names]
      · rw [hbk]
        unfold Worker.item
        cases ev <;> first | exact hf.created | exact absurd rfl (hst' _)
      · rw [hbulks]; exact nodup_change _ _ _ hf.keys
      · rw [hbulks]
        intro b hbm d hdm
        have key : ∀ c : Bulk, (∀ d ∈ c.services, (entries d).isSome) → ∀ d ∈ (c.add ev).services, (entries d).isSome := by
          intro c hc d hdc
          by_cases hsv : ∃ dd, ev = .service dd
          · obtain ⟨dd, rfl⟩ := hsv
            rcases List.mem_append.1 (show d ∈ c.services ++ [dd] from hdc) with h | h
            · exact hc d h
            · rw [List.mem_singleton] at h; subst h; exact hd _ rfl
          · cases ev <;> first | exact hc d hdc | exact absurd ⟨_, rfl⟩ hsv
        rcases mem_change _ _ _ _ hbm with hb' | ⟨_, ⟨h2, _⟩ | ⟨c, hc, _, h2⟩⟩
        · exact hf.desc b hb' d hdm
        · rw [h2] at hdm; exact key {} (fun d hd => nomatch hd) d hdm
        · rw [h2] at hdm; exact key c.2 (hf.desc c hc) d hdm
      · intro id
        rw [hass, hupd, hbulks, O.pending_change w.bulks i ev hf.keys
          (fun hn t _ b hbm hbi => hs hn b hbm (hbi ▸ hmem)) id, eventsOf_append, O.total_append, ← hb id, ← O.assoc]
        by_cases h : i = id
        · subst h
          rw [if_pos rfl]
          have : eventsOf i [(i, ev)] = [ev] := by simp [eventsOf]
          rw [this, O.total_singleton]
        · rw [if_neg h]
          have : eventsOf id [(i, ev)] = [] := by simp [eventsOf, h]
          rw [this]; rfl

end SilKit.Dashboard
