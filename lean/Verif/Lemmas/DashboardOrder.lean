import Verif.Lemmas.DashboardWorker
/-!
# Lemmas about the order of the requests, and the observations
-/
namespace SilKit.Dashboard
open SilKit SilKit.Dashboard.Spec

theorem stops_append (id : Nat) (a b : List Request) : stops id (a ++ b) = stops id a ++ stops id b := by
  unfold stops; rw [updates_append, List.flatMap_append]

/-- An id handed out by the dashboard. -/
def Issued (answer : Nat → Nat) (w : Worker) (id : Nat) : Prop := id ≠ 0 ∧ ∃ k, k < w.created ∧ answer k = id

/-- The state of the worker if the dashboard never hands out an id twice. -/
structure Fresh (answer : Nat → Nat) (w : Worker) : Prop where
  made : ∀ id, (id ∈ w.names.map (·.2) ∨ id ∈ w.bulks.map (·.1)) → Issued answer w id ∧ ∃ s t, Request.create s t id ∈ w.sent
  nodup : (w.names.map (·.2)).Nodup
  retired : ∀ b ∈ w.bulks, b.2.stopped ≠ none → b.1 ∉ w.names.map (·.2)
  closed : ∀ id, stops id w.sent ≠ [] → Issued answer w id ∧ id ∉ w.names.map (·.2) ∧ ∀ b ∈ w.bulks, b.1 = id → b.2 = {}
  order : InOrder w.sent

theorem inOrder_append (a rs : List Request) (h : InOrder a)
    (hr : ∀ x r y, rs = x ++ r :: y → ∀ id, ((∃ dto, r = .update id dto) ∨ ∃ o m, r = .metrics id o m) →
      (∃ sim time, .create sim time id ∈ a) ∧ stops id (a ++ x) = []) : InOrder (a ++ rs) := by
  intro x r y he id hid
  rcases List.append_eq_append_iff.1 he with ⟨z, h1, h2⟩ | ⟨z, h1, h2⟩
  · obtain ⟨⟨s, t, hc⟩, hs⟩ := hr z r y h2 id hid
    refine ⟨⟨s, t, ?_⟩, ?_⟩
    · rw [h1]; exact List.mem_append_left _ hc
    · rw [h1]; exact hs
  · cases z with
    | nil =>
      obtain ⟨⟨s, t, hc⟩, hs⟩ := hr [] r y (by simpa using h2.symm) id hid
      rw [List.append_nil] at h1 hs
      subst h1
      exact ⟨⟨s, t, hc⟩, hs⟩
    | cons q z =>
      rw [List.cons_append] at h2
      injection h2 with h2 h3
      subst h2
      exact h x r z h1 id hid

/-- The request for a bulk update. -/
def request (b : Nat × Bulk) : Option Request := if b.2.empty then none else b.2.dto.map (fun d => Request.update b.1 d)

theorem updates_other (id : Nat) (bs : List (Nat × Bulk)) (h : id ∉ bs.map (·.1)) : updates id (bs.filterMap request) = [] := by
  induction bs with
  | nil => rfl
  | cons b bs ih =>
    rw [List.map_cons, List.mem_cons, not_or] at h
    rw [List.filterMap_cons]
    unfold request
    by_cases he : b.2.empty = true
    · simp only [he, if_true]; exact ih h.2
    · cases hd : b.2.dto with
      | none => simp only [he, Bool.false_eq_true, if_false, Option.map_none]; exact ih h.2
      | some d =>
        simp only [he, Bool.false_eq_true, if_false, Option.map_some]
        unfold updates
        rw [List.filterMap_cons]
        simp only [if_neg (fun e => h.1 (Eq.symm e) : ¬ b.1 = id)]
        exact ih h.2

theorem request_split (bs : List (Nat × Bulk)) (hn : (bs.map (·.1)).Nodup) (x y : List Request) (r : Request)
    (h : bs.filterMap request = x ++ r :: y) :
    ∃ b ∈ bs, request b = some r ∧ updates b.1 x = [] := by
  rw [List.filterMap_eq_append_iff] at h
  obtain ⟨l1, l2, rfl, rfl, h2⟩ := h
  rw [List.filterMap_eq_cons_iff] at h2
  obtain ⟨l3, b, l4, rfl, h3, h4, _⟩ := h2
  refine ⟨b, by simp, h4, ?_⟩
  apply updates_other
  intro hm
  rw [List.map_append, List.nodup_append] at hn
  exact hn.2.2 _ hm b.1 (by simp) rfl

theorem request_spec (b : Nat × Bulk) (r : Request) (h : request b = some r) :
    b.2 ≠ {} ∧ ∃ d, b.2.dto = some d ∧ r = .update b.1 d := by
  unfold request at h
  by_cases he : b.2.empty = true
  · rw [if_pos he] at h; cases h
  · rw [if_neg he, Option.map_eq_some_iff] at h
    obtain ⟨d, hd, rfl⟩ := h
    refine ⟨fun e => he (by rw [e]; rfl), d, hd, rfl⟩

theorem stops_requests (id : Nat) (bs : List (Nat × Bulk)) (h : stops id (bs.filterMap request) ≠ []) :
    ∃ b ∈ bs, b.1 = id ∧ b.2.stopped ≠ none := by
  induction bs with
  | nil => exact absurd rfl h
  | cons b bs ih =>
    rw [List.filterMap_cons] at h
    cases hr : request b with
    | none =>
      rw [hr] at h
      obtain ⟨c, hc, h1⟩ := ih h
      exact ⟨c, List.mem_cons_of_mem _ hc, h1⟩
    | some r =>
      rw [hr] at h
      obtain ⟨_, d, hd, rfl⟩ := request_spec b r hr
      by_cases hb : b.1 = id
      · by_cases hs : b.2.stopped = none
        · have : stops id (Request.update b.1 d :: bs.filterMap request) = stops id (bs.filterMap request) := by
            unfold stops updates
            rw [List.filterMap_cons]
            simp only [if_pos hb, List.flatMap_cons, (dto_facts b.2 d hd).1, hs, Option.toList_none, List.nil_append]
          have h' : stops id (Request.update b.1 d :: bs.filterMap request) ≠ [] := h
          rw [this] at h'
          obtain ⟨c, hc, h1⟩ := ih h'
          exact ⟨c, List.mem_cons_of_mem _ hc, h1⟩
        · exact ⟨b, List.mem_cons_self .., hb, hs⟩
      · have : stops id (Request.update b.1 d :: bs.filterMap request) = stops id (bs.filterMap request) := by
          unfold stops updates
          rw [List.filterMap_cons]
          simp only [if_neg hb]
        have h' : stops id (Request.update b.1 d :: bs.filterMap request) ≠ [] := h
        rw [this] at h'
        obtain ⟨c, hc, h1⟩ := ih h'
        exact ⟨c, List.mem_cons_of_mem _ hc, h1⟩

theorem Fresh.flush {answer : Nat → Nat} {w : Worker} {es : List (String × Event)} (hf : Follows answer w es) (h : Fresh answer w) :
    Fresh answer w.flush := by
  obtain ⟨_, h2, h3⟩ := flush_facts w.bulks hf.desc
  have hb : w.flush.bulks = w.bulks.map (fun b => (b.1, {})) := h2
  have hs : w.flush.sent = w.sent ++ w.bulks.filterMap request := by
    show w.sent ++ (Dashboard.flush w.bulks).2.1 = _
    rw [h3]; rfl
  have hk : w.flush.bulks.map (·.1) = w.bulks.map (·.1) := by rw [hb, List.map_map]; rfl
  refine ⟨?_, h.nodup, ?_, ?_, ?_⟩
  · intro id hid
    rw [hk] at hid
    obtain ⟨hi, s, t, hc⟩ := h.made id hid
    exact ⟨hi, s, t, by rw [hs]; exact List.mem_append_left _ hc⟩
  · intro b hbm
    rw [hb] at hbm
    obtain ⟨c, _, rfl⟩ := List.mem_map.1 hbm
    exact fun e => absurd rfl e
  · intro id hid
    have hempty : ∀ b ∈ w.flush.bulks, b.1 = id → b.2 = {} := by
      intro b hbm _
      rw [hb] at hbm
      obtain ⟨c, _, rfl⟩ := List.mem_map.1 hbm
      rfl
    rw [hs, stops_append] at hid
    by_cases h1 : stops id w.sent = []
    · rw [h1, List.nil_append] at hid
      obtain ⟨b, hbm, rfl, hst⟩ := stops_requests id w.bulks hid
      exact ⟨(h.made b.1 (.inr (List.mem_map.2 ⟨b, hbm, rfl⟩))).1, h.retired b hbm hst, hempty⟩
    · exact ⟨(h.closed id h1).1, (h.closed id h1).2.1, hempty⟩
  · rw [hs]
    refine inOrder_append _ _ h.order ?_
    intro x r y he id hid
    obtain ⟨b, hbm, hr, hx⟩ := request_split w.bulks hf.keys x y r he
    obtain ⟨hne, d, hd, rfl⟩ := request_spec b r hr
    have hbi : b.1 = id := by
      rcases hid with ⟨d', e⟩ | ⟨o, m, e⟩
      · injection e
      · cases e
    subst hbi
    refine ⟨(h.made b.1 (.inr (List.mem_map.2 ⟨b, hbm, rfl⟩))).2, ?_⟩
    rw [stops_append]
    have h1 : stops b.1 w.sent = [] := by
      apply Classical.byContradiction
      intro hc
      exact hne ((h.closed b.1 hc).2.2 b hbm rfl)
    rw [h1]
    unfold stops
    rw [hx]; rfl

theorem Fresh.start {answer : Nat → Nat} (ha : Distinct answer) {w : Worker} (h : Fresh answer w) (sim : String) (t : Nat) :
    Fresh answer (w.start answer sim t) := by
  unfold Worker.start
  cases hl : w.names.lookup sim with
  | some i => exact h
  | none =>
    simp only []
    have hnew : ∀ id, Issued answer w id → answer w.created = 0 ∨ id ≠ answer w.created := by
      intro id ⟨h0, k, hk, hk'⟩
      refine .inr (fun e => ?_)
      have := ha k w.created (by rw [hk']; exact h0) (hk'.trans e)
      omega
    have hsub : ∀ id, id ∈ (if answer w.created = 0 then w.names else (sim, answer w.created) :: w.names).map (·.2) →
        id ∈ w.names.map (·.2) ∨ (id = answer w.created ∧ answer w.created ≠ 0) := by
      intro id hid
      by_cases h0 : answer w.created = 0
      · rw [if_pos h0] at hid; exact .inl hid
      · rw [if_neg h0, List.map_cons, List.mem_cons] at hid
        rcases hid with hid | hid
        · exact .inr ⟨hid, h0⟩
        · exact .inl hid
    have hst : ∀ id, stops id (w.sent ++ [.create sim t (answer w.created)]) = stops id w.sent := by
      intro id; rw [stops_append]; exact List.append_nil _
    have hiss : ∀ id, Issued answer w id → ∀ w' : Worker, w'.created = w.created + 1 → Issued answer w' id :=
      fun id ⟨h0, k, hk, hk'⟩ w' hw => ⟨h0, k, by omega, hk'⟩
    refine ⟨?_, ?_, ?_, ?_, ?_⟩
    · intro id hid
      have hid' : id ∈ w.names.map (·.2) ∨ id ∈ w.bulks.map (·.1) ∨ (id = answer w.created ∧ answer w.created ≠ 0) := by
        rcases hid with hid | hid
        · rcases hsub id hid with h | h
          · exact .inl h
          · exact .inr (.inr h)
        · exact .inr (.inl hid)
      rcases hid' with hid | hid | ⟨rfl, h0⟩
      · obtain ⟨hi, s, t', hc⟩ := h.made id (.inl hid)
        exact ⟨hiss id hi _ rfl, s, t', List.mem_append_left _ hc⟩
      · obtain ⟨hi, s, t', hc⟩ := h.made id (.inr hid)
        exact ⟨hiss id hi _ rfl, s, t', List.mem_append_left _ hc⟩
      · exact ⟨⟨h0, w.created, Nat.lt_succ_self _, rfl⟩, sim, t, List.mem_append_right _ (List.mem_singleton.2 rfl)⟩
    · show ((if answer w.created = 0 then w.names else (sim, answer w.created) :: w.names).map (·.2)).Nodup
      by_cases h0 : answer w.created = 0
      · rw [if_pos h0]; exact h.nodup
      · rw [if_neg h0, List.map_cons, List.nodup_cons]
        refine ⟨fun hm => ?_, h.nodup⟩
        rcases hnew _ (h.made _ (.inl hm)).1 with e | e
        · exact h0 e
        · exact e rfl
    · intro b hb hbs hm
      rcases hsub b.1 hm with hm | ⟨hm, h0⟩
      · exact h.retired b hb hbs hm
      · rcases hnew _ (h.made b.1 (.inr (List.mem_map.2 ⟨b, hb, rfl⟩))).1 with e | e
        · exact h0 e
        · exact e hm
    · intro id hid
      have hid' : stops id w.sent ≠ [] := by rw [← hst id]; exact hid
      obtain ⟨h1, h2, h3⟩ := h.closed id hid'
      refine ⟨hiss id h1 _ rfl, fun hm => ?_, h3⟩
      rcases hsub id hm with hm | ⟨hm, h0⟩
      · exact h2 hm
      · rcases hnew _ h1 with e | e
        · exact h0 e
        · exact e hm
    · refine inOrder_append _ _ h.order ?_
      intro x r y he id hid
      cases x with
      | nil =>
        injection he with he _
        subst he
        rcases hid with ⟨d, e⟩ | ⟨o, m, e⟩ <;> cases e
      | cons q x => injection he with _ he; cases x <;> cases he

theorem Fresh.item {answer : Nat → Nat} {w : Worker} (hk : (w.bulks.map (·.1)).Nodup) (h : Fresh answer w) (sim : String) (i : Nat)
    (ev : Event) (hl : w.names.lookup sim = some i) : Fresh answer (w.item sim i ev) := by
  have hpair : (sim, i) ∈ w.names := by
    rw [List.lookup_eq_some_iff] at hl
    obtain ⟨l1, l2, h, _⟩ := hl
    rw [h]; simp
  have hmem : i ∈ w.names.map (·.2) := List.mem_map.2 ⟨_, hpair, rfl⟩
  have hbulks : (w.item sim i ev).bulks = change w.bulks i (·.add ev) := by unfold Worker.item; cases ev <;> rfl
  have hcreated : (w.item sim i ev).created = w.created := by unfold Worker.item; cases ev <;> rfl
  have hsub : (w.item sim i ev).names = w.names ∨ ((∃ t, ev = .stop t) ∧ (w.item sim i ev).names = w.names.filter (fun n => n.1 ≠ sim)) := by
    unfold Worker.item
    cases ev <;> first | exact .inl rfl | exact .inr ⟨⟨_, rfl⟩, rfl⟩
  have hsub' : ∀ id, id ∈ (w.item sim i ev).names.map (·.2) → id ∈ w.names.map (·.2) := by
    intro id hid
    rcases hsub with e | ⟨_, e⟩
    · rw [e] at hid; exact hid
    · rw [e] at hid
      obtain ⟨n, hn, rfl⟩ := List.mem_map.1 hid
      exact List.mem_map.2 ⟨n, (List.mem_filter.1 hn).1, rfl⟩
  have hsent : (w.item sim i ev).sent = w.sent ∨ ∃ o m, (w.item sim i ev).sent = w.sent ++ [.metrics i o m] := by
    unfold Worker.item
    cases ev <;> first | exact .inl rfl | exact .inr ⟨_, _, rfl⟩
  have hstops : ∀ id, stops id (w.item sim i ev).sent = stops id w.sent := by
    intro id
    rcases hsent with e | ⟨o, m, e⟩
    · rw [e]
    · rw [e, stops_append]; exact List.append_nil _
  have hcr : ∀ r ∈ w.sent, r ∈ (w.item sim i ev).sent := by
    intro r hr
    rcases hsent with e | ⟨o, m, e⟩
    · rw [e]; exact hr
    · rw [e]; exact List.mem_append_left _ hr
  have hiss : ∀ id, Issued answer w id → Issued answer (w.item sim i ev) id := by
    intro id ⟨h0, k, h1, h2⟩
    exact ⟨h0, k, by rw [hcreated]; exact h1, h2⟩
  refine ⟨?_, ?_, ?_, ?_, ?_⟩
  · intro id hid
    have : id ∈ w.names.map (·.2) ∨ id ∈ w.bulks.map (·.1) := by
      rcases hid with hid | hid
      · exact .inl (hsub' id hid)
      · rw [hbulks, map_fst_change] at hid
        by_cases hi : i ∈ w.bulks.map (·.1)
        · rw [if_pos hi] at hid; exact .inr hid
        · rw [if_neg hi, List.mem_append, List.mem_singleton] at hid
          rcases hid with hid | hid
          · exact .inr hid
          · exact .inl (hid ▸ hmem)
    obtain ⟨h1, s, t, h2⟩ := h.made id this
    exact ⟨hiss id h1, s, t, hcr _ h2⟩
  · rcases hsub with e | ⟨_, e⟩
    · rw [e]; exact h.nodup
    · rw [e]; exact h.nodup.sublist (List.filter_sublist.map _)
  · intro b hb hbs hm
    rw [hbulks] at hb
    rcases mem_change' w.bulks i _ hk b hb with ⟨hb', _⟩ | ⟨h1, h2⟩
    · exact h.retired b hb' hbs (hsub' _ hm)
    · have hev : ∃ t, ev = .stop t := by
        have key : ∀ c : Bulk, c.stopped = none → b.2 = c.add ev → ∃ t, ev = .stop t := by
          intro c hc e
          rw [e] at hbs
          cases ev <;> first | exact ⟨_, rfl⟩ | exact absurd hc hbs
        rcases h2 with ⟨h2, _⟩ | ⟨c, hc, hc1, h2⟩
        · exact key {} rfl h2
        · refine key c.2 ?_ h2
          apply Classical.byContradiction
          intro hcs
          exact h.retired c hc hcs (hc1 ▸ hmem)
      rcases hsub with e | ⟨_, e⟩
      · obtain ⟨t, rfl⟩ := hev
        have : (w.item sim i (.stop t)).names = w.names.filter (fun n => n.1 ≠ sim) := rfl
        rw [this] at hm
        obtain ⟨n, hn, hn'⟩ := List.mem_map.1 hm
        rw [List.mem_filter] at hn
        have hne : n.1 ≠ sim := of_decide_eq_true hn.2
        have heq : n = (sim, i) := inj_of_nodup h.nodup hn.1 hpair (hn'.trans h1)
        exact hne (by rw [heq])
      · rw [e] at hm
        obtain ⟨n, hn, hn'⟩ := List.mem_map.1 hm
        rw [List.mem_filter] at hn
        have hne : n.1 ≠ sim := of_decide_eq_true hn.2
        have heq : n = (sim, i) := inj_of_nodup h.nodup hn.1 hpair (hn'.trans h1)
        exact hne (by rw [heq])
  · intro id hid
    rw [hstops] at hid
    obtain ⟨h1, h2, h3⟩ := h.closed id hid
    refine ⟨hiss id h1, fun hm => h2 (hsub' id hm), ?_⟩
    intro b hb hbi
    rw [hbulks] at hb
    rcases mem_change' w.bulks i _ hk b hb with ⟨hb', _⟩ | ⟨h4, _⟩
    · exact h3 b hb' hbi
    · exact absurd hmem (by rw [← h4, hbi]; exact h2)
  · rcases hsent with e | ⟨o, m, e⟩
    · rw [e]; exact h.order
    · rw [e]
      refine inOrder_append _ _ h.order ?_
      intro x r y he id hid
      cases x with
      | nil =>
        injection he with he _
        subst he
        have hi : i = id := by
          rcases hid with ⟨d, e⟩ | ⟨o, m, e⟩
          · cases e
          · injection e
        subst hi
        refine ⟨(h.made i (.inl hmem)).2, ?_⟩
        rw [List.append_nil]
        apply Classical.byContradiction
        intro hc
        exact (h.closed i hc).2.1 hmem
      | cons q x => injection he with _ he; cases x <;> cases he
where
  inj_of_nodup {l : List (String × Nat)} (h : (l.map (·.2)).Nodup) {a b : String × Nat} (ha : a ∈ l) (hb : b ∈ l) (e : a.2 = b.2) :
      a = b := by
    induction l with
    | nil => cases ha
    | cons c l ih =>
      rw [List.map_cons, List.nodup_cons] at h
      rcases List.mem_cons.1 ha with ha' | ha' <;> rcases List.mem_cons.1 hb with hb' | hb'
      · exact ha'.trans hb'.symm
      · subst ha'; exact absurd (List.mem_map.2 ⟨b, hb', e.symm⟩) h.1
      · subst hb'; exact absurd (List.mem_map.2 ⟨a, ha', e⟩) h.1
      · exact ih h.2 ha' hb'

theorem Fresh.event {answer : Nat → Nat} (ha : Distinct answer) {w : Worker} {es : List (String × Event)} (hf : Follows answer w es)
    (h : Fresh answer w) (e : String × Event) : Fresh answer (w.event answer e) := by
  unfold Worker.event
  rw [if_neg (by rw [hf.ok]; exact Bool.false_ne_true)]
  obtain ⟨sim, ev⟩ := e
  have other : Fresh answer (match w.names.lookup sim with | none => w | some id => w.item sim id ev) := by
    cases hl : w.names.lookup sim with
    | none => exact h
    | some i => exact h.item hf.keys sim i ev hl
  cases ev <;> try exact other
  show Fresh answer (if w.flush.failed = true then w.flush else _)
  rw [if_neg (by rw [hf.flush.ok]; exact Bool.false_ne_true)]
  exact (Fresh.flush hf h).start ha sim _

/-! ## Batches -/

variable {M : Type} (O : Obs M)

/-- Everything together. -/
structure Good (answer : Nat → Nat) (w : Worker) (es : List (String × Event)) : Prop where
  follows : Follows answer w es
  balanced : Balanced O answer w es
  fresh : Distinct answer → Fresh answer w

theorem Good.event {answer : Nat → Nat} (hneed : O.needs → Distinct answer) {w : Worker} {es : List (String × Event)}
    (h : Good O answer w es) (e : String × Event) (hd : ∀ d, e.2 = .service d → (entries d).isSome) :
    Good O answer (w.event answer e) (es ++ [e]) := by
  have := event_facts O h.follows e hd (fun hn b hb hm => by
    apply Classical.byContradiction
    intro hc
    exact (h.fresh (hneed hn)).retired b hb hc hm) h.balanced
  exact ⟨this.1, this.2, fun ha => (h.fresh ha).event ha h.follows e⟩

theorem Good.events {answer : Nat → Nat} (hneed : O.needs → Distinct answer) {w : Worker} {es : List (String × Event)}
    (h : Good O answer w es) (xs : List (String × Event)) (hd : Describable xs) :
    Good O answer (w.events answer xs) (es ++ xs) := by
  induction xs generalizing w es with
  | nil => rw [List.append_nil]; exact h
  | cons x xs ih =>
    have := ih (h.event O hneed x (fun d e => hd x.1 d (by rw [← e]; exact List.mem_cons_self ..)))
      (fun sim d hm => hd sim d (List.mem_cons_of_mem _ hm))
    rw [List.append_assoc] at this
    exact this

theorem Good.flush {answer : Nat → Nat} {w : Worker} {es : List (String × Event)} (h : Good O answer w es) :
    Good O answer w.flush es :=
  ⟨h.follows.flush, Balanced.flush O h.follows h.balanced, fun ha => Fresh.flush h.follows (h.fresh ha)⟩

theorem Good.batch {answer : Nat → Nat} (hneed : O.needs → Distinct answer) {w : Worker} {es : List (String × Event)}
    (h : Good O answer w es) (xs : List (String × Event)) (hd : Describable xs) :
    Good O answer (w.batch answer xs) (es ++ xs) ∧ ∀ id, O.pending id (w.batch answer xs).bulks = O.one := by
  have h1 := h.events O hneed xs hd
  have : w.batch answer xs = (w.events answer xs).flush := by
    show (if (w.events answer xs).failed = true then _ else _) = _
    rw [if_neg (by rw [h1.follows.ok]; exact Bool.false_ne_true)]
  rw [this]
  exact ⟨h1.flush O, flush_pending O h1.follows⟩

theorem Good.initial (answer : Nat → Nat) : Good O answer {} [] := by
  refine ⟨⟨rfl, rfl, rfl, List.nodup_nil, (fun b hb => nomatch hb)⟩, fun id => O.one_mul _, fun _ => ?_⟩
  refine ⟨?_, List.nodup_nil, (fun b hb => nomatch hb), (fun id hid => absurd rfl hid), ?_⟩
  · rintro id (h | h) <;> cases h
  · intro a r c e; cases a <;> cases e

theorem Good.run (answer : Nat → Nat) (hneed : O.needs → Distinct answer) (bs : List (List (String × Event)))
    (hd : Describable bs.flatten) :
    Good O answer (Worker.run answer bs) bs.flatten ∧ ∀ id, O.pending id (Worker.run answer bs).bulks = O.one := by
  have : ∀ (w : Worker) (es : List (String × Event)), Good O answer w es → (∀ id, O.pending id w.bulks = O.one) →
      Good O answer (bs.foldl (Worker.batch answer) w) (es ++ bs.flatten)
        ∧ ∀ id, O.pending id (bs.foldl (Worker.batch answer) w).bulks = O.one := by
    induction bs with
    | nil => intro w es h hp; rw [List.flatten_nil, List.append_nil]; exact ⟨h, hp⟩
    | cons b bs ih =>
      intro w es h _
      rw [List.flatten_cons] at hd
      have h1 := h.batch O hneed b (fun s d hm => hd s d (List.mem_append_left _ hm))
      have := ih (fun s d hm => hd s d (List.mem_append_right _ hm)) _ _ h1.1 h1.2
      rw [List.flatten_cons, ← List.append_assoc]
      exact this
  exact this {} [] (Good.initial O answer) (fun _ => rfl)

/-- What has been sent after whole batches. -/
theorem sent_run (answer : Nat → Nat) (hneed : O.needs → Distinct answer) (bs : List (List (String × Event)))
    (hd : Describable bs.flatten) (id : Nat) :
    O.total O.ofDto (updates id (Worker.run answer bs).sent) = O.total O.ofEvent (eventsOf id (assigned answer {} bs.flatten)) := by
  obtain ⟨h, hp⟩ := Good.run O answer hneed bs hd
  rw [← h.balanced id, hp id, O.mul_one]

/-- What has been sent when the worker aborts. -/
theorem sent_aborted (answer : Nat → Nat) (hneed : O.needs → Distinct answer) (bs : List (List (String × Event)))
    (es : List (String × Event)) (hd : Describable (bs.flatten ++ es)) (id : Nat) :
    ∃ rest, O.mul (O.total O.ofDto (updates id (Worker.aborted answer bs es).sent)) rest
      = O.total O.ofEvent (eventsOf id (assigned answer {} (bs.flatten ++ es))) := by
  obtain ⟨h, _⟩ := Good.run O answer hneed bs (fun s d hm => hd s d (List.mem_append_left _ hm))
  exact ⟨_, (h.events O hneed es (fun s d hm => hd s d (List.mem_append_right _ hm))).balanced id⟩

/-! ## The observations -/

/-- Observations that are lists. -/
def listObs {β : Type} (ofEvent : Event → List β) (ofBulk : Bulk → List β) (ofDto : Dto → List β) (needs : Prop)
    (fresh : ofBulk {} = [])
    (add : ∀ b e, (needs → ∀ t, e = .stop t → b.stopped = none) → ofBulk (b.add e) = ofBulk b ++ ofEvent e)
    (dto : ∀ b d, b.dto = some d → ofDto d = ofBulk b) : Obs (List β) :=
  { mul := (· ++ ·), one := [], assoc := List.append_assoc, one_mul := List.nil_append, mul_one := List.append_nil,
    ofEvent, ofBulk, ofDto, fresh, needs, add, dto }

theorem total_list {α β : Type} (f : α → List β) (l : List α) : l.foldr (fun x m => f x ++ m) [] = l.flatMap f := by
  induction l with
  | nil => rfl
  | cons x l ih => rw [List.foldr_cons, ih, List.flatMap_cons]

theorem flatMap_toList {α β : Type} (f : α → Option β) (l : List α) : l.flatMap (fun x => (f x).toList) = l.filterMap f := by
  induction l with
  | nil => rfl
  | cons x l ih =>
    rw [List.flatMap_cons, List.filterMap_cons, ih]
    cases f x <;> rfl

def systemObs : Obs (List ParticipantState) :=
  listObs (fun e => (match e with | .system s => some s | _ => none : Option _).toList) (·.systemStates) (·.system) False rfl
    (fun b e _ => by cases e <;> first | rfl | exact (List.append_nil _).symm) (fun b d h => (dto_facts b d h).2.1)

def stateObs (p : String) : Obs (List ParticipantState) :=
  listObs (fun e => (match e with | .status q s => if q = p then some s else none | _ => none : Option _).toList)
    (fun b => (b.statuses.filter (·.1 = p)).map (·.2)) (fun d => (about p d).flatMap (·.statuses)) False rfl
    (fun b e hx => by
      clear hx
      cases e <;> try exact (List.append_nil _).symm
      rename_i q s
      show ((b.statuses ++ [(q, s)]).filter (·.1 = p)).map (·.2) = _ ++ (if q = p then some s else none).toList
      by_cases h : q = p <;> simp [h]) (fun b d h => (dto_facts b d h).2.2.2.1 p)

def serviceObs (p : String) : Obs (List Entry) :=
  listObs (fun e => entriesOf (match e with | .service d => if d.participant = p then some d else none | _ => none : Option _).toList)
    (fun b => entriesOf (b.services.filter (·.participant = p))) (fun d => (about p d).flatMap (·.entries)) False rfl
    (fun b e hx => by
      clear hx
      cases e <;> try exact (List.append_nil _).symm
      rename_i d
      show entriesOf ((b.services ++ [d]).filter (·.participant = p)) = _ ++ entriesOf (if d.participant = p then some d else none).toList
      by_cases h : d.participant = p <;> simp [h, entriesOf]) (fun b d h => (dto_facts b d h).2.2.2.2.1 p)

def stopObs : Obs (List Nat) :=
  listObs (fun e => (match e with | .stop t => some t | _ => none : Option _).toList) (·.stopped.toList) (·.stopped.toList) True rfl
    (fun b e h => by
      cases e <;> try exact (List.append_nil _).symm
      rename_i t
      show [t] = b.stopped.toList ++ [t]
      rw [h trivial t rfl]; rfl) (fun b d h => by rw [(dto_facts b d h).1])

/-- Whether a participant is named. -/
def namedObs (p : String) : Obs Prop :=
  { mul := (· ∨ ·), one := False, assoc := fun _ _ _ => propext or_assoc, one_mul := fun _ => propext (false_or _ ▸ Iff.rfl),
    mul_one := fun _ => propext (or_false _ ▸ Iff.rfl),
    ofEvent := Names p, ofBulk := fun b => p ∈ b.connected ∨ p ∈ b.statuses.map (·.1) ∨ p ∈ b.services.map (·.participant),
    ofDto := fun d => p ∈ d.participants.map (·.name),
    fresh := by simp, needs := False,
    add := fun b e _ => by
      cases e <;> simp only [Bulk.add, Names, or_false, List.map_append, List.mem_append, List.map_cons, List.map_nil, List.mem_singleton]
      · exact propext ⟨fun h => by rcases h with (h | h) | h | h <;> simp [h], fun h => by rcases h with (h | h | h) | h <;> simp [h]⟩
      · exact propext ⟨fun h => by rcases h with h | (h | h) | h <;> simp [h], fun h => by rcases h with (h | h | h) | h <;> simp [h]⟩
      · exact propext ⟨fun h => by rcases h with h | h | h | h <;> simp [h], fun h => by rcases h with (h | h | h) | h <;> simp [h]⟩
    dto := fun b d h => propext ((dto_facts b d h).2.2.2.2.2 p) }

theorem total_prop {α : Type} (f : α → Prop) (l : List α) : l.foldr (fun x m => f x ∨ m) False ↔ ∃ x ∈ l, f x := by
  induction l with
  | nil => simp
  | cons x l ih => rw [List.foldr_cons, ih]; simp

theorem total_system (es : List Event) : systemObs.total systemObs.ofEvent es = systemEvents es :=
  (total_list _ es).trans (flatMap_toList _ es)
theorem total_state (p : String) (es : List Event) : (stateObs p).total (stateObs p).ofEvent es = stateEvents p es :=
  (total_list _ es).trans (flatMap_toList _ es)
theorem total_stop (es : List Event) : stopObs.total stopObs.ofEvent es = stopEvents es :=
  (total_list _ es).trans (flatMap_toList _ es)
theorem total_service (p : String) (es : List Event) : (serviceObs p).total (serviceObs p).ofEvent es = entriesOf (serviceEvents p es) := by
  refine (total_list _ es).trans ?_
  unfold serviceEvents
  induction es with
  | nil => rfl
  | cons e es ih =>
    rw [List.flatMap_cons, ih, List.filterMap_cons]
    cases e <;> try rfl
    rename_i d
    by_cases h : d.participant = p
    · simp [serviceObs, listObs, h, entriesOf]
    · simp [serviceObs, listObs, h, entriesOf]

end SilKit.Dashboard
