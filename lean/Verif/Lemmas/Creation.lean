import Verif.Spec.Creation
/-! # Lemmas: creating participants and services -/
namespace SilKit.Creation
open Spec SilKit.Labels

theorem configured_iff {entries : List Entry} {name : String} {e : Entry} :
    Configured entries name e ↔ entries.find? (fun x => x.name == name) = some e := by
  constructor
  · rintro ⟨b, a, rfl, h1, h2⟩
    rw [List.find?_append, List.find?_eq_none.mpr (by simpa using h2)]
    simp [h1]
  · intro h
    rw [List.find?_eq_some_iff_append] at h
    obtain ⟨h1, b, a, h2, h3⟩ := h
    exact ⟨b, a, h2, by simpa using h1, by simpa using h3⟩

theorem unconfigured_iff {entries : List Entry} {name : String} :
    Unconfigured entries name ↔ entries.find? (fun x => x.name == name) = none := by
  rw [List.find?_eq_none]
  simp [Unconfigured]

theorem findEntry_name (entries : List Entry) (name : String) : (findEntry entries name).name = name := by
  unfold findEntry
  cases h : entries.find? (fun e => e.name == name) with
  | none => rfl
  | some e => simpa using List.find?_some h

/-- The first component of `merge`. -/
theorem merge_fst {α : Type} [DecidableEq α] (o : Option α) (p : α) : (merge o p).1 = o.getD p := by cases o <;> rfl

theorem inEffect_merge {α : Type} [DecidableEq α] (entries : List Entry) (name : String) (f : Entry → Option α) (p : α)
    (hf : f { name := name } = none) : InEffect entries name f p (merge (f (findEntry entries name)) p).1 := by
  rw [merge_fst]
  refine ⟨fun e v he hv => ?_, fun e he hv => ?_, fun h => ?_⟩
  · unfold findEntry; rw [configured_iff.mp he, Option.getD_some, hv]; rfl
  · unfold findEntry; rw [configured_iff.mp he, Option.getD_some, hv]; rfl
  · unfold findEntry; rw [unconfigured_iff.mp h, Option.getD_none, hf]; rfl

theorem labelsOf_eq (entries : List Entry) (r : Request) (h : r.kind.hasLabels = true) :
    (settings (findEntry entries r.name) r).labels = labelsOf entries r := by
  unfold settings labelsOf findEntry
  simp only [h, if_true, merge_fst]
  cases entries.find? (fun e => e.name == r.name) <;> rfl

theorem addLabel_new {ls : List Label} {l : Label} (h : l.key ∉ ls.map Label.key) : addLabel ls l = ls ++ [l] := by
  induction ls with
  | nil => rfl
  | cons x xs ih =>
    rw [List.map_cons, List.mem_cons, not_or] at h
    rw [addLabel, if_neg (fun hx => h.1 hx.symm), ih h.2]; rfl

theorem fold_addLabel {ls : List Label} : ∀ {acc : List Label}, DistinctKeys (acc ++ ls) → ls.foldl addLabel acc = acc ++ ls := by
  induction ls with
  | nil => intro acc _; simp
  | cons l ls ih =>
    intro acc h
    have hn : l.key ∉ acc.map Label.key := by
      unfold DistinctKeys at h
      rw [List.map_append, List.nodup_append] at h
      intro hx
      exact h.2.2 _ hx _ (by simp) rfl
    rw [List.foldl_cons, addLabel_new hn, ih (by simpa using h)]
    simp

/-- The exception, as a decision. -/
def outcome (s : State) (r : Request) : Option Error :=
  let e := findEntry (s.config.entries r.kind) r.name
  if r.kind = .publisher ∧ 1 < r.history then some .historyTooLong
  else if r.kind = .publisher ∧ 1 < (settings e r).history then some .historyTooLong
  else if r.name = "" then some .emptyName
  else if s.services.any (fun x => x.kind == r.kind && x.name == r.name) then some .alreadyExists
  else if replayFails s.config r.kind e then some .noSuchTraceSource else none

/-- The service that a request leads to. -/
def product (s : State) (r : Request) (sorted : List Label) : Service :=
  let e := findEntry (s.config.entries r.kind) r.name
  let c := settings e r
  { id := s.nextId, kind := r.kind, name := r.name, network := network r.kind c.address (s.nextUuid + 1), address := c.address
    mediaType := if r.kind.hasLabels then r.mediaType else "", labels := sorted.foldl addLabel [], history := c.history
    traceSinks := usedSinks s.config r.kind e }

/-- What `create` does, in one piece. -/
theorem create_eq (s : State) (r : Request) (sorted : List Label) :
    (s.create r sorted).2 = outcome s r ∧
    ((outcome s r = none ∨ outcome s r = some .noSuchTraceSource) →
      (s.create r sorted).1.services = s.services ++ [product s r sorted] ∧
      (s.create r sorted).1.announced = s.announced ++ [product s r sorted] ∧ (s.create r sorted).1.nextId = s.nextId + 1 ∧
      (s.create r sorted).1.nextUuid = s.nextUuid + 1 ∧ (s.create r sorted).1.config = s.config ∧
      (s.create r sorted).1.histories = if r.kind = .publisher then s.histories ++ [(s.nextId, (product s r sorted).history)] else s.histories) ∧
    (¬ (outcome s r = none ∨ outcome s r = some .noSuchTraceSource) →
      (s.create r sorted).1.services = s.services ∧ (s.create r sorted).1.announced = s.announced ∧
      (s.create r sorted).1.nextId = s.nextId ∧ s.nextUuid ≤ (s.create r sorted).1.nextUuid ∧ (s.create r sorted).1.config = s.config ∧
      (s.create r sorted).1.histories = s.histories) := by
  unfold State.create outcome
  simp only [findEntry_name]
  by_cases h1 : r.kind = .publisher ∧ 1 < r.history
  · simp only [if_pos h1]; simp
  rw [if_neg h1, if_neg h1]
  by_cases h2 : r.kind = .publisher ∧ 1 < (settings (findEntry (s.config.entries r.kind) r.name) r).history
  · simp only [if_pos h2]; simp
  rw [if_neg h2, if_neg h2]
  by_cases h3 : r.name = ""
  · simp only [if_pos h3]; simp
  rw [if_neg h3, if_neg h3]
  by_cases h4 : s.services.any (fun x => x.kind == r.kind && x.name == r.name) = true
  · simp only [if_pos h4]; simp
  rw [if_neg h4, if_neg h4]
  by_cases h5 : replayFails s.config r.kind (findEntry (s.config.entries r.kind) r.name) = true
  · simp only [if_pos h5]; simp [product]
  · simp only [if_neg h5]; simp [product]

/-- The invariant of histories. -/
structure Inv (s : State) : Prop where
  ids : s.services.Pairwise (fun a b => a.id < b.id)
  below : ∀ v ∈ s.services, v.id < s.nextId
  names : s.services.Pairwise (fun a b => ¬ (a.kind = b.kind ∧ a.name = b.name))
  announced : s.announced = s.services
  uuids : ∀ v ∈ s.services, ∀ n, v.network = .unique n → n ≤ s.nextUuid
  networks : s.services.Pairwise (fun a b => ∀ n, a.network = .unique n → b.network ≠ .unique n)
  histories : ∀ v ∈ s.services, v.kind = .publisher → v.history ≤ 1 ∧ (v.id, v.history) ∈ s.histories

theorem outcome_free {s : State} {r : Request} (h : outcome s r = none ∨ outcome s r = some .noSuchTraceSource) :
    ¬ (r.kind = .publisher ∧ 1 < (settings (findEntry (s.config.entries r.kind) r.name) r).history) ∧
    r.name ≠ "" ∧ ∀ x ∈ s.services, ¬ (x.kind = r.kind ∧ x.name = r.name) := by
  unfold outcome at h
  simp only [] at h
  split at h
  · simp at h
  split at h
  · simp at h
  next h2 =>
  split at h
  · simp at h
  next h3 =>
  split at h
  · simp at h
  next h4 =>
  refine ⟨h2, h3, fun x hx hh => h4 ?_⟩
  rw [List.any_eq_true]
  exact ⟨x, hx, by simp [hh.1, hh.2]⟩

theorem inv_create {s : State} (h : Inv s) (r : Request) (sorted : List Label) : Inv (s.create r sorted).1 := by
  obtain ⟨_, ha, hb⟩ := create_eq s r sorted
  by_cases ho : outcome s r = none ∨ outcome s r = some .noSuchTraceSource
  · obtain ⟨h1, h2, h3, h4, h5, h6⟩ := ha ho
    obtain ⟨g1, g2, g3⟩ := outcome_free ho
    refine ⟨?_, ?_, ?_, ?_, ?_, ?_, ?_⟩
    · rw [h1, List.pairwise_append]
      exact ⟨h.ids, List.pairwise_singleton _ _, fun a ha b hb => by rw [List.mem_singleton.mp hb]; exact h.below a ha⟩
    · rw [h1, h3]
      intro v hv
      rcases List.mem_append.mp hv with hv | hv
      · exact Nat.lt_succ_of_lt (h.below v hv)
      · rw [List.mem_singleton.mp hv]; exact Nat.lt_succ_self _
    · rw [h1, List.pairwise_append]
      exact ⟨h.names, List.pairwise_singleton _ _, fun a ha b hb => by rw [List.mem_singleton.mp hb]; exact g3 a ha⟩
    · rw [h1, h2, h.announced]
    · rw [h1, h4]
      intro v hv n hn
      rcases List.mem_append.mp hv with hv | hv
      · exact Nat.le_succ_of_le (h.uuids v hv n hn)
      · rw [List.mem_singleton.mp hv] at hn
        unfold product network at hn
        simp only [] at hn
        split at hn <;> simp at hn <;> omega
    · rw [h1, List.pairwise_append]
      refine ⟨h.networks, List.pairwise_singleton _ _, fun a ha b hb n hn => ?_⟩
      rw [List.mem_singleton.mp hb]
      have := h.uuids a ha n hn
      unfold product network
      simp only []
      split <;> simp <;> omega
    · rw [h1, h6]
      intro v hv hk
      rcases List.mem_append.mp hv with hv | hv
      · refine ⟨(h.histories v hv hk).1, ?_⟩
        split
        · exact List.mem_append_left _ (h.histories v hv hk).2
        · exact (h.histories v hv hk).2
      · rw [List.mem_singleton.mp hv] at hk ⊢
        have hk' : r.kind = .publisher := hk
        rw [if_pos hk']
        refine ⟨?_, List.mem_append_right _ (List.mem_singleton.mpr rfl)⟩
        exact Nat.not_lt.mp (fun hh => g1 ⟨hk', hh⟩)
  · obtain ⟨h1, h2, h3, h4, h5, h6⟩ := hb ho
    refine ⟨?_, ?_, ?_, ?_, ?_, ?_, ?_⟩
    · rw [h1]; exact h.ids
    · rw [h1, h3]; exact h.below
    · rw [h1]; exact h.names
    · rw [h1, h2]; exact h.announced
    · rw [h1]; exact fun v hv n hn => Nat.le_trans (h.uuids v hv n hn) h4
    · rw [h1]; exact h.networks
    · rw [h1, h6]; exact h.histories

theorem inv_run {s : State} (h : Inv s) (ops : List Op) : Inv (s.run ops) := by
  induction ops generalizing s with
  | nil => exact h
  | cons o ops ih =>
    apply ih
    cases o with
    | create r sorted => exact inv_create h r sorted
    | internal =>
      exact ⟨h.ids, fun v hv => Nat.lt_succ_of_lt (h.below v hv), h.names, h.announced, h.uuids, h.networks, h.histories⟩

theorem inv_init (c : Config) : Inv { config := c } :=
  ⟨List.Pairwise.nil, nofun, List.Pairwise.nil, rfl, nofun, List.Pairwise.nil, nofun⟩

theorem prefix_run (s : State) (ops : List Op) : s.services <+: (s.run ops).services := by
  induction ops generalizing s with
  | nil => exact List.prefix_refl _
  | cons o ops ih =>
    refine List.IsPrefix.trans ?_ (ih (s.step o).1)
    cases o with
    | create r sorted =>
      show s.services <+: (s.create r sorted).1.services
      obtain ⟨_, ha, hb⟩ := create_eq s r sorted
      by_cases ho : outcome s r = none ∨ outcome s r = some .noSuchTraceSource
      · rw [(ha ho).1]; exact List.prefix_append _ _
      · rw [(hb ho).1]; exact List.prefix_refl _
    | internal => exact List.prefix_refl _

/-- When a creation succeeds, in terms of the model. -/
theorem accepted_iff (s : State) (r : Request) (sorted : List Label) :
    (s.create r sorted).2 = none ↔ r.name ≠ "" ∧ (∀ x ∈ s.services, ¬ (x.kind = r.kind ∧ x.name = r.name)) ∧
      (r.kind = .publisher → r.history ≤ 1 ∧ ((findEntry (s.config.entries r.kind) r.name).history.getD r.history) ≤ 1) ∧
      replayFails s.config r.kind (findEntry (s.config.entries r.kind) r.name) = false := by
  rw [(create_eq s r sorted).1]
  constructor
  · intro h
    obtain ⟨g1, g2, g3⟩ := outcome_free (Or.inl h)
    refine ⟨g2, g3, fun hk => ⟨?_, ?_⟩, ?_⟩
    · unfold outcome at h
      refine Nat.not_lt.mp fun hh => ?_
      rw [if_pos ⟨hk, hh⟩] at h; cases h
    · refine Nat.not_lt.mp fun hh => g1 ⟨hk, ?_⟩
      unfold settings
      simpa [hk, merge_fst] using hh
    · cases hf : replayFails s.config r.kind (findEntry (s.config.entries r.kind) r.name) with
      | false => rfl
      | true =>
        unfold outcome at h
        simp only [hf] at h
        rw [if_neg, if_neg g1, if_neg g2, if_neg] at h
        · simp at h
        · rw [List.any_eq_true]
          rintro ⟨x, hx, hxx⟩
          exact g3 x hx (by simpa using hxx)
        · intro hh
          rw [if_pos hh] at h; cases h
  · rintro ⟨h1, h2, h3, h4⟩
    unfold outcome
    simp only []
    rw [if_neg (fun hh => absurd (h3 hh.1).1 (Nat.not_le.mpr hh.2)), if_neg, if_neg h1, if_neg, h4]
    · rfl
    · rw [List.any_eq_true]
      rintro ⟨x, hx, hxx⟩
      exact h2 x hx (by simpa using hxx)
    · rintro ⟨hk, hh⟩
      have := (h3 hk).2
      unfold settings at hh
      simp only [hk, if_true, merge_fst] at hh
      rw [hk] at this
      omega

/-- There is only one value in effect. -/
theorem inEffect_unique {α : Type} {entries : List Entry} {name : String} {f : Entry → Option α} {p v w : α}
    (hv : Spec.InEffect entries name f p v) (hw : Spec.InEffect entries name f p w) : v = w := by
  cases h : entries.find? (fun e => e.name == name) with
  | none =>
    have hu : Spec.Unconfigured entries name := unconfigured_iff.mpr h
    rw [hv.2.2 hu, hw.2.2 hu]
  | some e =>
    have he : Spec.Configured entries name e := configured_iff.mpr h
    cases hf : f e with
    | none => rw [hv.2.1 e he hf, hw.2.1 e he hf]
    | some x => rw [hv.1 e x he hf, hw.1 e x he hf]

theorem replayFails_iff (c : Config) (k : Kind) (name : String) :
    replayFails c k (findEntry (c.entries k) name) = true ↔ (k = .can ∨ k = .ethernet ∨ k = .lin ∨ k = .publisher) ∧ c.sources ≠ [] ∧
      ∃ e src, Spec.Configured (c.entries k) name e ∧ e.replay = some src ∧ src ∉ c.sources := by
  unfold replayFails findEntry
  rw [Bool.and_eq_true, Bool.and_eq_true, and_assoc]
  refine and_congr (by cases k <;> simp [Kind.replays]) (and_congr (by cases c.sources <;> simp) ?_)
  cases h : (c.entries k).find? (fun e => e.name == name) with
  | none =>
    constructor
    · intro hx; cases hx
    · rintro ⟨e, src, he, _⟩
      rw [configured_iff.mp he] at h; cases h
  | some e =>
    constructor
    · intro hx
      cases hr : e.replay with
      | none => simp [hr] at hx
      | some src => exact ⟨e, src, configured_iff.mpr h, hr, by simpa [hr] using hx⟩
    · rintro ⟨e', src, he, hr, hn⟩
      rw [configured_iff.mp he] at h; cases h
      simpa [hr] using hn

theorem mismatch_iff {α : Type} [DecidableEq α] {entries : List Entry} {name : String} {f : Entry → Option α} {p : α} (hf : f { name } = none) :
    (merge (f (findEntry entries name)) p).2 = true ↔ ∃ e v, Spec.Configured entries name e ∧ f e = some v ∧ v ≠ p := by
  unfold findEntry
  cases h : entries.find? (fun e => e.name == name) with
  | none =>
    rw [Option.getD_none, hf]
    constructor
    · intro hx; cases hx
    · rintro ⟨e, src, he, _⟩
      rw [configured_iff.mp he] at h; cases h
  | some e =>
    rw [Option.getD_some]
    constructor
    · intro hx
      cases hr : f e with
      | none => simp [hr, merge] at hx
      | some v => exact ⟨e, v, configured_iff.mpr h, hr, by simpa [hr, merge] using hx⟩
    · rintro ⟨e', v, he, hr, hn⟩
      rw [configured_iff.mp he] at h; cases h
      simpa [hr, merge] using hn

end SilKit.Creation
