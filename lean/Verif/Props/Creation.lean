import Verif.Lemmas.Creation
/-!
# C59: creating participants and services

A service gets the settings of the configuration where there are any, and those passed by the user otherwise; names are unique per kind,
identifiers per participant; every service is announced once; a creation that fails leaves nothing behind.
-/
namespace SilKit.Props
open SilKit SilKit.Creation SilKit.Creation.Spec SilKit.Labels

/-- A configuration for the examples: publisher `P` is moved to topic `T2`, with history; `C` has a replay from a source that is
missing. -/
def creationCfg : Creation.Config :=
  { entries := fun k => match k with
      | .publisher => [{ name := "P", address := some "T2", history := some 1, traceSinks := ["S", "?"] }]
      | .can => [{ name := "C", replay := some "missing" }]
      | _ => []
    sinks := ["S"], sources := ["file"] }

def creationP : Creation.Request := { kind := .publisher, name := "P", address := "T1", mediaType := "m", labels := [⟨"k", "v", .optional⟩] }

/-! ## Settings -/

/-- **C59.** A creation that succeeds adds one service, with the name and kind of the request and a new identifier; its network, topic or
function name and the history of a publisher are the configured values, or those of the request where nothing is configured; the media
type is that of the request. -/
theorem C59_settings {s : Creation.State} {r : Creation.Request} {sorted : List Label} (h : (s.create r sorted).2 = none) :
    ∃ v, (s.create r sorted).1.services = s.services ++ [v] ∧ (s.create r sorted).1.announced = s.announced ++ [v] ∧
      v.name = r.name ∧ v.kind = r.kind ∧ v.id = s.nextId ∧
      InEffect (s.config.entries r.kind) r.name Entry.address r.address v.address ∧
      (r.kind = .publisher → InEffect (s.config.entries r.kind) r.name Entry.history r.history v.history) ∧
      (r.kind.hasLabels = true → v.mediaType = r.mediaType) ∧
      (r.kind = .can ∨ r.kind = .ethernet ∨ r.kind = .flexray ∨ r.kind = .lin → v.network = .named v.address) := by
  obtain ⟨h0, ha, _⟩ := create_eq s r sorted
  rw [h0] at h
  obtain ⟨h1, h2, _⟩ := ha (Or.inl h)
  refine ⟨product s r sorted, h1, h2, rfl, rfl, rfl, inEffect_merge _ _ _ _ rfl, fun hk => ?_, fun hk => if_pos hk, ?_⟩
  · have : (product s r sorted).history = (merge (findEntry (s.config.entries r.kind) r.name).history r.history).1 := by
      unfold product settings
      simp only [hk, if_true]
    rw [this]
    exact inEffect_merge _ _ _ _ rfl
  · intro hk
    unfold product Creation.network
    rcases hk with hk | hk | hk | hk <;> simp only [hk]

/-- **C59.** The labels of the service are the configured ones, or those of the request, if no key occurs twice; the order in which the
code sorts them makes no difference. -/
theorem C59_labels {s : Creation.State} {r : Creation.Request} {sorted : List Label} (h : (s.create r sorted).2 = none)
    (_hk : r.kind.hasLabels = true) (hd : DistinctKeys (labelsOf (s.config.entries r.kind) r))
    (hs : SortedLabels (labelsOf (s.config.entries r.kind) r) sorted) :
    ∃ v, (s.create r sorted).1.services = s.services ++ [v] ∧ v.labels.Perm (labelsOf (s.config.entries r.kind) r) := by
  obtain ⟨h0, ha, _⟩ := create_eq s r sorted
  rw [h0] at h
  obtain ⟨h1, _⟩ := ha (Or.inl h)
  refine ⟨product s r sorted, h1, ?_⟩
  have : (product s r sorted).labels = sorted := by
    have hd' : DistinctKeys ([] ++ sorted) := (hs.1.map Label.key).nodup_iff.mpr hd
    exact fold_addLabel hd'
  rw [this]; exact hs.1

/-- Publisher `P` is created on topic `T2`, with history, and a mismatch is logged twice (topic and history). -/
example : (({ config := creationCfg } : Creation.State).create creationP creationP.labels).2 = none ∧
    (({ config := creationCfg } : Creation.State).create creationP creationP.labels).1.services.map (fun v => (v.address, v.mediaType, v.history, v.traceSinks)) =
      [("T2", "m", 1, ["S"])] ∧ (({ config := creationCfg } : Creation.State).create creationP creationP.labels).1.mismatches = 2 := by
  decide +kernel

example : creationP.kind.hasLabels = true ∧ DistinctKeys (labelsOf (creationCfg.entries creationP.kind) creationP) ∧
    SortedLabels (labelsOf (creationCfg.entries creationP.kind) creationP) creationP.labels := by
  refine ⟨rfl, by unfold DistinctKeys; decide +kernel, ?_⟩
  have : labelsOf (creationCfg.entries creationP.kind) creationP = creationP.labels := by decide +kernel
  rw [this]
  exact ⟨List.Perm.refl _, List.pairwise_singleton _ _⟩

/-- **C59.** Trace sinks: those of the entry that exist, nothing else. -/
theorem C59_trace_sinks {s : Creation.State} {r : Creation.Request} {sorted : List Label} (h : (s.create r sorted).2 = none) (hk : r.kind.traces = true)
    {e : Entry} (he : Configured (s.config.entries r.kind) r.name e) :
    ∃ v, (s.create r sorted).1.services = s.services ++ [v] ∧ ∀ n, n ∈ v.traceSinks ↔ n ∈ e.traceSinks ∧ n ∈ s.config.sinks := by
  obtain ⟨h0, ha, _⟩ := create_eq s r sorted
  rw [h0] at h
  obtain ⟨h1, _⟩ := ha (Or.inl h)
  refine ⟨product s r sorted, h1, fun n => ?_⟩
  have : (product s r sorted).traceSinks = e.traceSinks.filter (fun n => s.config.sinks.contains n) := by
    unfold product usedSinks findEntry
    simp only [hk, if_true, configured_iff.mp he, Option.getD_some]
  rw [this, List.mem_filter, List.contains_iff_mem]

/-! ## Acceptance -/

/-- **C59.** A creation succeeds exactly if the name is not empty, there is no service of this kind with this name, the history of a
publisher is at most 1 (the passed one and the one in effect), and a configured replay has its source. -/
theorem C59_accepted_iff (s : Creation.State) (r : Creation.Request) (sorted : List Label) :
    (s.create r sorted).2 = none ↔ r.name ≠ "" ∧ (∀ x ∈ s.services, ¬ (x.kind = r.kind ∧ x.name = r.name)) ∧
      (r.kind = .publisher → r.history ≤ 1 ∧ ∀ n, InEffect (s.config.entries r.kind) r.name Entry.history r.history n → n ≤ 1) ∧
      ¬ ((r.kind = .can ∨ r.kind = .ethernet ∨ r.kind = .lin ∨ r.kind = .publisher) ∧ s.config.sources ≠ [] ∧
        ∃ e src, Configured (s.config.entries r.kind) r.name e ∧ e.replay = some src ∧ src ∉ s.config.sources) := by
  rw [accepted_iff, ← replayFails_iff, Bool.not_eq_true]
  have hi := inEffect_merge (f := Entry.history) (s.config.entries r.kind) r.name r.history rfl
  rw [merge_fst] at hi
  constructor
  · rintro ⟨h1, h2, h3, h4⟩
    exact ⟨h1, h2, fun hk => ⟨(h3 hk).1, fun n hn => inEffect_unique hi hn ▸ (h3 hk).2⟩, h4⟩
  · rintro ⟨h1, h2, h3, h4⟩
    exact ⟨h1, h2, fun hk => ⟨(h3 hk).1, (h3 hk).2 _ hi⟩, h4⟩

/-- **C59.** A mismatch is reported for the address exactly if the configured one differs from the passed one (here for bus controllers,
which have nothing else to merge). -/
theorem C59_mismatch_reported (s : Creation.State) (r : Creation.Request) (sorted : List Label) (hk : r.kind.hasLabels = false) :
    ((s.create r sorted).1.mismatches = s.mismatches + 1 ↔
      ∃ e v, Configured (s.config.entries r.kind) r.name e ∧ e.address = some v ∧ v ≠ r.address) ∧
    ((s.create r sorted).1.mismatches = s.mismatches ∨ (s.create r sorted).1.mismatches = s.mismatches + 1) := by
  have hp : r.kind ≠ .publisher := by intro h; rw [h] at hk; cases hk
  have hm : (s.create r sorted).1.mismatches =
      s.mismatches + (merge (findEntry (s.config.entries r.kind) r.name).address r.address).2.toNat := by
    have : (settings (findEntry (s.config.entries r.kind) r.name) r).mismatches =
        (merge (findEntry (s.config.entries r.kind) r.name).address r.address).2.toNat := by
      simp [settings, hk, hp]
    rw [← this]
    unfold State.create
    rw [if_neg (fun h => hp h.1)]
    simp only []
    rw [if_neg (fun h => hp h.1)]
    split
    · rfl
    · split
      · rfl
      · split <;> rfl
  rw [hm, ← mismatch_iff (f := Entry.address) rfl]
  cases (merge (findEntry (s.config.entries r.kind) r.name).address r.address).2 <;> simp

example : (({ config := { entries := fun _ => [{ name := "C", address := some "n2" }] } } : Creation.State).create
    { kind := .can, name := "C", address := "n1" } []).1.mismatches = 1 := by decide +kernel

/-- **C59.** A creation that fails, other than by a missing trace source, leaves no service, announcement, history or identifier behind. -/
theorem C59_failure_leaves_nothing_partial {s : Creation.State} {r : Creation.Request} {sorted : List Label} {e : Creation.Error}
    (h : (s.create r sorted).2 = some e) (he : e ≠ .noSuchTraceSource) :
    (s.create r sorted).1.services = s.services ∧ (s.create r sorted).1.announced = s.announced ∧
      (s.create r sorted).1.nextId = s.nextId ∧ (s.create r sorted).1.histories = s.histories := by
  obtain ⟨h0, _, hb⟩ := create_eq s r sorted
  rw [h0] at h
  have := hb (by rw [h]; rintro (hx | hx) <;> cases hx; exact he rfl)
  exact ⟨this.1, this.2.1, this.2.2.1, this.2.2.2.2.2⟩

example : (({ config := creationCfg } : Creation.State).create { creationP with history := 2 } []).2 = some .historyTooLong := by decide +kernel

/-! ## Histories -/

/-- **C59.** In every history of a participant: identifiers are different and grow, no two services of a kind share a name, every service
has been announced once and in order, publishers and clients have networks of their own, and the history in effect of a publisher has
been set on its link. -/
theorem C59_histories (c : Creation.Config) (ops : List Creation.Op) :
    let s := Creation.State.run { config := c } ops
    s.services.Pairwise (fun a b => a.id < b.id) ∧ s.services.Pairwise (fun a b => ¬ (a.kind = b.kind ∧ a.name = b.name)) ∧
      s.announced = s.services ∧ s.services.Pairwise (fun a b => ∀ n, a.network = .unique n → b.network ≠ .unique n) ∧
      (∀ v ∈ s.services, v.kind = .publisher → v.history ≤ 1 ∧ (v.id, v.history) ∈ s.histories) := by
  have h := inv_run (inv_init c) ops
  exact ⟨h.ids, h.names, h.announced, h.networks, h.histories⟩

/-- **C59.** Services are never replaced or changed by later creations. -/
theorem C59_services_stay (s : Creation.State) (ops : List Creation.Op) : s.services <+: (s.run ops).services := prefix_run s ops

/-- A history with two services of different kind and the same name, and a rejected one. -/
example : (Creation.State.run { config := creationCfg } [.create creationP creationP.labels, .internal,
    .create { creationP with kind := .subscriber } creationP.labels, .create creationP creationP.labels]).services.map (fun v => (v.id, v.name)) =
    [(0, "P"), (2, "P")] := by decide +kernel

/-! ## Participants -/

/-- **C59.** Name and registry of a participant: an empty name is rejected, exactly; otherwise the configured values count if they are
not empty. -/
theorem C59_participant (config : Option Identity) (name uri : String) :
    (sanitize config name uri = none ↔ name = "") ∧
    ∀ i n, sanitize config name uri = some (i, n) →
      i.name ≠ "" ∧ i.registryUri ≠ "" ∧
      (∀ c, config = some c → c.name ≠ "" → i.name = c.name) ∧ (config = none ∨ (config.getD {}).name = "" → i.name = name) ∧
      (∀ c, config = some c → c.registryUri ≠ "" → i.registryUri = c.registryUri) ∧
      (config = none ∨ (config.getD {}).registryUri = "" → uri ≠ "" → i.registryUri = uri) := by
  unfold sanitize
  simp only []
  by_cases hn : name = ""
  · simp [hn]
  · rw [if_neg hn]
    refine ⟨by simp [hn], ?_⟩
    intro i n h
    cases h
    refine ⟨?_, ?_, ?_, ?_, ?_, ?_⟩
    · simp only []; split <;> assumption
    · simp only []
      split
      · split
        · decide
        · assumption
      · assumption
    · rintro c rfl hc; exact if_neg hc
    · rintro (rfl | hc)
      · rfl
      · exact if_pos hc
    · rintro c rfl hc; exact if_neg hc
    · intro hc hu
      have hc' : (config.getD {}).registryUri = "" := by rcases hc with rfl | hc; exact rfl; exact hc
      simp only [hc', if_true, if_neg hu]

example : sanitize (some { name := "A" }) "B" "silkit://h:1" = some ({ name := "A", registryUri := "silkit://h:1" }, 1) := by decide +kernel

/-! ## Services that exist once -/

/-- **C59.** Calls that do not overlap: exactly the first one gets the lifecycle service (or system monitor), all others fail. -/
theorem C59_once (t : Nat) (ts : List Nat) :
    ((t :: ts).foldl Guard.call {}).succeeded = [t] ∧ ((t :: ts).foldl Guard.call {}).failed = ts := by
  have key : ∀ (ts : List Nat) (g : Guard), g.created = true → g.inside = [] →
      (ts.foldl Guard.call g).succeeded = g.succeeded ∧ (ts.foldl Guard.call g).failed = g.failed ++ ts := by
    intro ts
    induction ts with
    | nil => intro g _ _; simp
    | cons x xs ih =>
      intro g hc hi
      have hx : g.call x = { g with failed := g.failed ++ [x] } := by
        simp [Guard.call, Guard.step, hc, hi]
      rw [List.foldl_cons, hx]
      have := ih { g with failed := g.failed ++ [x] } hc hi
      simpa using this
  rw [List.foldl_cons]
  have := key ts (Guard.call {} t) (by simp [Guard.call, Guard.step]) (by simp [Guard.call, Guard.step])
  simpa [Guard.call, Guard.step] using this

/-! ## Deviations -/

/-- **C59, deviation.** If the replay of a service refers to a trace source that does not exist, the creation fails but the service is
there and has been announced; the same creation never succeeds again. -/
theorem C59_failed_creation_remains (s : Creation.State) (r : Creation.Request) (sorted : List Label) (h : (s.create r sorted).2 = some .noSuchTraceSource) :
    ∃ v, (s.create r sorted).1.services = s.services ++ [v] ∧ (s.create r sorted).1.announced = s.announced ++ [v] ∧ v.name = r.name ∧
      ∀ ops r' sorted', r'.kind = r.kind → r'.name = r.name → (((s.create r sorted).1.run ops).create r' sorted').2 ≠ none := by
  obtain ⟨h0, ha, _⟩ := create_eq s r sorted
  rw [h0] at h
  obtain ⟨h1, h2, _⟩ := ha (Or.inr h)
  refine ⟨product s r sorted, h1, h2, rfl, fun ops r' sorted' hk hn hx => ?_⟩
  rw [C59_accepted_iff] at hx
  have hp := prefix_run (s.create r sorted).1 ops
  rw [h1] at hp
  exact hx.2.1 (product s r sorted) (hp.subset (by simp)) ⟨hk.symm, hn.symm⟩

example : (({ config := creationCfg } : Creation.State).create { kind := .can, name := "C", address := "n" } []).2 = some .noSuchTraceSource := by
  decide +kernel

/-- **C59, deviation.** A publisher is rejected because of the history passed by the user even if the configuration sets it. -/
theorem C59_passed_history_counts : ∃ (s : Creation.State) (r : Creation.Request) (e : Entry), Configured (s.config.entries r.kind) r.name e ∧
    e.history = some 1 ∧ (s.create r []).2 = some .historyTooLong :=
  ⟨{ config := creationCfg }, { creationP with history := 2 }, _, configured_iff.mpr rfl, rfl, by decide +kernel⟩

/-- **C59, deviation.** If a key occurs twice in configured labels, which label is used depends on the implementation of `std::sort`. -/
theorem C59_duplicate_labels_ambiguous : ∃ (c : Creation.Config) (r : Creation.Request) (sorted sorted' : List Label),
    SortedLabels (labelsOf (c.entries r.kind) r) sorted ∧ SortedLabels (labelsOf (c.entries r.kind) r) sorted' ∧
    (({ config := c } : Creation.State).create r sorted).1.services ≠ (({ config := c } : Creation.State).create r sorted').1.services := by
  refine ⟨{ entries := fun _ => [{ name := "P", labels := some [⟨"k", "1", .optional⟩, ⟨"k", "2", .optional⟩] }] }, creationP,
    [⟨"k", "1", .optional⟩, ⟨"k", "2", .optional⟩], [⟨"k", "2", .optional⟩, ⟨"k", "1", .optional⟩], ⟨?_, ?_⟩, ⟨?_, ?_⟩, by decide +kernel⟩
  · exact List.Perm.refl _
  · simp
  · exact List.Perm.swap _ _ _
  · simp

/-- **C59, deviation.** Two threads may both get the lifecycle service. -/
theorem C59_once_not_atomic : (([.test 1, .test 2, .set 1, .set 2] : List GuardOp).foldl Guard.step {}).succeeded = [1, 2] := by
  decide +kernel

end SilKit.Props
