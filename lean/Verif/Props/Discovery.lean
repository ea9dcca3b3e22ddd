import Verif.Lemmas.PubSubMatching
/-!
# C10 – service discovery notifies exactly the services that match
-/
namespace SilKit.Props
open Labels Discovery Spec

/-- **C10 (subscriber's view), partial.** In every history of publishers appearing and disappearing and subscribers being
created, in any order: a subscriber is connected exactly once to exactly the publishers alive on its topic whose media type and labels
match. Missing: pairs where one side has an *optional* label whose key the other side (which has other labels) lacks; for
those the claim is false, see `C10_optional_label_match_is_missed`. -/
theorem C10_subscriber_connections_exact_partial (h : List PubSubEvent) (hw : PubSubHistory h) (topic media : String) (i : Info)
    (hsub : PubSubEvent.subscribe topic media i ∈ h)
    (hidx : ∀ s, PubSubEvent.publish s ∈ h → s.key = topic → matchLabels i.labels s.labels = true →
      Indexable i.labels s.labels) :
    ∃ sub, (worldAfter h).subs i.handler = some sub ∧
      sub.connected.Nodup ∧ ∀ u, u ∈ sub.connected ↔ ∃ s ∈ publishers topic h, s.id = u ∧ matchMediaType media s.mediaType = true ∧
        matchLabels i.labels s.labels = true := by
  obtain ⟨sub, h1, _, h3⟩ := connections_exact hw hsub hidx
  exact ⟨sub, h1, connected_nodup h _ _ h1, h3⟩

/-- Every pair of label lists without optional labels is `Indexable`. -/
theorem C10_mandatory_labels_indexable (a b : List Label) (ha : ∀ l ∈ a, l.kind = .mandatory) (hb : ∀ l ∈ b, l.kind = .mandatory) :
    Indexable a b :=
  ⟨Or.inr (fun l hl hk => by rw [ha l hl] at hk; cases hk), Or.inr (fun l hl hk => by rw [hb l hl] at hk; cases hk)⟩

/-- A publisher used in the examples. -/
def pub (id : Nat) (labels : List Label) : Service := ⟨id, dataPublisher, "topic", "text", labels⟩

/-- A history meeting the hypotheses: mandatory and optional labels, a publisher that leaves again, an early and a late
subscriber. -/
def sampleHistory : List PubSubEvent :=
  [.publish (pub 1 [⟨"k", "v", .optional⟩]), .subscribe "topic" "text" ⟨7, [⟨"k", "v", .mandatory⟩]⟩,
   .publish (pub 2 [⟨"k", "v", .mandatory⟩]), .publish (pub 3 [⟨"k", "w", .mandatory⟩]), .unpublish (pub 1 [⟨"k", "v", .optional⟩]),
   .subscribe "topic" "" ⟨8, [⟨"k", "v", .optional⟩]⟩]

example : PubSubHistory sampleHistory ∧
    (∀ s, PubSubEvent.publish s ∈ sampleHistory → s.key = "topic" → Indexable [⟨"k", "v", .mandatory⟩] s.labels) ∧
    ((worldAfter sampleHistory).subs 7).map (·.connected) = some [2] ∧
    ((worldAfter sampleHistory).subs 8).map (·.connected) = some [2] := by
  refine ⟨?_, ?_, by decide +kernel, by decide +kernel⟩
  · have h0 := PubSubHistory.start
    have h1 := PubSubHistory.publish h0 (s := pub 1 [⟨"k", "v", .optional⟩]) rfl (by decide +kernel)
    have h2 := PubSubHistory.subscribe h1 (topic := "topic") (mediaType := "text") (i := ⟨7, [⟨"k", "v", .mandatory⟩]⟩) (by simp; try (intros; grind))
    have h3 := PubSubHistory.publish h2 (s := pub 2 [⟨"k", "v", .mandatory⟩]) rfl (by decide +kernel)
    have h4 := PubSubHistory.publish h3 (s := pub 3 [⟨"k", "w", .mandatory⟩]) rfl (by decide +kernel)
    have h5 := PubSubHistory.unpublish h4 (s := pub 1 [⟨"k", "v", .optional⟩]) rfl (by decide +kernel)
    exact PubSubHistory.subscribe h5 (topic := "topic") (mediaType := "") (i := ⟨8, [⟨"k", "v", .optional⟩]⟩) (by simp; try (intros; grind))
  · intro s hs _
    simp only [sampleHistory, List.mem_cons, PubSubEvent.publish.injEq, reduceCtorEq, false_or, List.not_mem_nil, or_false] at hs
    rcases hs with rfl | rfl | rfl <;> simp [Indexable, OptionalKeysIn, pub]

/-- **C10 is false for optional labels.** Two subscribers with unrelated optional labels are not connected to a publisher
that matches them: all labels are optional and no key occurs with two values, so everybody should be connected to
everybody. -/
def missedHistory : List PubSubEvent :=
  [.subscribe "topic" "" ⟨1, [⟨"x", "1", .optional⟩]⟩, .subscribe "topic" "" ⟨2, [⟨"y", "1", .optional⟩]⟩,
   .publish (pub 10 [⟨"k", "v", .optional⟩]), .subscribe "topic" "" ⟨3, [⟨"k", "v", .optional⟩]⟩,
   .publish (pub 11 [⟨"k", "v", .optional⟩])]

theorem C10_optional_label_match_is_missed :
    PubSubHistory missedHistory ∧ pub 11 [⟨"k", "v", .optional⟩] ∈ publishers "topic" missedHistory ∧
    matchLabels [⟨"x", "1", .optional⟩] [⟨"k", "v", .optional⟩] = true ∧
    ((worldAfter missedHistory).subs 1).map (·.connected) = some [10] ∧
    ((worldAfter missedHistory).subs 2).map (·.connected) = some [10] ∧
    ((worldAfter missedHistory).subs 3).map (·.connected) = some [10, 11] := by
  refine ⟨?_, by decide +kernel, by decide +kernel, by decide +kernel, by decide +kernel, by decide +kernel⟩
  have h1 := PubSubHistory.subscribe PubSubHistory.start (topic := "topic") (mediaType := "") (i := ⟨1, [⟨"x", "1", .optional⟩]⟩) (by simp; try (intros; grind))
  have h2 := PubSubHistory.subscribe h1 (topic := "topic") (mediaType := "") (i := ⟨2, [⟨"y", "1", .optional⟩]⟩) (by simp; try (intros; grind))
  have h3 := PubSubHistory.publish h2 (s := pub 10 [⟨"k", "v", .optional⟩]) rfl (by decide +kernel)
  have h4 := PubSubHistory.subscribe h3 (topic := "topic") (mediaType := "") (i := ⟨3, [⟨"k", "v", .optional⟩]⟩) (by simp; try (intros; grind))
  exact PubSubHistory.publish h4 (s := pub 11 [⟨"k", "v", .optional⟩]) rfl (by decide +kernel)

/-- **C10 (no false matches).** Whatever happened before, a handler that registers is only told about services that are
alive under its controller type and key and whose labels match. -/
theorem C10_registration_reports_only_matches (h : List DiscoveryEvent) (ct key : String) (i : Info) (hct : allowed ct = true) :
    ∀ n ∈ (storeStep (storeAfter h) (.listen ct key i)).2,
      n.handler = i.handler ∧ n.created = true ∧ n.service ∈ alive ct key h ∧ matchLabels i.labels n.service.labelsOf = true := by
  intro n hn
  simp only [storeStep, Store.register, List.mem_map] at hn
  obtain ⟨s, hs, rfl⟩ := hn
  have := onRegistration_sound (rep_storeAfter h ct key hct) i.labels s hs
  exact ⟨rfl, rfl, this.1, this.2⟩

/-- **C10 (no false matches).** A service that appears or disappears is only reported to listeners of its controller type and
key whose labels match (RPC server replicas carry no labels and are reported to their client unconditionally). -/
theorem C10_changes_reported_only_to_matches (h : List DiscoveryEvent) (s : Service) (ev : DiscoveryEvent)
    (hev : ev = .appear s ∨ ev = .vanish s) (hct : allowed s.controllerType = true) :
    ∀ n ∈ (storeStep (storeAfter h) ev).2, n.service = s ∧ (n.created = true ↔ ev = .appear s) ∧
      ∃ i ∈ listeners s.controllerType s.key h, i.handler = n.handler ∧
        (s.controllerType = rpcServerInternal ∨ matchLabels i.labels s.labelsOf = true) := by
  have key : ∀ created, ∀ n ∈ ((storeAfter h).serviceChange created s).2, n.service = s ∧ n.created = created ∧
      ∃ i ∈ listeners s.controllerType s.key h, i.handler = n.handler ∧
        (s.controllerType = rpcServerInternal ∨ matchLabels i.labels s.labelsOf = true) := by
    intro created n hn
    simp only [Store.serviceChange, hct, if_true, List.mem_map] at hn
    obtain ⟨i, hi, rfl⟩ := hn
    have ⟨h1, h2⟩ := onChange_sound (rep_storeAfter h _ _ hct) s i hi
    refine ⟨rfl, rfl, i, h1, rfl, ?_⟩
    simpa [wants] using h2
  rcases hev with rfl | rfl
  · intro n hn
    obtain ⟨a, b, c⟩ := key true n hn
    exact ⟨a, by simp [b], c⟩
  · intro n hn
    obtain ⟨a, b, c⟩ := key false n hn
    exact ⟨a, by simp [b], c⟩

/-- **C10 (exactly once).** A handler registering with mandatory labels (or none) is told about each matching service alive
exactly once, in order of appearance – whatever labels the services have and whatever happened before. -/
theorem C10_registration_exact_partial (h : List DiscoveryEvent) (ct key : String) (i : Info) (hct : allowed ct = true)
    (hm : ∀ l ∈ i.labels, l.kind = .mandatory) :
    (storeStep (storeAfter h) (.listen ct key i)).2 =
      ((alive ct key h).filter (fun s => matchLabels i.labels s.labelsOf)).map (fun s => ⟨i.handler, true, s⟩) := by
  simp only [storeStep, Store.register]
  rw [onRegistration_exact (rep_storeAfter h ct key hct) i.labels hm]

/-- **C10 (exactly once).** A service with mandatory labels (or none) that appears or disappears is reported exactly once to
each matching listener, in order of registration – whatever labels the listeners have. -/
theorem C10_change_exact_partial (h : List DiscoveryEvent) (s : Service) (hct : allowed s.controllerType = true)
    (hm : ∀ l ∈ s.labelsOf, l.kind = .mandatory) :
    (storeStep (storeAfter h) (.appear s)).2 = ((listeners s.controllerType s.key h).filter
      (fun i => s.controllerType == rpcServerInternal || matchLabels i.labels s.labelsOf)).map (fun i => ⟨i.handler, true, s⟩) ∧
    (storeStep (storeAfter h) (.vanish s)).2 = ((listeners s.controllerType s.key h).filter
      (fun i => s.controllerType == rpcServerInternal || matchLabels i.labels s.labelsOf)).map (fun i => ⟨i.handler, false, s⟩) := by
  have := onChange_exact (rep_storeAfter h _ s.key hct) s hm
  constructor <;>
  · simp only [storeStep, Store.serviceChange, hct, if_true]
    rw [this]
    rfl

/-- The hypotheses of the two `exact` theorems are met, with counterparts that have optional labels. -/
example :
    let h : List DiscoveryEvent := [.appear (pub 1 [⟨"a", "1", .optional⟩]), .appear (pub 2 [⟨"k", "v", .optional⟩]),
      .appear (pub 3 [⟨"k", "v", .mandatory⟩]), .vanish (pub 3 [⟨"k", "v", .mandatory⟩])]
    (storeStep (storeAfter h) (.listen dataPublisher "topic" ⟨5, [⟨"k", "v", .mandatory⟩]⟩)).2 =
      [⟨5, true, pub 2 [⟨"k", "v", .optional⟩]⟩] := by
  decide +kernel

/-- **"Each appearance is reported once" is false for optional labels:** a handler is told twice about two services. (Data
subscribers and RPC servers ignore the repetition, see `C10_subscriber_connections_exact_partial`.) -/
theorem C10_optional_label_reported_twice :
    let h : List DiscoveryEvent := [.appear (pub 0 []), .appear (pub 1 [⟨"k", "v", .optional⟩]),
      .appear (pub 2 [⟨"k", "w", .optional⟩]), .appear (pub 3 [⟨"k", "w", .optional⟩])]
    ((storeStep (storeAfter h) (.listen dataPublisher "topic" ⟨5, [⟨"k", "v", .optional⟩]⟩)).2.map (·.service.id)) =
      [0, 1, 0, 1] := by
  decide +kernel

/-- **RPC clients with mandatory labels** are not told about a server replica that exists before they register (which happens
when a matching RPC server lives in the same participant: it reacts to the announcement of the client, which precedes the
registration, Participant_impl.hpp:689-694), although a replica appearing later is reported. -/
theorem C10_rpc_client_with_mandatory_label_misses_existing_server :
    let replica : Service := ⟨1, rpcServerInternal, "client-uuid", "", []⟩
    let client : DiscoveryEvent := .listen rpcServerInternal "client-uuid" ⟨5, [⟨"k", "v", .mandatory⟩]⟩
    (storeStep (storeAfter [.appear replica]) client).2 = [] ∧
    (storeStep (storeAfter [client]) (.appear replica)).2 = [⟨5, true, replica⟩] := by
  decide +kernel

end SilKit.Props
