import Verif.Lemmas.ConfigRoundTrip
/-!
# C53: a configuration that is written as a text and read again is the same

`serialize` and `deserialize` are the writer and the reader (up to the tree of the YAML library), `reread` does both. `kept`, `Lossless` and `FilesNamed`
say in terms of the settings what gets lost.
-/
namespace SilKit.Props
open SilKit.ConfigText

/-- Every participant configuration can be written. -/
theorem configuration_can_be_written (c : Participant) : ∃ document, serialize c = .ok document := ⟨_, w_Participant c⟩

/-- What is read again has every setting of the original, except those listed in `kept`; the only condition is that sinks that write to files are
named. -/
theorem configuration_is_read_as_written_partial (c : Participant) (h : FilesNamed c) : reread c = .ok (kept c) := reread_named h

/-- A configuration survives exactly if it uses none of the settings that get lost. -/
theorem configuration_survives_iff (c : Participant) : reread c = .ok c ↔ Lossless c := by
  rw [lossless_iff]
  constructor
  · intro h
    by_cases hn : FilesNamed c
    · rw [reread_named hn] at h
      exact ⟨hn, by injection h⟩
    · rw [reread_unnamed hn] at h; cases h
  · rintro ⟨hn, hk⟩
    rw [reread_named hn, hk]

/-- Different configurations have different texts, if they use none of those settings. -/
theorem lossless_configurations_differ_in_text (c d : Participant) (hc : Lossless c) (hd : Lossless d) (h : serialize c = serialize d) : c = d := by
  have h1 := (configuration_survives_iff c).mpr hc
  have h2 := (configuration_survives_iff d).mpr hd
  have e : reread c = reread d := by unfold reread; rw [h]
  rw [h1, h2] at e
  injection e

/-- Writing and reading a second time loses nothing more. -/
theorem second_round_trip_loses_nothing (c d : Participant) (h : reread c = .ok d) : reread d = .ok d := by
  by_cases hn : FilesNamed c
  · rw [reread_named hn] at h
    injection h with h
    subst h
    rw [reread_named (kept_named hn), kept_idem]
  · rw [reread_unnamed hn] at h; cases h

/-- A written configuration cannot be read again exactly if there is a sink for a file without a name. -/
theorem written_configuration_cannot_be_read_iff (c : Participant) : (∀ d, reread c ≠ .ok d) ↔ ¬ FilesNamed c := by
  constructor
  · intro h hn; exact h _ (reread_named hn)
  · intro hn d h; rw [reread_unnamed hn] at h; cases h

/-- The configuration of a registry without settings for metrics. -/
theorem registry_configuration_is_read_as_written_partial (c : Registry) (h : RegistryValid c)
    (hm : c.metrics.sinks = [] ∧ c.metrics.collectFromRemote = none) : rereadRegistry c = .ok (keptRegistry c) := by
  unfold rereadRegistry serializeRegistry deserializeRegistry
  rw [w_Registry c ((sameMetrics_iff _).mpr hm), Res.bind_ok, r_Registry c h]

/-- A registry configuration with settings for metrics cannot be written, whatever the other settings are. -/
theorem registry_with_metrics_cannot_be_written (c : Registry) (h : c.metrics.sinks ≠ [] ∨ c.metrics.collectFromRemote ≠ none) :
    serializeRegistry c = .throw "Parse error: trying to access child of something not a map" := by
  refine registry_throws c ?_
  cases e : sameMetrics c.metrics {} with
  | false => rfl
  | true =>
    have := (sameMetrics_iff _).mp e
    rcases h with h | h
    · exact absurd this.1 h
    · exact absurd this.2 h

/-! ## Settings that are lost -/

/-- The topics of a sink are lost: a participant that is created with the written configuration logs other messages. -/
theorem sink_topics_are_lost (c : Participant) (s : Sink) (h : s ∈ c.logging.sinks) (ht : s.disabledTopics ≠ [] ∨ s.enabledTopics ≠ []) :
    reread c ≠ .ok c := fun e => by
  have := ((configuration_survives_iff c).mp e).topics s h
  rcases ht with ht | ht
  · exact ht this.1
  · exact ht this.2

/-- A file that is to be written in simple format becomes a file in JSON format, a terminal with JSON format becomes one with the simple format. -/
theorem sink_format_is_lost (c : Participant) (s : Sink) (h : s ∈ c.logging.sinks)
    (hf : s.type = .file ∧ s.format = .simple ∨ s.type ≠ .file ∧ s.format = .json) : reread c ≠ .ok c := fun e => by
  have := ((configuration_survives_iff c).mp e).format s h
  rcases hf with ⟨h1, h2⟩ | ⟨h1, h2⟩
  · rw [(this.1 h1).1] at h2; cases h2
  · rw [(this.2 h1).1] at h2; cases h2

/-- The interval for updating metrics is lost if it is the only setting. -/
theorem update_interval_is_lost (c : Participant) (h1 : c.experimental.metrics.sinks = []) (h2 : c.experimental.metrics.collectFromRemote = none)
    (h3 : c.experimental.metrics.updateInterval ≠ 1) : reread c ≠ .ok c :=
  fun e => h3 (((configuration_survives_iff c).mp e).metrics h1 h2)

/-- The direction of a replay without a trace source is lost. -/
theorem replay_without_source_is_lost (c : Participant) (r : Replay) (h : r ∈ replays c) (h1 : r.useTraceSource = "") (h2 : r.direction ≠ .undefined) :
    reread c ≠ .ok c := fun e => h2 (((configuration_survives_iff c).mp e).replay r h h1).1

/-- The version of a configuration that does not state one becomes 1. -/
theorem version_is_added (c d : Participant) (h : reread c = .ok d) : d.schemaVersion = "1" := by
  by_cases hn : FilesNamed c
  · rw [reread_named hn] at h; injection h with h; subst h; rfl
  · rw [reread_unnamed hn] at h; cases h

/-- A required FlexRay parameter of one byte that is given a larger number takes the remainder, without an error. -/
theorem flexray_parameter_wraps (n : Nat) (old : UInt8) : readU8 old (.val (natText n)) = .ok (UInt8.ofNat n) := by
  simp [readU8, readNat, textNat_natText]

/-- In contrast, an optional parameter that does not fit is refused. -/
theorem optional_parameter_is_checked (n : Nat) (old : UInt8) (h : 256 ≤ n) :
    readU8Checked old (.val (natText n)) = .throw "could not deserialize value" := by
  have : ¬ n < UInt8.size := Nat.not_lt.mpr h
  simp [readU8Checked, readNatChecked, textNat_natText, this]

/-! ## The hypotheses can be met -/

/-- A configuration that uses most settings and survives. -/
def exampleConfiguration : Participant :=
  { schemaVersion := "1"
    description := "an example"
    participantName := "P1"
    canControllers := [{ name := "CAN1", network := some "N", useTraceSinks := ["s"], replay := { useTraceSource := "t", direction := .both, mdfChannel := { channelName := some "" } } }]
    flexrayControllers := [{ name := "F", clusterParameters := some { gColdstartAttempts := 8, gdMiniSlot := 1000 }, nodeParameters := some { pMicroInitialOffsetA := -3, pSecondKeySlotId := 7 }, txBufferConfigurations := [{ channels := .ab, slotId := 65535 }] }]
    dataPublishers := [{ name := "Pub", topic := some "T", labels := some [{ key := "k", value := "v", kind := .mandatory }], history := some 1 }]
    dataSubscribers := [{ name := "Sub", labels := some [] }]
    rpcClients := [{ name := "C", functionName := some "f" }]
    logging := { logFromRemotes := true, flushLevel := .warn, sinks := [{ type := .file, format := .json, logName := "log", level := .debug }, { type := .stdout }] }
    healthCheck := { softResponseTimeout := some 500 }
    middleware := { registryUri := "silkit://localhost:8501", connectAttempts := -5, tcpNoDelay := false, acceptorUris := ["a", "b"] }
    experimental := { timeSynchronization := { animationFactor := "1.5", enableMessageAggregation := .auto, dynamicSimulationStep := some false }, metrics := { sinks := [{ type := .remote }], updateInterval := 3 } } }

example : Lossless exampleConfiguration :=
  ⟨rfl, rfl, by decide +kernel, by decide +kernel, by decide +kernel, by decide +kernel⟩

example : reread exampleConfiguration = .ok exampleConfiguration := by decide +kernel

/-- A configuration of which only parts survive. -/
def lossyConfiguration : Participant :=
  { logging := { sinks := [{ type := .file, format := .simple, logName := "log", enabledTopics := [.can] }, { type := .stdout, logName := "n" }] }
    linControllers := [{ name := "L", replay := { direction := .send } }]
    experimental := { metrics := { updateInterval := 10 } } }

example : FilesNamed lossyConfiguration ∧ ¬ Lossless lossyConfiguration :=
  ⟨by unfold FilesNamed; decide +kernel, fun h => absurd h.version (by decide)⟩

example : reread lossyConfiguration = .ok { schemaVersion := "1", logging := { sinks := [{ type := .file, format := .json, logName := "log" }, { type := .stdout }] }, linControllers := [{ name := "L" }] } := by
  decide +kernel

example : ¬ FilesNamed { logging := { sinks := [{ type := .file }] } } := fun h => h _ (List.mem_singleton.mpr rfl) rfl rfl

example : ∃ c : Registry, RegistryValid c ∧ c.metrics.sinks = [] ∧ c.metrics.collectFromRemote = none ∧ c.logging.sinks ≠ [] :=
  ⟨{ listenUri := some "silkit://0.0.0.0:8501", logging := { sinks := [{ type := .stdout, level := .warn }] } },
    ⟨rfl, by decide +kernel, by decide +kernel⟩, rfl, rfl, by decide⟩

/-- A document with a FlexRay parameter that does not fit is read, with another value. -/
example : ((readCluster {} (yCluster { gColdstartAttempts := 2 })) = .ok { gColdstartAttempts := 2 }) ∧
    readU8 0 (.val "258") = .ok 2 ∧ readU8Checked 0 (.val "258") = .throw "could not deserialize value" := by decide +kernel

end SilKit.Props
