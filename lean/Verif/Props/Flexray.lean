import Verif.Lemmas.Flexray
/-!
# FlexRay controllers: configuration and buffers (C33), handlers (C39)

`h` is everything that happens to a controller with the service identifier `i` on the network `net`: calls, discovered network simulations, and messages;
`pre` is what the participant configuration file sets.
-/
namespace SilKit.Props
open SilKit.Flexray SilKit.Flexray.Spec SilKit.Handling.Spec

/-- `Configure` is accepted - and the configuration goes to the network simulation - exactly if all checked parameters are in their ranges. Otherwise it throws,
and nothing changes.

Missing: four node parameters with documented ranges are not checked by the code (`NodeRest`). -/
theorem C33_configure_accepts_exactly_the_ranges_partial (i : Nat) (net : String) (pre : Preset) (h : List Flexray.Input) (cfg : Flexray.Config) :
    (ClusterInRange (wanted pre cfg).cluster ∧ NodeInRange (wanted pre cfg).node ↔
      (solo i net pre (h ++ [.configure cfg])).2 = (solo i net pre h).2 ++ [.did (.send (simulator net h) (.config (wanted pre cfg)))]) ∧
    (¬ (ClusterInRange (wanted pre cfg).cluster ∧ NodeInRange (wanted pre cfg).node) ↔
      ∃ msg, solo i net pre (h ++ [.configure cfg]) = ((solo i net pre h).1, (solo i net pre h).2 ++ [.did (.invalid msg)])) := by
  have g := solo_G i net pre h
  rw [solo_append]
  generalize solo i net pre h = r at g
  rcases configure_cases r.1 cfg with ⟨msg, e, hn⟩ | ⟨e, hy⟩
  · rw [g.pre] at hn
    have e' : onInput r (.configure cfg) = (r.1, r.2 ++ [.did (.invalid msg)]) := by simp only [onInput, Ctl.step, e]
    rw [e']
    refine ⟨⟨fun h => absurd h hn, fun h => ?_⟩, ⟨fun _ => ⟨msg, rfl⟩, fun _ => hn⟩⟩
    simp at h
  · rw [g.pre] at hy
    have e' : onInput r (.configure cfg) = ({ r.1 with buffers := (wanted pre cfg).buffers }, r.2 ++ [.did (.send (simulator net h) (.config (wanted pre cfg)))]) := by
      simp only [onInput, Ctl.step, e, g.pre, g.sim]
    rw [e']
    refine ⟨⟨fun _ => rfl, fun _ => hy⟩, ⟨fun h => absurd hy h, fun h => ?_⟩⟩
    obtain ⟨msg, hm⟩ := h
    simp at hm

/-- Configurations with all parameters in the documented ranges are accepted. -/
theorem C33_documented_ranges_are_accepted (i : Nat) (net : String) (pre : Preset) (h : List Flexray.Input) (cfg : Flexray.Config)
    (h1 : ClusterInRange (wanted pre cfg).cluster) (h2 : NodeInRange (wanted pre cfg).node) (_ : NodeRest (wanted pre cfg).node) :
    (solo i net pre (h ++ [.configure cfg])).2 = (solo i net pre h).2 ++ [.did (.send (simulator net h) (.config (wanted pre cfg)))] :=
  (C33_configure_accepts_exactly_the_ranges_partial i net pre h cfg).1.1 ⟨h1, h2⟩

/-- An update of a buffer is sent as it is if the index is that of a buffer of the last accepted configuration. Otherwise the call throws, and nothing changes. -/
theorem C33_buffer_update_is_sent_exactly_for_configured_buffers (i : Nat) (net : String) (pre : Preset) (h : List Flexray.Input) (idx : Nat) (valid : Bool) (payload : List Nat) :
    solo i net pre (h ++ [.updateTxBuffer idx valid payload]) = ((solo i net pre h).1, (solo i net pre h).2 ++
      if idx < bufferCount (solo i net pre h).2 then [.did (.send (simulator net h) (.bufferUpdate idx valid payload))] else [.did .outOfRange]) := by
  have g := solo_G i net pre h
  rw [solo_append, ← g.count, ← g.sim]
  generalize solo i net pre h = r
  simp only [onInput, Ctl.step, Ctl.updateTxBuffer]
  by_cases hi : idx ≥ r.1.buffers.length
  · rw [if_pos hi, if_neg (Nat.not_lt.2 hi)]
  · rw [if_neg hi, if_pos (Nat.not_le.1 hi)]; rfl

/-- Likewise for reconfigurations, unless the buffers are predefined: then the call has no effect. -/
theorem C33_reconfiguration_is_sent_exactly_for_configured_buffers (i : Nat) (net : String) (pre : Preset) (h : List Flexray.Input) (idx : Nat) (b : Flexray.Buffer) :
    solo i net pre (h ++ [.reconfigureTxBuffer idx b]) = ((solo i net pre h).1, (solo i net pre h).2 ++
      if idx < bufferCount (solo i net pre h).2 then (if pre.buffers = [] then [.did (.send (simulator net h) (.bufferConfig idx b))] else []) else [.did .outOfRange]) := by
  have g := solo_G i net pre h
  rw [solo_append, ← g.count, ← g.sim]
  have hp := g.pre
  generalize solo i net pre h = r at hp
  simp only [onInput, Ctl.step, Ctl.reconfigureTxBuffer, hp]
  by_cases hi : idx ≥ r.1.buffers.length
  · rw [if_pos hi, if_neg (Nat.not_lt.2 hi)]
  · rw [if_neg hi, if_pos (Nat.not_le.1 hi)]
    by_cases hb : pre.buffers = []
    · rw [if_neg (by simp [hb]), if_pos hb]; rfl
    · rw [if_pos hb, if_neg hb]

/-- All messages of a controller go to the first network simulation that it has found, in the order of the calls. -/
theorem C33_messages_go_to_the_simulation (i : Nat) (net : String) (pre : Preset) (h : List Flexray.Input) (c : Flexray.Command) :
    solo i net pre (h ++ [.command c]) = ((solo i net pre h).1, (solo i net pre h).2 ++ [.did (.send (simulator net h) (.command c))]) := by
  have g := solo_G i net pre h
  rw [solo_append, ← g.sim]
  rfl

/-! ## Handlers -/

/-- What the handlers are told: exactly the messages that come from the simulation of the network, for this controller; wake-up symbols are reported twice. -/
theorem C39_flexray_reports_exactly_the_events_of_the_simulation (i : Nat) (net : String) (pre : Preset) (h : List Flexray.Input) :
    tolds (solo i net pre h).2 = reportedFrom i net none h := tolds_solo i net pre h

/-- A handler is added after `a` and not removed in `b`. It is not called before, and from then on it is called with exactly the events of its kind. -/
theorem C39_flexray_handler_sees_exactly_what_it_asked_for (i : Nat) (net : String) (pre : Preset) (h : List Flexray.Input) (k : Flexray.Kind) (id mask : Nat)
    (a b : List Flexray.Out) (e : (solo i net pre h).2 = a ++ .added k id mask :: b) (hr : Handling.Out.removed k id ∉ b) :
    handlerCalls Flexray.Notice.kind k id a = [] ∧ ∃ rest, reportedFrom i net none h = tolds a ++ rest ∧
      handlerCalls Flexray.Notice.kind k id b = rest.filter (fun n => decide (n.kind = k)) := by
  have hl := (solo_G i net pre h).hnd.live k id mask a b e hr
  refine ⟨hl.2.1, tolds b, ?_, hl.2.2.trans (List.filter_congr fun n _ => by rw [Bool.eq_iff_iff]; simp [Flexray.events]; exact decide_eq_true_iff)⟩
  rw [← tolds_solo i net pre h, e, Handling.tolds_append]
  rfl

/-- A handler that has been removed is not called. -/
theorem C39_flexray_removed_handler_is_not_called (i : Nat) (net : String) (pre : Preset) (h : List Flexray.Input) (k : Flexray.Kind) (id : Nat) (a b : List Flexray.Out)
    (e : (solo i net pre h).2 = a ++ .removed k id :: b) (ha : ∃ mask, Handling.Out.added k id mask ∈ a) : handlerCalls Flexray.Notice.kind k id b = [] :=
  ((solo_G i net pre h).hnd.dead k id a b e ha).2

/-- Only handlers that have been added are called, and handlers of one kind have different identifiers. -/
theorem C39_flexray_handlers_are_distinct (i : Nat) (net : String) (pre : Preset) (h : List Flexray.Input) :
    (∀ id n, Handling.Out.called id n ∈ (solo i net pre h).2 → ∃ mask, Handling.Out.added n.kind id mask ∈ (solo i net pre h).2) ∧
    (∀ k id mask mask' a b, (solo i net pre h).2 = a ++ .added k id mask :: b → Handling.Out.added k id mask' ∉ a ∧ Handling.Out.added k id mask' ∉ b) :=
  ⟨fun id n hm => (solo_G i net pre h).hnd.calledAdded id n hm, fun k id mask mask' a b e => (solo_G i net pre h).hnd.once k id mask mask' a b e⟩

/-! ## Non-vacuity, and what the code does not check -/

private def cluster : Flexray.Cluster := ⟨8, 7, 2, 1, 5, 2, 31, 1, 1, 9, 60, 180, 2, 3636, 2, 2, 291, 70, 16, 15⟩
private def node : Flexray.Node := ⟨1, 0, 3, 2, 212, 400162, 10, 0, 0, 0, 249, 3, 3, 6, 6, 200000, 127, 3632, 81, 1, 33, 2, 2, 0, 0⟩
private def buffer (slot : Nat) : Flexray.Buffer := ⟨1, slot, 0, 1, false, 0, 0⟩
private def config : Flexray.Config := ⟨cluster, node, [buffer 3, buffer 4]⟩

example : ClusterInRange (wanted {} config).cluster ∧ NodeInRange (wanted {} config).node ∧ NodeRest (wanted {} config).node := by
  refine ⟨?_, ?_, ?_⟩ <;> constructor <;> decide
example : ¬ ClusterInRange { cluster with gCycleCountMax := 8 } := fun h => absurd h.gCycleCountMax (by decide)
example : (solo 3 "FR" { buffers := [buffer 9] } [.linkCreated 5 "FR", .configure config, .updateTxBuffer 0 true [1], .updateTxBuffer 1 true [1], .reconfigureTxBuffer 0 (buffer 8)]).2 =
    [.did (.send (some 5) (.config { config with buffers := [buffer 9] })), .did (.send (some 5) (.bufferUpdate 0 true [1])), .did .outOfRange] := by decide +kernel
example : (solo 3 "FR" {} [.linkCreated 4 "other", .linkCreated 5 "FR", .linkCreated 6 "FR", .updateTxBuffer 0 true [1], .configure config,
      .configure { config with cluster := { cluster with gCycleCountMax := 8 } }, .updateTxBuffer 1 true [1], .reconfigureTxBuffer 1 (buffer 8), .updateTxBuffer 2 true [1]]).2 =
    [.did .outOfRange, .did (.send (some 5) (.config config)), .did (.invalid "gCycleCountMax must be an odd value"), .did (.send (some 5) (.bufferUpdate 1 true [1])),
      .did (.send (some 5) (.bufferConfig 1 (buffer 8))), .did .outOfRange] := by decide +kernel

private def oneFlexrayController : List Flexray.Input :=
  [.addHandler .wakeup, .addHandler .symbol, .recv 5 3 (.symbol ⟨0, 1, .wus⟩), .linkCreated 5 "FR", .recv 5 3 (.symbol ⟨1, 1, .wus⟩), .recv 5 4 (.symbol ⟨2, 1, .wus⟩),
    .recv 5 3 (.symbol ⟨3, 1, .casMts⟩), .recv 6 3 (.cycleStart 4 1)]

example : (solo 3 "FR" {} oneFlexrayController).2 = [.added .wakeup 0 0, .added .symbol 0 0, .told (.wakeup ⟨1, 1, .wus⟩), .called 0 (.wakeup ⟨1, 1, .wus⟩),
    .told (.symbol ⟨1, 1, .wus⟩), .called 0 (.symbol ⟨1, 1, .wus⟩), .told (.symbol ⟨3, 1, .casMts⟩), .called 0 (.symbol ⟨3, 1, .casMts⟩)] := by decide +kernel
example : (solo 3 "FR" {} oneFlexrayController).2 = [] ++ .added .wakeup 0 0 :: (solo 3 "FR" {} oneFlexrayController).2.drop 1 ∧
    Handling.Out.removed .wakeup 0 ∉ (solo 3 "FR" {} oneFlexrayController).2.drop 1 := by decide +kernel
example : ∃ a b, (solo 3 "FR" {} (oneFlexrayController ++ [.removeHandler .symbol 0, .recv 5 3 (.symbol ⟨1, 1, .wus⟩)])).2 = a ++ .removed .symbol 0 :: b ∧
    (∃ mask, Handling.Out.added .symbol 0 mask ∈ a) := by
  refine ⟨(solo 3 "FR" {} oneFlexrayController).2, (solo 3 "FR" {} (oneFlexrayController ++ [.removeHandler .symbol 0, .recv 5 3 (.symbol ⟨1, 1, .wus⟩)])).2.drop
    ((solo 3 "FR" {} oneFlexrayController).2.length + 1), ?_, 0, ?_⟩ <;> decide +kernel

/-- A second key slot outside of 0-1023, an invalid mode for it, and invalid channels and clock periods are accepted. -/
theorem C33_counterexample_unchecked_parameters :
    let cfg := { config with node := { node with pChannels := 0, pdMicrotick := 7, pSecondKeySlotId := 2000, pTwoKeySlotMode := 9 } }
    ¬ NodeRest cfg.node ∧ (solo 3 "FR" {} [.linkCreated 5 "FR", .configure cfg]).2 = [.did (.send (some 5) (.config cfg))] := by
  refine ⟨fun h => absurd h.pSecondKeySlotId (by decide), by decide +kernel⟩

/-- Without a network simulation, an accepted configuration is sent to nobody; it is not sent when the simulation is found. -/
theorem C33_counterexample_configuration_before_simulation_is_lost :
    (solo 3 "FR" {} [.configure config, .linkCreated 5 "FR", .updateTxBuffer 0 true [1]]).2 =
      [.did (.send none (.config config)), .did (.send (some 5) (.bufferUpdate 0 true [1]))] := by decide +kernel

end SilKit.Props
