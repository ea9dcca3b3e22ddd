import Verif.Lemmas.HourglassValues
/-!
# Values and errors through the C interface (C43)

`call memory c` is what happens to the call `c` of the C++ API, whatever is in uninitialised memory: the service is `given` a call, or the call is
`refused`. `pack e` is what a handler given to the C interface gets for the event `e` of a service, `unpack (pack e)` what a handler given to the C++ API gets.
`EventFits` and `CommandFits` say that timestamps have 64 bits, that texts contain no zero byte, and that arrays are smaller than 2³².
-/
namespace SilKit.Props
open SilKit.HourglassValues SilKit.HourglassValues.Spec

/-- The handlers of the C++ API get the events of the services as they are. Missing: a change of the status of a participant whose times
differ, see `C43_status_events_lose_the_refresh_time`. -/
theorem C43_events_arrive_as_they_are_partial (e : HourglassValues.Event) (hf : EventFits e)
    (hs : ∀ s, e = .participantStatus s → s.refreshTime = s.enterTime) : unpack (pack e) = e := by
  cases e with
  | canFrame t f d u => simp only [pack, unpack, toNanoseconds_toCount t hf]; rfl
  | canFrameTransmit i t s u =>
      simp only [pack, unpack, toNanoseconds_toCount t hf]
      rw [if_pos]
      show idVersion (makeId 1 2 2) ≥ 2
      rw [(id_parts 1 2 2 (by omega) (by omega) (by omega)).2.2.1]
      omega
  | ethFrame t r d u => simp only [pack, unpack, toNanoseconds_toCount t hf]; rfl
  | linFrameStatus t f s => simp only [pack, unpack, toNanoseconds_toCount t hf]; rfl
  | frFrame t c f =>
      simp only [pack, unpack, toNanoseconds_toCount t hf.1, packFlexrayFrame, unpackFlexrayFrame, toSpan_toByteVector32 _ hf.2]
  | frFrameTransmit t b c f =>
      simp only [pack, unpack, toNanoseconds_toCount t hf.1, packFlexrayFrame, unpackFlexrayFrame, toSpan_toByteVector32 _ hf.2]
  | frPocStatus t s =>
      simp only [pack, unpack, toNanoseconds_toCount t hf, packPocStatus, unpackPocStatus, toBool_ofBool]
  | dataMessage t d => simp only [pack, unpack, toNanoseconds_toCount t hf]; rfl
  | rpcCall t h d => simp only [pack, unpack, toNanoseconds_toCount t hf]; rfl
  | rpcCallResult t u s d => simp only [pack, unpack, toNanoseconds_toCount t hf]; rfl
  | participantStatus s =>
      obtain ⟨h1, h2, h3, h4⟩ := hf
      have := hs s rfl
      simp only [pack, unpack, toNanoseconds_toCount _ h3, cString_eq _ h1, cString_eq _ h2]
      obtain ⟨n, st, r, et, rt⟩ := s
      simp only at this
      subst this
      rfl
  | systemState s => rfl
  | simulationStep n d => simp only [pack, unpack, toNanoseconds_toCount _ hf.1, toNanoseconds_toCount _ hf.2]
  | canStateChange t _ | canErrorStateChange t _ | ethFrameTransmit t _ _ | ethStateChange t _ | ethBitrateChange t _ | linGoToSleep t | linWakeup t _
  | linSlaveConfiguration t | linFrameHeader t _ | frWakeup t _ _ | frSymbol t _ _ | frSymbolTransmit t _ _ | frCycleStart t _ =>
      simp only [pack, unpack, toNanoseconds_toCount t hf]

/-- The status of a participant that is asked for arrives as it is. -/
theorem C43_queried_status_is_exact (s : ParticipantStatus) (hf : StatusFits s) : queryStatus s = s := by
  obtain ⟨h1, h2, h3, h4⟩ := hf
  unfold queryStatus
  simp only [toNanoseconds_toCount _ h3, toNanoseconds_toCount _ h4, cString_eq _ h1, cString_eq _ h2]

/-- The services are given the calls of the C++ API as they are, and none is refused; a FlexRay buffer update without valid payload comes
without payload. Missing: FlexRay buffer updates with a valid empty payload, see `C43_an_empty_payload_is_refused`. -/
theorem C43_calls_arrive_as_they_are_partial (memory : FlexrayNodeParameters) (c : Command) (hf : CommandFits c)
    (hu : ∀ u, c = .frUpdateTxBuffer u → (u.payloadDataValid = true ↔ u.payload ≠ [])) : call memory c = .given c := by
  cases c with
  | canSendFrame f u => show canSendFrame (cCanFrame f) u = _; unfold canSendFrame; rw [show (cCanFrame f).header = structId .canFrame from rfl,
      structId_valid, if_pos rfl]; rfl
  | linInit c => exact linInit_eq c
  | linSendFrame f t => show linSendFrame f t = _; unfold linSendFrame checked; rw [structId_valid, if_pos rfl]; rfl
  | linUpdateTxBuffer f => show linUpdateTxBuffer f = _; unfold linUpdateTxBuffer checked; rw [structId_valid, if_pos rfl]; rfl
  | linSetFrameResponse r => show linSetFrameResponse r = _; unfold linSetFrameResponse checked; rw [structId_valid, if_pos rfl]; rfl
  | linInitDynamic m b => show checked _ _ = _; unfold checked; rw [structId_valid, if_pos rfl]
  | frConfigure c =>
      show cConfigure memory (structId .flexrayControllerConfig) (cClusterParameters c.clusterParams) (cNodeParameters c.nodeParams) _ _ = _
      unfold cConfigure
      rw [show (cClusterParameters c.clusterParams).header = structId .flexrayClusterParameters from rfl,
        show (cNodeParameters c.nodeParams).header = structId .flexrayNodeParameters from rfl, structId_valid, structId_valid, structId_valid,
        Bool.and_self, Bool.and_self, if_pos rfl]
      have hv : idVersion (cNodeParameters c.nodeParams).header = 2 := (id_parts 3 11 2 (by omega) (by omega) (by omega)).2.2.1
      have h1 : assignNodeParameters memory (cNodeParameters c.nodeParams) = c.nodeParams := by
        unfold assignNodeParameters
        rw [hv]
        rfl
      have h2 : ((c.bufferConfigs.map cTxBufferConfig).take ((c.bufferConfigs.map cTxBufferConfig).length % 2 ^ 32)).map assignTxBufferConfig
          = c.bufferConfigs := by
        rw [List.length_map, Nat.mod_eq_of_lt hf, List.take_of_length_le (by simp), List.map_map]
        conv => rhs; rw [← List.map_id c.bufferConfigs]
        refine List.map_congr_left (fun b _ => ?_)
        show assignTxBufferConfig (cTxBufferConfig b) = b
        unfold assignTxBufferConfig cTxBufferConfig
        simp only [ofBool_beq]
      rw [h1, h2]; rfl
  | frReconfigureTxBuffer i b =>
      show frReconfigure i b = _
      unfold frReconfigure
      simp only [show (cTxBufferConfig b).header = structId .flexrayTxBufferConfig from rfl, structId_valid,
        show (cTxBufferConfig b).hasPayloadPreambleIndicator = ofBool b.hasPayloadPreambleIndicator from rfl, validBool_ofBool, Bool.and_self, if_true]
      unfold assignTxBufferConfig cTxBufferConfig
      simp only [ofBool_beq]
  | frUpdateTxBuffer u =>
      have h := hu u rfl
      obtain ⟨i, v, p⟩ := u
      show frUpdate _ = _
      unfold frUpdate
      simp only [validBool_ofBool, Bool.not_true, Bool.false_eq_true, if_false, toBool_ofBool, ofBool_beq] at h ⊢
      cases v with
      | true =>
          have hp : p ≠ [] := h.1 rfl
          cases p with
          | nil => exact absurd rfl hp
          | cons x p => rfl
      | false =>
          cases p with
          | nil => rfl
          | cons x p => exact absurd (h.2 (by simp)) (by simp)
  | frCommand c => cases c <;> rfl
  | createDataPublisher n s h => show Result.given (.createDataPublisher (cString n) (throughSpec s) h) = _; rw [cString_eq n hf.1, throughSpec_eq s hf.2]
  | createDataSubscriber n s => show Result.given (.createDataSubscriber (cString n) (throughSpec s)) = _; rw [cString_eq n hf.1, throughSpec_eq s hf.2]
  | createRpcClient n s => show Result.given (.createRpcClient (cString n) (throughSpec s)) = _; rw [cString_eq n hf.1, throughSpec_eq s hf.2]
  | createRpcServer n s => show Result.given (.createRpcServer (cString n) (throughSpec s)) = _; rw [cString_eq n hf.1, throughSpec_eq s hf.2]
  | rpcCallWithTimeout d t u =>
      show Result.given (.rpcCallWithTimeout (toSpan (toByteVector d)) (toNanoseconds (toCount t)) u) = _
      rw [toNanoseconds_toCount t hf]; rfl
  | rpcSubmitResult h d => show submitResult h d = _; unfold submitResult; rw [if_neg hf]; rfl
  | setSimulationStepHandler t => show Result.given (.setSimulationStepHandler (toNanoseconds (toCount t))) = _; rw [toNanoseconds_toCount t hf]
  | setWorkflowConfiguration l =>
      show Result.given (.setWorkflowConfiguration (l.map cString)) = _
      congr 2
      conv => rhs; rw [← List.map_id l]
      exact List.map_congr_left (fun n hn => cString_eq n (hf n hn))
  | canSetBaudRate _ _ _ | ethSendFrame _ _ | linSendFrameHeader _ | publish _ | rpcCall _ _ => rfl

/-- A FlexRay buffer update whose payload is not valid comes without payload, but otherwise as it is. -/
theorem C43_updates_without_payload (memory : FlexrayNodeParameters) (u : FlexrayTxBufferUpdate) (hv : u.payloadDataValid = false) :
    call memory (.frUpdateTxBuffer u) = .given (.frUpdateTxBuffer { u with payload := [] }) := by
  obtain ⟨i, v, p⟩ := u
  simp only at hv
  subst hv
  rfl

/-- Each exception class of the API thrown by a service is thrown to the user of the C++ API, with its text. -/
theorem C43_exceptions_keep_class_and_text (before : String) (e : Exn) (text : String) (hd : Declared e) :
    errorThroughC before e text = some (e, text) := by
  unfold Declared at hd
  cases e <;> first | rfl | (exact absurd hd (by decide))

/-- Every other exception derived from `std::exception` arrives as a `SilKitError` with its text; no exception is taken for success. -/
theorem C43_foreign_exceptions (before : String) (e : Exn) (text : String) :
    (¬ Declared e → e ≠ .other → errorThroughC before e text = some (.silkit, text)) ∧
    (caught before e text).2 ≠ .success ∧ (errorThroughC before e text).isSome := by
  refine ⟨fun hd ho => ?_, ?_, ?_⟩
  · unfold Declared at hd
    cases e <;> first | rfl | (exact absurd rfl ho) | (exact absurd (by decide) hd)
  · cases e <;> exact fun h => Code.noConfusion h
  · cases e <;> rfl

/-- The identifier in a structure header gives back the service, the data type and the version, and is valid exactly if they are. -/
theorem C43_structure_identifiers (s d v : Nat) (hs : s < 256) (hd : d < 256) (hv : v < 256) :
    idService (makeId s d v) = s ∧ idDatatype (makeId s d v) = d ∧ idVersion (makeId s d v) = v ∧ makeId s d v < 2 ^ 64 ∧
    (validId (makeId s d v) = true ↔ 0 < s ∧ s < 9 ∧ d ≠ 0 ∧ v ≠ 0) :=
  ⟨(id_parts s d v hs hd hv).1, (id_parts s d v hs hd hv).2.1, (id_parts s d v hs hd hv).2.2.1, by rw [makeId_eq]; omega, validId_iff s d v hs hd hv⟩

/-- The identifiers of the structures are valid and different. -/
theorem C43_structures_have_their_own_identifiers (a b : Struct) : validId (structId a) = true ∧ (structId a = structId b ↔ a = b) :=
  ⟨structId_valid a, structId_inj a b, fun h => by rw [h]⟩

/-- The structures given to the handlers of the C interface carry their own identifiers. Missing: the three kinds of structures of
`C43_wrong_headers`. -/
theorem C43_events_carry_their_identifiers_partial (e : HourglassValues.Event) (h1 : ∀ t f s, e ≠ .linFrameStatus t f s) (h2 : ∀ t i, e ≠ .linFrameHeader t i)
    (h3 : ∀ t b c f, e ≠ .frFrameTransmit t b c f) : ∀ x ∈ headers (pack e), x.1 = some (structId x.2) := by
  cases e with
  | linFrameStatus t f s => exact absurd rfl (h1 t f s)
  | linFrameHeader t i => exact absurd rfl (h2 t i)
  | frFrameTransmit t b c f => exact absurd rfl (h3 t b c f)
  | _ => intro x hx; simp only [pack, headers, List.mem_cons, List.not_mem_nil, or_false] at hx <;> rcases hx with rfl | rfl | rfl <;> rfl

/-- The slave configuration contains the identifiers that respond, each once and in increasing order; an identifier that does not exist
is undefined behaviour. -/
theorem C43_slave_configuration (l : List (BitVec 8)) :
    ((∀ id ∈ l, id.toNat < 64) → ∃ r, slaveConfiguration l = some r ∧ (∀ id, id ∈ r ↔ id ∈ l) ∧ r.Pairwise (fun a b => a.toNat < b.toNat)) ∧
    ((∃ id ∈ l, 64 ≤ id.toNat) → slaveConfiguration l = none) := by
  refine ⟨fun hl => ⟨_, slaveConfiguration_eq l hl, fun id => ?_, ?_⟩, slaveConfiguration_none l⟩
  · rw [List.mem_filter, List.mem_map]
    constructor
    · intro h; simpa using h.2
    · intro h
      refine ⟨⟨id.toNat, List.mem_range.2 (hl id h), ?_⟩, by simpa using h⟩
      rw [BitVec.ofNat_toNat]; simp
  · refine List.Pairwise.filter _ ?_
    decide +kernel

/-! ## What does not hold -/

/-- Whatever the refresh time of the status of a participant is, the handler of the C++ API gets the time at which the state was entered. -/
theorem C43_status_events_lose_the_refresh_time (s : ParticipantStatus) (hf : StatusFits s) :
    unpack (pack (.participantStatus s)) = .participantStatus { s with refreshTime := s.enterTime } := by
  obtain ⟨h1, h2, h3, h4⟩ := hf
  simp only [pack, unpack, toNanoseconds_toCount _ h3, cString_eq _ h1, cString_eq _ h2]

/-- A FlexRay buffer update with a valid payload of no bytes is refused. -/
theorem C43_an_empty_payload_is_refused (memory : FlexrayNodeParameters) (i : BitVec 16) :
    call memory (.frUpdateTxBuffer { txBufferIndex := i, payloadDataValid := true, payload := [] }) = .refused .badParameter := rfl

/-- The frames of LIN frame status events have no header; LIN frame header events and FlexRay transmit events have the header of another structure. -/
theorem C43_wrong_headers (t : Int) :
    (∀ f s, ∃ x ∈ headers (pack (.linFrameStatus t f s)), x = (none, .linFrame)) ∧
    (∀ i, ∃ x ∈ headers (pack (.linFrameHeader t i)), x = (some (structId .linWakeupEvent), .linFrameHeaderEvent)) ∧
    (∀ b c f, ∃ x ∈ headers (pack (.frFrameTransmit t b c f)), x = (some (structId .flexrayFrameEvent), .flexrayFrameTransmitEvent)) :=
  ⟨fun f s => ⟨_, List.mem_cons_of_mem _ List.mem_cons_self, rfl⟩, fun i => ⟨_, List.mem_cons_self, rfl⟩, fun b c f => ⟨_, List.mem_cons_self, rfl⟩⟩

/-- FlexRay node parameters of version 1, as sent by a program that was built with older headers, are accepted, but the service is given whatever was in
memory for the parameters of version 2. -/
theorem C43_old_node_parameters_read_uninitialised_memory (memory : FlexrayNodeParameters) (cluster : CFlexrayClusterParameters)
    (node : CFlexrayNodeParameters) (hc : cluster.header = structId .flexrayClusterParameters) (hn : node.header = makeId 3 11 1) :
    ∃ c, cConfigure memory (structId .flexrayControllerConfig) cluster node 0 [] = .given (.frConfigure c) ∧
      c.nodeParams.pSecondKeySlotId = memory.pSecondKeySlotId ∧ c.nodeParams.pTwoKeySlotMode = memory.pTwoKeySlotMode := by
  unfold cConfigure
  have hv : validId node.header = true := by rw [hn]; exact (validId_iff 3 11 1 (by omega) (by omega) (by omega)).2 (by omega)
  have hver : idVersion node.header = 1 := by rw [hn]; exact (id_parts 3 11 1 (by omega) (by omega) (by omega)).2.2.1
  rw [hc, structId_valid, structId_valid, hv]
  refine ⟨_, rfl, ?_, ?_⟩
  · show (assignNodeParameters memory node).pSecondKeySlotId = _
    unfold assignNodeParameters
    rw [hver]; rfl
  · show (assignNodeParameters memory node).pTwoKeySlotMode = _
    unfold assignNodeParameters
    rw [hver]; rfl

/-- An exception that is not derived from `std::exception` arrives with the text of an earlier error of the thread. -/
theorem C43_unknown_exceptions_show_an_old_text (before text : String) : errorThroughC before .other text = some (.silkit, before) := rfl

/-! ## Non-vacuity -/

def someFrame : CanFrame := { canId := 0x123, flags := 2, dlc := 3, sdt := 0, vcid := 0, af := 0, dataField := [1, 2, 3] }

/-- A timestamp before the epoch. -/
example : unpack (pack (.canFrame (-5) someFrame 1 42)) = .canFrame (-5) someFrame 1 42 :=
  C43_events_arrive_as_they_are_partial _ (show Nanoseconds _ by unfold Nanoseconds; omega) (fun s h => HourglassValues.Event.noConfusion h)

example : pack (.canFrame (-5) someFrame 1 42) = .canFrame (structId .canFrameEvent) (2 ^ 64 - 5) (packCanFrame someFrame) 1 42 := by decide +kernel

/-- Two frame responses. -/
def someConfig : LinControllerConfig :=
  { controllerMode := 2, baudRate := 20000
    frameResponses := [{ frame := { id := 16, checksumModel := 1, dataLength := 6, data := Vector.replicate 8 7 }, responseMode := 2 },
      { frame := { id := 17, checksumModel := 2, dataLength := 8, data := Vector.replicate 8 9 }, responseMode := 1 }] }

example (memory : FlexrayNodeParameters) : call memory (.linInit someConfig) = .given (.linInit someConfig) :=
  C43_calls_arrive_as_they_are_partial memory _ trivial (fun u h => Command.noConfusion h)

/-- Without the `reserve`, the pointers to the first frame would be invalid. -/
example : assignResponses (someConfig.frameResponses.foldl packResponse ({}, [])).1 (someConfig.frameResponses.foldl packResponse ({}, [])).2 = none := by
  decide +kernel

example : CommandFits (.createDataPublisher [80, 117, 98] { name := [84], mediaType := [], labels := [{ key := [107], value := [118], kind := 2 }] } 1) := by
  unfold CommandFits SpecText Text; decide

/-- A topic with a zero byte is cut. -/
example (memory : FlexrayNodeParameters) : call memory (.createDataPublisher [80] { name := [84, 0, 85], mediaType := [], labels := [] } 1) =
    .given (.createDataPublisher [80] { name := [84], mediaType := [], labels := [] } 1) := rfl

example (memory : FlexrayNodeParameters) :
    call memory (.frUpdateTxBuffer { txBufferIndex := 3, payloadDataValid := true, payload := [1] }) =
      .given (.frUpdateTxBuffer { txBufferIndex := 3, payloadDataValid := true, payload := [1] }) :=
  C43_calls_arrive_as_they_are_partial memory _ trivial (fun u h => by cases h; simp)

example : errorThroughC "" .outOfRange "x" = some (.outOfRange, "x") := C43_exceptions_keep_class_and_text "" .outOfRange "x" (by unfold Declared; decide)

example : slaveConfiguration [5, 3, 5] = some [3, 5] := by decide +kernel

example : StatusFits { participantName := [65], state := 3, enterReason := [], enterTime := 5, refreshTime := 9 } := by
  unfold StatusFits Text Nanoseconds; decide

end SilKit.Props
