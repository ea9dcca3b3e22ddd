import Verif.Lemmas.NetSimValues
/-!
# C73: values between controllers and a network simulator

The theorems are about the model of `Model/NetSimValues.lean`; the words used in them are defined in `Spec/NetSimValues.lean`.
-/
namespace SilKit.Props
open SilKit.NetSimValues SilKit.NetSimValues.Spec
open SilKit.HourglassValues hiding Event pack unpack packResponses call
open SilKit.HourglassValues.Spec (Nanoseconds Text)

def netSimExampleFrame : CanFrame := { canId := 0x123, flags := 1, dlc := 8, sdt := 2, vcid := 3, af := 4, dataField := [1, 2, 3] }
def netSimExampleResponses : List LinFrameResponse :=
  [{ frame := { id := 5, checksumModel := 1, dataLength := 2, data := #v[1, 2, 0, 0, 0, 0, 0, 0] }, responseMode := 1 },
   { frame := { id := 6, checksumModel := 2, dataLength := 8, data := #v[1, 2, 3, 4, 5, 6, 7, 8] }, responseMode := 2 }]

/-- C73 (the values of messages; the full claim is without `Carried`). A message of a controller reaches the simulated controller with exactly the fields the
controller has given, whatever was in uninitialised memory. Missing: the messages that are not `Carried`, for which it is false, see below. -/
theorem C73_messages_arrive_partial (memory : BitVec 8) (w : Wire) (h : Carried w) : deliver memory w = .given (expected w) :=
  (deliver_iff w).mpr h memory

example : Carried (.linControllerConfig 1 20000 netSimExampleResponses 1) := ⟨by decide, .inr rfl⟩
example : Carried (.frTxBufferUpdate { txBufferIndex := 3, payloadDataValid := true, payload := [1, 2] }) := .inl rfl
example : deliver 7 (.canFrame 5 netSimExampleFrame 1 99) = .given (.canFrameRequest netSimExampleFrame 99) := rfl
example : deliver 7 (.linFrameResponseUpdate netSimExampleResponses) = .given (.linFrameResponseUpdate netSimExampleResponses) := rfl

/-- C73: `Carried` is exact: a message that is not `Carried` is delivered with a wrong field, or not delivered. -/
theorem C73_messages_exactly (w : Wire) : (∀ memory, deliver memory w = .given (expected w)) ↔ Carried w := deliver_iff w

example : ∃ memory, deliver memory (.linControllerStatusUpdate 1000 2) ≠ .given (expected (.linControllerStatusUpdate 1000 2)) :=
  ⟨0, by decide +kernel⟩

/-- C73: no message makes the library write or read beyond the arrays it prepares, or through a pointer into an array that is gone. -/
theorem C73_messages_stay_in_memory (memory : BitVec 8) (w : Wire) : deliver memory w ≠ .undefined := deliver_defined memory w

example : deliver 0 (.linFrameResponseUpdate (netSimExampleResponses ++ netSimExampleResponses)) ≠ .undefined := C73_messages_stay_in_memory _ _

/-- C73: the two bits of a mode change are those the CAN controller has given. -/
theorem C73_mode_flags (memory : BitVec 8) (reset cancel : Bool) (m : BitVec 32) :
    ∃ flags, deliver memory (.canSetControllerMode reset cancel m) = .given (.canControllerMode flags m)
      ∧ flags.getLsbD 0 = reset ∧ flags.getLsbD 1 = cancel ∧ ∀ i, 2 ≤ i → flags.getLsbD i = false := by
  refine ⟨modeFlags reset cancel, rfl, ?_, ?_, ?_⟩
  · cases reset <;> cases cancel <;> rfl
  · cases reset <;> cases cancel <;> rfl
  · intro i hi
    have hall : ∀ r c, ∀ i : Fin 32, 2 ≤ i.val → (modeFlags r c).getLsbD i.val = false := by decide
    by_cases h : i < 32
    · exact hall reset cancel ⟨i, h⟩ hi
    · exact BitVec.getLsbD_of_ge _ _ (by omega)

example : deliver 0 (.canSetControllerMode false true 3) = .given (.canControllerMode 2 3) := rfl

/-- C73 (negation): the timestamp of a LIN status update is always lost: the simulator gets zero. -/
theorem C73_status_timestamp_is_lost (memory : BitVec 8) (t : Int) (s : BitVec 32) :
    deliver memory (.linControllerStatusUpdate t s) = .given (.linControllerStatusUpdate 0 s) := by
  simp only [deliver, route, pack, End.bind, unpack]
  rfl

example : deliver 0 (.linControllerStatusUpdate 1000 2) = .given (.linControllerStatusUpdate 0 2) := C73_status_timestamp_is_lost _ _ _

/-- C73 (negation): the payload of a FlexRay buffer update that is marked as not valid is lost. -/
theorem C73_invalid_payload_is_lost (memory : BitVec 8) (i : BitVec 16) (p : Bytes) :
    deliver memory (.frTxBufferUpdate { txBufferIndex := i, payloadDataValid := false, payload := p })
      = .given (.frTxBufferUpdate { txBufferIndex := i, payloadDataValid := false, payload := [] }) := rfl

example : deliver 0 (.frTxBufferUpdate { txBufferIndex := 1, payloadDataValid := false, payload := [1] })
    ≠ .given (.frTxBufferUpdate { txBufferIndex := 1, payloadDataValid := false, payload := [1] }) := by decide +kernel

/-- C73 (negation): for an unknown Ethernet mode the simulator gets what was in the memory. -/
theorem C73_unknown_mode_is_memory (memory m : BitVec 8) (h0 : m ≠ 0) (h1 : m ≠ 1) :
    deliver memory (.ethSetMode m) = .given (.ethControllerMode memory) := by
  simp only [deliver, route, pack, End.bind, unpack, if_neg h0, if_neg h1]

example : deliver 0xAB (.ethSetMode 2) = .given (.ethControllerMode 0xAB) := C73_unknown_mode_is_memory _ _ (by decide) (by decide)

/-- C73: the events that a simulator produces through the C++ API on a network are sent to all receivers given, in their order, each as one message with the
fields of the event; a change of one field of a status is sent with the latest value of the other. For every history. -/
theorem C73_events_are_sent (memory : BitVec 32) (events : List (Event × List Nat)) (h : ∀ e ∈ events, Producible e.1) :
    produceAll memory {} events = some (messages [] events) :=
  produceAll_eq memory {} [] rfl events h

def netSimExampleEvents : List (Event × List Nat) :=
  [(.canStateChange 10 2, [1, 2]), (.canErrorStateChange 20 3, [1]), (.canStateChange 30 1, [2]), (.ethFrame 40 [1, 2] 1 7, [3])]

example : ∀ e ∈ netSimExampleEvents, Producible e.1 := by
  simp only [netSimExampleEvents, List.forall_mem_cons, Producible, Nanoseconds]
  simp
example : messages [] (netSimExampleEvents.take 3)
    = [(1, .canStatus 10 2 0), (2, .canStatus 10 2 0), (1, .canStatus 20 2 3), (2, .canStatus 30 1 3)] := by decide

/-- C73: whatever structure the C function of a bus is given, what it produces is an event of this bus. -/
theorem C73_events_of_the_bus (memory : BitVec 32) (b : Bus) (c : CEvent) (e : Event) (h : cProduce memory b c = .event e) : e.bus = b :=
  cProduce_bus memory b c e h

example : cProduce 0 .can (packEvent (.canStateChange 10 2)) = .event (.canStateChange 10 2) := by decide +kernel

/-- C73 (negation): for a CAN transmit event in the structure of version 1, which the C function accepts, the identifier is what was in the memory. -/
theorem C73_old_transmit_event_is_memory (memory canId : BitVec 32) (t : Nat) (s : BitVec 32) (u : Nat) :
    cProduce memory .can (.canFrameTransmit (makeId 1 2 1) u t s canId) = .event (.canFrameTransmit memory (toNanoseconds t) s u) := by
  have h1 : validId (makeId 1 2 1) = true := by decide +kernel
  have h2 : idDatatype (makeId 1 2 1) = 2 := by decide +kernel
  have h3 : ¬ idVersion (makeId 1 2 1) ≥ 2 := by decide +kernel
  simp only [cProduce, headerOf, h1, if_true, h2, canCase, if_neg h3]

example : cProduce 0xDEAD .can (.canFrameTransmit (makeId 1 2 1) 0 5 1 0x42) = .event (.canFrameTransmit 0xDEAD 5 1 0) :=
  C73_old_transmit_event_is_memory _ _ _ _ _

/-- C73 (negation): the C functions do not look at the service in the identifier. A FlexRay symbol given to the CAN producer is read as a CAN frame event; a FlexRay
POC status is dropped with the return code of success. -/
theorem C73_foreign_structures (memory : BitVec 32) (t : Int) (c : BitVec 32) (p : BitVec 8) (s : PocStatus) :
    cProduce memory .can (packEvent (.frSymbol t c p)) = .misread ∧ cProduce memory .can (packEvent (.frPocStatus t s)) = .dropped := by
  have h1 : idDatatype (structId .flexraySymbolEvent) = 3 := by decide +kernel
  have h2 : idDatatype (structId .flexrayPocStatusEvent) = 7 := by decide +kernel
  constructor
  · simp [cProduce, packEvent, headerOf, structId_valid, h1, canCase]
  · simp [cProduce, packEvent, headerOf, structId_valid, h2, canCase]

/-- C73: the functions that the C++ API gives to the library and the simulated controller with which the library calls them are of the same bus, the one of the
network type, for every value of the type. -/
theorem C73_tables_agree (type : BitVec 32) : tableOf type = busOf type ∧ wrapperOf type = busOf type := ⟨tableOf_eq type, wrapperOf_eq type⟩

example : tableOf 4 = some .flexray := rfl

/-- C73: each network is simulated once at most, for all histories of calls. -/
theorem C73_networks_once (ops : List Op) : (callAll {} ops).1.simulated.Nodup := simulated_nodup ops

example : (callAll {} [.simulate 1 [65] true, .simulate 1 [65] true, .simulate 2 [65] true]).1.simulated = [(2, [65]), (1, [65])] := rfl

/-- C73: the networks that are simulated are those of a known type given with a network object before the start. -/
theorem C73_networks_simulated (ops : List Op) (h : TextNames ops) (type : BitVec 32) (name : Bytes) :
    (type, name) ∈ (callAll {} ops).1.simulated ↔
      ∃ before after, ops = before ++ Op.simulate type name true :: after ∧ Op.start ∉ before ∧ busOf type ≠ none :=
  (told ops h).simulated type name

example : TextNames [.simulate 1 [65] true, .start] := by
  intro t n g h
  simp at h
  obtain ⟨_, rfl, _⟩ := h
  unfold Text
  decide

/-- C73: `SimulateNetwork` throws an exception exactly if there is no network object, or the same type and name have been given before. -/
theorem C73_networks_refused (before : List Op) (type : BitVec 32) (name : Bytes) (given : Bool) (h : TextNames (before ++ [.simulate type name given])) :
    (call (callAll {} before).1 (.simulate type name given)).2 = true ↔ given = true ∧ ¬ Named before type name :=
  call_returns before type name given h

example : (callAll {} [.simulate 1 [65] true, .simulate 1 [65] true]).2 = [true, false] := rfl

/-- C73 (negation): a network of an unknown type, or after the start, is accepted without an exception and is not simulated. -/
theorem C73_networks_ignored (s : Networks) (type : BitVec 32) (name : Bytes) (h : busOf type = none ∨ s.started = true) (hn : (type, name) ∉ s.recorded) :
    (call s (.simulate type name true)).2 = true ∧ (call s (.simulate type name true)).1.simulated = s.simulated := by
  unfold call
  dsimp only
  rw [if_neg (by simp), if_neg hn, tableOf_eq]
  rcases h with h | h
  · rw [if_pos h]
    exact ⟨rfl, rfl⟩
  · split
    · exact ⟨rfl, rfl⟩
    · simp only [h, and_self]

example : callAll {} [.simulate 0 [65] true] = ({ recorded := [(0, [65])] }, [true]) := rfl

/-- C73 (negation): a name with a zero byte is simulated under another name; a second name that begins with the same bytes is refused. -/
theorem C73_names_are_cut (type : BitVec 32) (h : busOf type ≠ none) (a b c : Bytes) (ha : Text a) (hbc : b ≠ c) :
    callAll {} [.simulate type (a ++ 0 :: b) true, .simulate type (a ++ 0 :: c) true]
      = ({ recorded := [(type, a ++ 0 :: c), (type, a ++ 0 :: b)], simulated := [(type, a)] }, [true, false]) := by
  have hc : ∀ x, cString (a ++ 0#8 :: x) = a := by
    intro x
    unfold cString
    rw [List.takeWhile_append_of_pos]
    · simp
    · intro y hy
      have : y ≠ 0 := fun e => ha (e ▸ hy)
      simpa using this
  have hne : ¬ (type, a ++ 0 :: c) ∈ [(type, a ++ 0 :: b)] := by
    simp [Ne.symm hbc]
  have ht : ¬ tableOf type = none := by rw [tableOf_eq]; exact h
  simp [callAll, call, ht, hc, Ne.symm hbc]

example : busOf 1 ≠ none ∧ Text [65] ∧ ([66] : Bytes) ≠ [67] := by unfold Text; decide

end SilKit.Props
