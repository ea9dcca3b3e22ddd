import Verif.Lemmas.CApiCheck

/-!
# C72: what the functions of the C interface do with their arguments

`api`: the bodies of all 146 functions; `signatures`: what the headers say about each of them. All theorems are about all arguments (which pointers are
null, which numbers stand where) and everything the library can do when it is called.
-/
namespace SilKit.Props

open CApi CApi.Spec HourglassValues

/-- The two tables are about the same functions, each once. -/
theorem C72_every_declared_function_is_there :
    api.map (·.name) = signatures.map (·.name) ∧ api.length = 146 :=
  ⟨same_names, by decide +kernel⟩

/-- A null pointer is refused with a text, before anything is done: in every function, for every pointer argument, whatever the other arguments are.
Missing: the handler of `DataSubscriber_Create` is not looked at; `ReturnCodeToString` gives no text. -/
theorem C72_null_arguments_are_refused_partial (g : Fn) (hg : g ∈ api) (f : Sig) (hf : f ∈ signatures) (hn : g.name = f.name)
    (i : Nat) (hi : i ∈ f.pointers)
    (h1 : ¬(f.name = "DataSubscriber_Create" ∧ i = 5)) (h2 : f.name ≠ "ReturnCodeToString")
    (a : Args) (s : Service) (hnull : a.null ⟨i, []⟩ = true) : Refused (invoke g a s) := by
  have hc := checked_all hg hf hn
  have hx : (g.name, i) ∉ nullUnchecked := by
    intro h
    simp only [nullUnchecked, List.mem_cons, Prod.mk.injEq, List.not_mem_nil, or_false] at h
    rw [hn] at h
    rcases h with h | h
    · exact h1 h
    · exact h2 h.1
  have := guards_refuse a s (.ptr ⟨i, []⟩) hnull g.body [] (by intro q hq; cases hq) (hc.nulls i hi hx)
  unfold Refused invoke
  rw [this]
  exact ⟨rfl, rfl, rfl, rfl⟩

/-- The functions that do not look at the identifier of a struct they are given. -/
def identifierIgnored : List String :=
  ["DataPublisher_Create", "DataSubscriber_Create", "EthernetController_SendFrame", "FlexrayController_UpdateTxBuffer",
   "Experimental_LinController_GetSlaveConfiguration", "Experimental_LinController_SendDynamicResponse",
   "Experimental_SystemController_SetWorkflowConfiguration", "RpcServer_Create", "RpcClient_Create"]

/-- A struct whose identifier is not one of this library is refused in the same way. Missing: nine functions; and any identifier of the library will do. -/
theorem C72_unidentified_structs_are_refused_partial (g : Fn) (hg : g ∈ api) (f : Sig) (hf : f ∈ signatures) (hn : g.name = f.name)
    (p : Place) (hp : p ∈ f.identified.map (·.1) ∨ p ∈ f.events.map (·.at_)) (h1 : f.name ∉ identifierIgnored)
    (a : Args) (s : Service) (hlt : a.num (p.dot "structHeader") < 2 ^ 64) (hid : ¬Identifier (a.num (p.dot "structHeader"))) :
    Refused (invoke g a s) := by
  have hc := checked_all hg hf hn
  have hx : (g.name, p.arg) ∉ headerUnchecked := by
    intro h
    apply h1
    rw [← hn]
    have : g.name ∈ headerUnchecked.map (·.1) := List.mem_map.mpr ⟨_, h, rfl⟩
    exact this
  have hf' : fails a (.header p) := by
    show idValid _ = false
    rw [Bool.eq_false_iff]
    exact fun h => hid (identifier_of_valid _ hlt h)
  have := guards_refuse a s (.header p) hf' g.body [] (by intro q hq; cases hq)
    (hc.headers p (by rcases hp with h | h; exact List.mem_append_left _ h; exact List.mem_append_right _ h) hx)
  unfold Refused invoke
  rw [this]
  exact ⟨rfl, rfl, rfl, rfl⟩

/-- Fitting arguments are never refused and never break anything: the library is called; if it returns, the function reports success, has stored all
its results and handlers, and no handler stored is null; if it throws, the code is the one of the exception, and nothing is stored. -/
theorem C72_fitting_arguments_reach_the_library (g : Fn) (hg : g ∈ api) (f : Sig) (hf : f ∈ signatures) (hn : g.name = f.name)
    (a : Args) (h : Fits a f) :
    invoke g a .done = ⟨.returned .success false, true, f.results, f.handlers⟩ ∧ (∀ p ∈ f.handlers, a.null p = false) ∧
    ∀ e, invoke g a (.threw e) = ⟨.returned (caught "" e "").2 (decide (e ≠ .other)), true, [], []⟩ := by
  have hc := checked_all hg hf hn
  refine ⟨good_invoke h g .done hc.good, ?_, fun e => good_invoke h g (.threw e) hc.good⟩
  intro p hp
  obtain ⟨_, _, hk⟩ := goodFn_shaped hc.good
  rw [← hk] at hp
  have hgood := hc.good
  unfold goodFn at hgood
  simp only [Bool.and_eq_true] at hgood
  unfold keeps at hp
  obtain ⟨x, hx, hxp⟩ := List.mem_filterMap.mp hp
  have hgx := List.all_eq_true.mp hgood.1.1.2 x hx
  cases x <;> simp only [reduceCtorEq, Option.some.injEq] at hxp
  rw [hxp] at hgx
  exact certain_null h p (List.contains_iff_mem.mp hgx)

/-- A function without struct arguments (116 of 146) is safe for all arguments whatsoever. -/
theorem C72_functions_without_structs_never_crash (g : Fn) (hg : g ∈ api) (f : Sig) (hf : f ∈ signatures) (hn : g.name = f.name)
    (h1 : f.identified = []) (h2 : f.events = []) (h3 : f.arrays = []) (h4 : f.textTo = none) (a : Args) (s : Service) :
    (invoke g a s).ended ≠ .ub :=
  careful_invoke g a s ((checked_all hg hf hn).safe h1 h2 h3 h4)

/-- Success is true, for all arguments: the library was called and returned, and all results and handlers have been stored.
Missing: the event producers of network simulators report success for events they do not know. -/
theorem C72_success_is_true_partial (g : Fn) (hg : g ∈ api) (f : Sig) (hf : f ∈ signatures) (hn : g.name = f.name)
    (h1 : f.events = []) (a : Args) (s : Service) (t : Bool) (h : (invoke g a s).ended = .returned .success t) :
    s = .done ∧ (invoke g a s).called = true ∧ (invoke g a s).written = f.results ∧ (invoke g a s).kept = f.handlers := by
  have hc := checked_all hg hf hn
  obtain ⟨hs, hw, hk⟩ := goodFn_shaped hc.good
  rcases invoke_cases g a s hs with h' | h' | ⟨h', _⟩ | ⟨h', x, hx, p, v, k, rfl⟩ | ⟨e, _, h'⟩ | ⟨rfl, h'⟩
  · rw [h'] at h; cases h
  · rw [h'] at h; cases h
  · rw [h'] at h; cases h
  · have := hc.events h1 _ hx; cases this
  · rw [h'] at h
    exfalso
    simp only [End.returned.injEq] at h
    exact absurd h.1 (by cases e <;> decide)
  · rw [h', hw, hk]; exact ⟨rfl, rfl, rfl, rfl⟩

/-- Failure changes nothing for the caller, for all functions and all arguments: no result and no handler is stored; and if the library threw nothing,
it was not called. -/
theorem C72_failure_stores_nothing (g : Fn) (hg : g ∈ api) (a : Args) (s : Service) (code : Code) (t : Bool)
    (h : (invoke g a s).ended = .returned code t) (hcode : code ≠ .success) :
    (invoke g a s).written = [] ∧ (invoke g a s).kept = [] ∧ (s = .done → (invoke g a s).called = false ∧ code = .badParameter) := by
  obtain ⟨f, hf, hn⟩ : ∃ f ∈ signatures, g.name = f.name := by
    have : g.name ∈ signatures.map (·.name) := by rw [← same_names]; exact List.mem_map.mpr ⟨g, hg, rfl⟩
    obtain ⟨f, hf, hn⟩ := List.mem_map.mp this
    exact ⟨f, hf, hn.symm⟩
  have hc := checked_all hg hf hn
  obtain ⟨hs, _, _⟩ := goodFn_shaped hc.good
  rcases invoke_cases g a s hs with h' | h' | ⟨h', _⟩ | ⟨h', _⟩ | ⟨e, he, h'⟩ | ⟨rfl, h'⟩
  · rw [h'] at h; cases h
  · rw [h'] at h ⊢; cases h; exact ⟨rfl, rfl, fun _ => ⟨rfl, rfl⟩⟩
  · rw [h'] at h ⊢; cases h; exact ⟨rfl, rfl, fun _ => ⟨rfl, rfl⟩⟩
  · rw [h'] at h; cases h; exact absurd rfl hcode
  · rw [h']; refine ⟨rfl, rfl, fun hd => ?_⟩; rw [he] at hd; cases hd
  · rw [h'] at h; cases h; exact absurd rfl hcode

/-- A failure comes with its own text (`SilKit_GetLastErrorString`), for all arguments. Missing: unknown commands and codes
(`FlexrayController_ExecuteCmd`, `ReturnCodeToString`), and exceptions that are not derived from `std::exception`. -/
theorem C72_failures_have_texts_partial (g : Fn) (hg : g ∈ api) (f : Sig) (hf : f ∈ signatures) (hn : g.name = f.name)
    (h1 : f.choices = []) (a : Args) (s : Service) (h2 : s ≠ .threw .other) (code : Code) (t : Bool)
    (h : (invoke g a s).ended = .returned code t) (hcode : code ≠ .success) : t = true := by
  have hc := checked_all hg hf hn
  obtain ⟨hs, _, _⟩ := goodFn_shaped hc.good
  rcases invoke_cases g a s hs with h' | h' | ⟨h', x, hx, hx'⟩ | ⟨h', _⟩ | ⟨e, he, h'⟩ | ⟨rfl, h'⟩
  · rw [h'] at h; cases h
  · rw [h'] at h; cases h; rfl
  · have := hc.silent h1 x hx
    rcases hx' with ⟨p, rfl⟩ | ⟨p, v, rfl⟩ <;> cases this
  · rw [h'] at h; cases h; exact absurd rfl hcode
  · rw [h'] at h
    simp only [End.returned.injEq] at h
    rw [← h.2, decide_eq_true_eq]
    rintro rfl
    exact h2 he
  · rw [h'] at h; cases h; exact absurd rfl hcode

/-! ## The hypotheses are met -/

/-- Every function has fitting arguments. -/
theorem C72_every_function_can_be_used (f : Sig) (hf : f ∈ signatures) : ∃ a, Fits a f := ⟨_, argsFor_fits hf⟩

/-- `SilKit_CanController_SendFrame(controller, nullptr, …)` -/
example : fnCanControllerSendFrame ∈ api ∧
    (invoke fnCanControllerSendFrame ⟨fun p => p == ⟨1, []⟩, fun _ => 0, fun _ _ _ => false⟩ .done).ended = .returned .badParameter true := by
  exact ⟨by simp [api], by decide +kernel⟩

/-- A frame with an identifier, and one whose header was never set. -/
example : (invoke fnCanControllerSendFrame
      ⟨fun _ => false, fun p => if p == ⟨1, ["structHeader"]⟩ then tag 1 1 1 else 8, fun _ _ _ => false⟩ .done)
        = ⟨.returned .success false, true, [], []⟩ ∧
    (invoke fnCanControllerSendFrame ⟨fun _ => false, fun _ => 8, fun _ _ _ => false⟩ .done).ended = .returned .badParameter true ∧
    Identifier (tag 1 1 1) ∧ ¬Identifier 8 := by
  refine ⟨by decide +kernel, by decide +kernel, ⟨1, 1, 1, 0, by decide, by decide, by decide, by decide, by decide, by decide, by decide, rfl⟩, ?_⟩
  rintro ⟨s, d, v, r, _, _, _, _, _, _, _, h⟩
  unfold tag at h; omega

/-- 116 functions have no structs, 142 no events, 144 no enumerators to check. -/
example : (signatures.filter (fun f => f.identified.isEmpty && f.events.isEmpty && f.arrays.isEmpty && f.textTo.isNone)).length = 116 ∧
    (signatures.filter (·.events.isEmpty)).length = 142 ∧ (signatures.filter (·.choices.isEmpty)).length = 144 := by decide +kernel

/-! ## Where the functions are weaker -/

/-- Not refused: a subscriber without handler. Everything else fits, the function succeeds, and the null pointer is kept for the first message. -/
theorem C72_null_handlers_are_kept_by_subscribers_violated :
    ∃ f ∈ signatures, f.name = fnDataSubscriberCreate.name ∧ 5 ∈ f.pointers ∧
      (argsFor f [⟨5, []⟩]).null ⟨5, []⟩ = true ∧
      invoke fnDataSubscriberCreate (argsFor f [⟨5, []⟩]) .done = ⟨.returned .success false, true, [⟨0, []⟩], [⟨5, []⟩]⟩ := by decide +kernel

/-- Not refused: structs without identifier, in nine functions (all pointers fit, all numbers are 0). -/
theorem C72_unidentified_structs_are_used_violated : ∀ n ∈ identifierIgnored, ∃ g ∈ api, g.name = n ∧
    (∃ f ∈ signatures, f.name = n ∧ f.identified ≠ []) ∧
    (invoke g ⟨fun _ => false, fun _ => 0, fun _ _ _ => false⟩ .done).ended = .returned .success false := by decide +kernel

/-- Not told apart: the identifier of any other struct, of any other version, passes the check of `CanController_SendFrame`, and what it
identifies is read as a CAN frame. -/
theorem C72_other_structs_are_read_as_frames_violated (id : Nat) (h : Identifier id) (hne : id ≠ tag 1 1 1) :
    (invoke fnCanControllerSendFrame
      ⟨fun _ => false, fun p => if p == ⟨1, ["structHeader"]⟩ then id else 1, fun _ _ _ => false⟩ .done).ended = .ub := by
  obtain ⟨s, d, v, r, h1, h2, h3, h4, h5, h6, h7, rfl⟩ := h
  have hv := valid_of_tag s d v r h1 h2 h3 h4 h5 h6 h7
  have hm : idMake 1 1 1 = tag 1 1 1 := by decide +kernel
  refine sendFrame_other _ hv ?_
  rw [hm, beq_eq_false_iff_ne]
  exact hne

/-- Followed without a look: these pointers inside of arguments. Everything else fits; with a null pointer there the call is undefined. -/
def followed : List (String × Place) :=
  [("DataPublisher_Create", ⟨3, ["topic"]⟩), ("DataPublisher_Create", ⟨3, ["mediaType"]⟩), ("DataPublisher_Create", ⟨3, ["labelList.labels"]⟩),
   ("DataSubscriber_Create", ⟨3, ["topic"]⟩), ("RpcServer_Create", ⟨3, ["functionName"]⟩), ("RpcClient_Create", ⟨3, ["mediaType"]⟩),
   ("DataPublisher_Publish", ⟨1, ["data"]⟩), ("CanController_SendFrame", ⟨1, ["data.data"]⟩), ("EthernetController_SendFrame", ⟨1, ["raw.data"]⟩),
   ("RpcClient_Call", ⟨1, ["data"]⟩), ("RpcServer_SubmitResult", ⟨2, ["data"]⟩),
   ("LinController_Init", ⟨1, ["frameResponses"]⟩), ("LinController_SetFrameResponse", ⟨1, ["frame"]⟩),
   ("FlexrayController_Configure", ⟨1, ["bufferConfigs"]⟩),
   ("Experimental_SystemController_SetWorkflowConfiguration", ⟨1, ["requiredParticipantNames"]⟩),
   ("Experimental_CanEventProducer_Produce", ⟨2, ["controllerDescriptors"]⟩),
   ("Experimental_EthernetEventProducer_Produce", ⟨1, ["ethernetFrame"]⟩), ("Experimental_FlexRayEventProducer_Produce", ⟨1, ["frame"]⟩),
   ("Experimental_LinEventProducer_Produce", ⟨1, ["frame"]⟩), ("ParticipantConfiguration_ToJson", ⟨1, ["*"]⟩)]

theorem C72_null_members_are_followed_violated : ∀ x ∈ followed, ∃ g ∈ api, g.name = x.1 ∧ ∃ f ∈ signatures, f.name = x.1 ∧
    (∀ i ∈ f.pointers, (argsFor f [x.2]).null ⟨i, []⟩ = false) ∧ (invoke g (argsFor f [x.2]) .done).ended = .ub := by decide +kernel

/-- Reported as success: an event no case is for is dropped. For all its identifiers, here for CAN: nothing is sent. -/
theorem C72_unknown_events_are_dropped_with_success_violated (id : Nat) (h : Identifier id) (hk : datatypeOf id ∉ [2, 3, 4, 5]) (s : Service) :
    invoke fnExperimentalCanEventProducerProduce
      ⟨fun _ => false, fun p => if p == ⟨1, ["structHeader"]⟩ then id else if p == ⟨2, ["structHeader"]⟩ then tag 8 1 1 else 1, fun _ _ _ => false⟩ s
        = ⟨.returned .success false, false, [], []⟩ := by
  obtain ⟨sv, d, v, r, h1, h2, h3, h4, h5, h6, h7, rfl⟩ := h
  have hv := valid_of_tag sv d v r h1 h2 h3 h4 h5 h6 h7
  have hr : idValid (tag 8 1 1) = true := by decide +kernel
  refine produce_other _ _ hv hr ?_ s
  simp only [List.mem_cons, List.not_mem_nil, or_false, not_or] at hk
  omega

/-- Told apart by half of the identifier only: an Ethernet event (its state has changed: data type 3) given to the CAN producer is read as a CAN frame. -/
theorem C72_events_of_other_buses_are_read_violated :
    (invoke fnExperimentalCanEventProducerProduce
      ⟨fun _ => false, fun p => if p == ⟨1, ["structHeader"]⟩ then tag 2 3 1 else if p == ⟨2, ["structHeader"]⟩ then tag 8 1 1 else 1,
        fun _ _ _ => false⟩ .done).ended = .ub := by decide +kernel

/-- Without a text of their own: for every command that is none, the error string stays what it was. -/
theorem C72_unknown_commands_have_no_text_violated (cmd : Nat) (h : 6 ≤ cmd) (s : Service) :
    invoke fnFlexrayControllerExecuteCmd ⟨fun _ => false, fun _ => cmd, fun _ _ _ => false⟩ s = ⟨.returned .badParameter false, false, [], []⟩ := by
  have h0 : ¬(cmd = 0 ∨ cmd = 1 ∨ cmd = 2 ∨ cmd = 3 ∨ cmd = 4 ∨ cmd = 5) := by omega
  simp [invoke, fnFlexrayControllerExecuteCmd, List.foldl, step, exec, reach, live, Place.before, h0, finish]

end SilKit.Props
