import Verif.Model.CApi

/-!
# What the headers of the C interface say about arguments

Written from SilKit/include/silkit/capi/*.h alone, for every function that returns a `SilKit_ReturnCode`: which arguments are pointers that must not be
null, which of them are results and handlers, which are structs that carry an identifier and which one, and what the structs need: members that point to
something, arrays with their lengths, `SilKit_Bool`s, enumerators. Not pointers in this sense: `void*` contexts, and the text buffer of `ToJson`.
-/
namespace SilKit.CApi.Spec

/-- The identifier that `SilKit_Struct_Init` writes: the letters S and K, the service, the data type, the version; a byte each. -/
def tag (service datatype version : Nat) : Nat :=
  0x534B000000000000 + service * 0x10000000000 + datatype * 0x100000000 + version * 0x1000000

/-- A number that can be an identifier of this library at all. -/
def Identifier (id : Nat) : Prop :=
  ∃ service datatype version rest, 1 ≤ service ∧ service ≤ 8 ∧ 1 ≤ datatype ∧ datatype ≤ 255 ∧ 1 ≤ version ∧ version ≤ 255 ∧ rest < 2 ^ 24 ∧
    id = tag service datatype version + rest

/-- An array: its place, its length, the pointers in its elements. -/
structure Elements where
  at_ : Place
  length : Place
  pointers : List String
deriving Repr, DecidableEq

/-- An event given as its header: its place, the identifiers it may have, the pointers that events with some of the identifiers have. -/
structure AnyEvent where
  at_ : Place
  identifiers : List Nat
  pointers : List (Place × List Nat)
deriving Repr, DecidableEq

/-- A function. -/
structure Sig where
  name : String
  /-- The arguments that are pointers. -/
  pointers : List Nat
  /-- Where results are stored. -/
  results : List Place := []
  /-- Function pointers that are called later. -/
  handlers : List Place := []
  /-- Structs with an identifier. -/
  identified : List (Place × Nat) := []
  /-- Members that point to something. -/
  members : List Place := []
  arrays : List Elements := []
  bools : List Place := []
  /-- If the first is set, the second points to something. -/
  given : List (Place × Place) := []
  /-- Enumerators: less than this. -/
  choices : List (Place × Nat) := []
  events : List AnyEvent := []
  /-- A buffer for text, and where its size is. -/
  textTo : Option Place := none
  textSize : Option Place := none
deriving Repr

/-- Arguments as the header asks for. -/
structure Fits (a : Args) (f : Sig) : Prop where
  pointers : ∀ i ∈ f.pointers, a.null ⟨i, []⟩ = false
  members : ∀ p ∈ f.members, a.null p = false
  identified : ∀ x ∈ f.identified, a.num (x.1.dot "structHeader") = x.2
  arrays : ∀ x ∈ f.arrays, 0 < a.num x.length →
    a.null x.at_ = false ∧ ∀ i, i < a.num x.length → ∀ m ∈ x.pointers, a.elemNull x.at_ i m = false
  bools : ∀ p ∈ f.bools, a.num p = 0 ∨ a.num p = 1
  given : ∀ x ∈ f.given, a.num x.1 ≠ 0 → a.null x.2 = false
  choices : ∀ x ∈ f.choices, a.num x.1 < x.2
  events : ∀ x ∈ f.events, a.num (x.at_.dot "structHeader") ∈ x.identifiers ∧
    ∀ y ∈ x.pointers, a.num (x.at_.dot "structHeader") ∈ y.2 → a.null y.1 = false
  text : ∀ p n, f.textTo = some p → f.textSize = some n → a.null p = false → 0 < a.num n → a.null (p.dot "*") = false

/-- The call was refused: it says so, with a text, and nothing was done: the library was not called, no result and no handler stored. -/
def Refused (c : Call) : Prop :=
  c.ended = .returned .badParameter true ∧ c.called = false ∧ c.written = [] ∧ c.kept = []

/-- The functions, in the order of the source files. -/
def signatures : List Sig :=
  [
    -- Can.h:198
    { name := "CanController_Create", pointers := [0, 1, 2, 3], results := [⟨0, []⟩] },
    -- Can.h:329
    { name := "CanController_AddFrameHandler", pointers := [0, 2, 4], results := [⟨4, []⟩], handlers := [⟨2, []⟩] },
    -- Can.h:346
    { name := "CanController_RemoveFrameHandler", pointers := [0] },
    -- Can.h:299
    { name := "CanController_AddFrameTransmitHandler", pointers := [0, 2, 4], results := [⟨4, []⟩], handlers := [⟨2, []⟩] },
    -- Can.h:312
    { name := "CanController_RemoveFrameTransmitHandler", pointers := [0] },
    -- Can.h:364
    { name := "CanController_AddStateChangeHandler", pointers := [0, 2, 3], results := [⟨3, []⟩], handlers := [⟨2, []⟩] },
    -- Can.h:377
    { name := "CanController_RemoveStateChangeHandler", pointers := [0] },
    -- Can.h:395
    { name := "CanController_AddErrorStateChangeHandler", pointers := [0, 2, 3], results := [⟨3, []⟩], handlers := [⟨2, []⟩] },
    -- Can.h:408
    { name := "CanController_RemoveErrorStateChangeHandler", pointers := [0] },
    -- Can.h:278
    { name := "CanController_SetBaudRate", pointers := [0] },
    -- Can.h:255
    { name := "CanController_SendFrame", pointers := [0, 1], identified := [(⟨1, []⟩, tag 1 1 1)],
      arrays := [⟨⟨1, ["data.data"]⟩, ⟨1, ["data.size"]⟩, []⟩] },
    -- Can.h:210
    { name := "CanController_Start", pointers := [0] },
    -- Can.h:218
    { name := "CanController_Stop", pointers := [0] },
    -- Can.h:231
    { name := "CanController_Reset", pointers := [0] },
    -- Can.h:239
    { name := "CanController_Sleep", pointers := [0] },
    -- DataPubSub.h:56
    { name := "DataPublisher_Create", pointers := [0, 1, 2, 3], results := [⟨0, []⟩], identified := [(⟨3, []⟩, tag 5 2 1)],
      members := [⟨3, ["topic"]⟩, ⟨3, ["mediaType"]⟩], arrays := [⟨⟨3, ["labelList.labels"]⟩, ⟨3, ["labelList.numLabels"]⟩, ["key", "value"]⟩] },
    -- DataPubSub.h:88
    { name := "DataPublisher_Publish", pointers := [0, 1], arrays := [⟨⟨1, ["data"]⟩, ⟨1, ["size"]⟩, []⟩] },
    -- DataPubSub.h:74
    { name := "DataSubscriber_Create", pointers := [0, 1, 2, 3, 5], results := [⟨0, []⟩], handlers := [⟨5, []⟩],
      identified := [(⟨3, []⟩, tag 5 2 1)], members := [⟨3, ["topic"]⟩, ⟨3, ["mediaType"]⟩],
      arrays := [⟨⟨3, ["labelList.labels"]⟩, ⟨3, ["labelList.numLabels"]⟩, ["key", "value"]⟩] },
    -- DataPubSub.h:99
    { name := "DataSubscriber_SetDataMessageHandler", pointers := [0, 2], handlers := [⟨2, []⟩] },
    -- Ethernet.h:140
    { name := "EthernetController_Create", pointers := [0, 1, 2, 3], results := [⟨0, []⟩] },
    -- Ethernet.h:158
    { name := "EthernetController_Activate", pointers := [0] },
    -- Ethernet.h:172
    { name := "EthernetController_Deactivate", pointers := [0] },
    -- Ethernet.h:189
    { name := "EthernetController_AddFrameHandler", pointers := [0, 2, 4], results := [⟨4, []⟩], handlers := [⟨2, []⟩] },
    -- Ethernet.h:204
    { name := "EthernetController_RemoveFrameHandler", pointers := [0] },
    -- Ethernet.h:228
    { name := "EthernetController_AddFrameTransmitHandler", pointers := [0, 2, 4], results := [⟨4, []⟩], handlers := [⟨2, []⟩] },
    -- Ethernet.h:241
    { name := "EthernetController_RemoveFrameTransmitHandler", pointers := [0] },
    -- Ethernet.h:263
    { name := "EthernetController_AddStateChangeHandler", pointers := [0, 2, 3], results := [⟨3, []⟩], handlers := [⟨2, []⟩] },
    -- Ethernet.h:276
    { name := "EthernetController_RemoveStateChangeHandler", pointers := [0] },
    -- Ethernet.h:296
    { name := "EthernetController_AddBitrateChangeHandler", pointers := [0, 2, 3], results := [⟨3, []⟩], handlers := [⟨2, []⟩] },
    -- Ethernet.h:308
    { name := "EthernetController_RemoveBitrateChangeHandler", pointers := [0] },
    -- Ethernet.h:334
    { name := "EthernetController_SendFrame", pointers := [0, 1], identified := [(⟨1, []⟩, tag 2 5 1)],
      arrays := [⟨⟨1, ["raw.data"]⟩, ⟨1, ["raw.size"]⟩, []⟩] },
    -- Flexray.h:570
    { name := "FlexrayController_Create", pointers := [0, 1, 2, 3], results := [⟨0, []⟩] },
    -- Flexray.h:579
    { name := "FlexrayController_Configure", pointers := [0, 1],
      identified := [(⟨1, []⟩, tag 3 9 1), (⟨1, ["clusterParams"]⟩, tag 3 10 1), (⟨1, ["nodeParams"]⟩, tag 3 11 2)],
      members := [⟨1, ["clusterParams"]⟩, ⟨1, ["nodeParams"]⟩], arrays := [⟨⟨1, ["bufferConfigs"]⟩, ⟨1, ["numBufferConfigs"]⟩, []⟩] },
    -- Flexray.h:586
    { name := "FlexrayController_ReconfigureTxBuffer", pointers := [0, 2], identified := [(⟨2, []⟩, tag 3 15 1)],
      bools := [⟨2, ["hasPayloadPreambleIndicator"]⟩] },
    -- Flexray.h:601
    { name := "FlexrayController_UpdateTxBuffer", pointers := [0, 1], identified := [(⟨1, []⟩, tag 3 16 1)],
      bools := [⟨1, ["payloadDataValid"]⟩], given := [(⟨1, ["payloadDataValid"]⟩, ⟨1, ["payload.data"]⟩)] },
    -- Flexray.h:608
    { name := "FlexrayController_ExecuteCmd", pointers := [0], choices := [(⟨1, []⟩, 6)] },
    -- Flexray.h:621
    { name := "FlexrayController_AddFrameHandler", pointers := [0, 2, 3], results := [⟨3, []⟩], handlers := [⟨2, []⟩] },
    -- Flexray.h:636
    { name := "FlexrayController_RemoveFrameHandler", pointers := [0] },
    -- Flexray.h:649
    { name := "FlexrayController_AddFrameTransmitHandler", pointers := [0, 2, 3], results := [⟨3, []⟩], handlers := [⟨2, []⟩] },
    -- Flexray.h:662
    { name := "FlexrayController_RemoveFrameTransmitHandler", pointers := [0] },
    -- Flexray.h:675
    { name := "FlexrayController_AddWakeupHandler", pointers := [0, 2, 3], results := [⟨3, []⟩], handlers := [⟨2, []⟩] },
    -- Flexray.h:689
    { name := "FlexrayController_RemoveWakeupHandler", pointers := [0] },
    -- Flexray.h:702
    { name := "FlexrayController_AddPocStatusHandler", pointers := [0, 2, 3], results := [⟨3, []⟩], handlers := [⟨2, []⟩] },
    -- Flexray.h:715
    { name := "FlexrayController_RemovePocStatusHandler", pointers := [0] },
    -- Flexray.h:731
    { name := "FlexrayController_AddSymbolHandler", pointers := [0, 2, 3], results := [⟨3, []⟩], handlers := [⟨2, []⟩] },
    -- Flexray.h:745
    { name := "FlexrayController_RemoveSymbolHandler", pointers := [0] },
    -- Flexray.h:762
    { name := "FlexrayController_AddSymbolTransmitHandler", pointers := [0, 2, 3], results := [⟨3, []⟩], handlers := [⟨2, []⟩] },
    -- Flexray.h:775
    { name := "FlexrayController_RemoveSymbolTransmitHandler", pointers := [0] },
    -- Flexray.h:788
    { name := "FlexrayController_AddCycleStartHandler", pointers := [0, 2, 3], results := [⟨3, []⟩], handlers := [⟨2, []⟩] },
    -- Flexray.h:802
    { name := "FlexrayController_RemoveCycleStartHandler", pointers := [0] },
    -- Lin.h:351
    { name := "LinController_Create", pointers := [0, 1, 2, 3], results := [⟨0, []⟩] },
    -- Lin.h:376
    { name := "LinController_Init", pointers := [0, 1], identified := [(⟨1, []⟩, tag 4 3 1)],
      arrays := [⟨⟨1, ["frameResponses"]⟩, ⟨1, ["numFrameResponses"]⟩, ["frame"]⟩] },
    -- Lin.h:405
    { name := "LinController_SetFrameResponse", pointers := [0, 1], identified := [(⟨1, []⟩, tag 4 2 1)], members := [⟨1, ["frame"]⟩] },
    -- Lin.h:431
    { name := "LinController_Status", pointers := [0, 1], results := [⟨1, []⟩] },
    -- Lin.h:453
    { name := "LinController_SendFrame", pointers := [0, 1], identified := [(⟨1, []⟩, tag 4 1 1)] },
    -- Lin.h:469
    { name := "LinController_SendFrameHeader", pointers := [0] },
    -- Lin.h:482
    { name := "LinController_UpdateTxBuffer", pointers := [0, 1], identified := [(⟨1, []⟩, tag 4 1 1)] },
    -- Lin.h:495
    { name := "LinController_GoToSleep", pointers := [0] },
    -- Lin.h:506
    { name := "LinController_GoToSleepInternal", pointers := [0] },
    -- Lin.h:517
    { name := "LinController_Wakeup", pointers := [0] },
    -- Lin.h:528
    { name := "LinController_WakeupInternal", pointers := [0] },
    -- Lin.h:540
    { name := "Experimental_LinController_GetSlaveConfiguration", pointers := [0, 1], results := [⟨1, []⟩],
      identified := [(⟨1, []⟩, tag 4 8 1)] },
    -- Lin.h:558
    { name := "LinController_AddFrameStatusHandler", pointers := [0, 2, 3], results := [⟨3, []⟩], handlers := [⟨2, []⟩] },
    -- Lin.h:573
    { name := "LinController_RemoveFrameStatusHandler", pointers := [0] },
    -- Lin.h:600
    { name := "LinController_AddGoToSleepHandler", pointers := [0, 2, 3], results := [⟨3, []⟩], handlers := [⟨2, []⟩] },
    -- Lin.h:617
    { name := "LinController_RemoveGoToSleepHandler", pointers := [0] },
    -- Lin.h:636
    { name := "LinController_AddWakeupHandler", pointers := [0, 2, 3], results := [⟨3, []⟩], handlers := [⟨2, []⟩] },
    -- Lin.h:651
    { name := "LinController_RemoveWakeupHandler", pointers := [0] },
    -- Lin.h:673
    { name := "Experimental_LinController_AddLinSlaveConfigurationHandler", pointers := [0, 2, 3], results := [⟨3, []⟩], handlers := [⟨2, []⟩] },
    -- Lin.h:688
    { name := "Experimental_LinController_RemoveLinSlaveConfigurationHandler", pointers := [0] },
    -- Lin.h:393
    { name := "Experimental_LinController_InitDynamic", pointers := [0, 1], identified := [(⟨1, []⟩, tag 4 9 1)] },
    -- Lin.h:706
    { name := "Experimental_LinController_AddFrameHeaderHandler", pointers := [0, 2, 3], results := [⟨3, []⟩], handlers := [⟨2, []⟩] },
    -- Lin.h:714
    { name := "Experimental_LinController_RemoveFrameHeaderHandler", pointers := [0] },
    -- Lin.h:419
    { name := "Experimental_LinController_SendDynamicResponse", pointers := [0, 1], identified := [(⟨1, []⟩, tag 4 1 1)] },
    -- Logger.h:34
    { name := "Logger_Log", pointers := [0, 2] },
    -- Logger.h:45
    { name := "Logger_GetLogLevel", pointers := [0, 1], results := [⟨1, []⟩] },
    -- NetworkSimulator.h:268
    { name := "Experimental_NetworkSimulator_Create", pointers := [0, 1], results := [⟨0, []⟩] },
    -- NetworkSimulator.h:273
    { name := "Experimental_NetworkSimulator_SimulateNetwork", pointers := [0, 1, 3, 4],
      handlers := [⟨4, ["ProvideSimulatedController"]⟩, ⟨4, ["SimulatedControllerRemoved"]⟩, ⟨4, ["SetEventProducer"]⟩],
      identified := [(⟨4, []⟩, tag 8 2 1)],
      members := [⟨4, ["ProvideSimulatedController"]⟩, ⟨4, ["SimulatedControllerRemoved"]⟩, ⟨4, ["SetEventProducer"]⟩] },
    -- NetworkSimulator.h:282
    { name := "Experimental_NetworkSimulator_Start", pointers := [0] },
    -- EventProducer.h:44
    { name := "Experimental_CanEventProducer_Produce", pointers := [0, 1, 2], identified := [(⟨2, []⟩, tag 8 1 1)],
      arrays := [⟨⟨2, ["controllerDescriptors"]⟩, ⟨2, ["numReceivers"]⟩, []⟩],
      events := [⟨⟨1, []⟩, [tag 1 2 2, tag 1 3 1, tag 1 4 1, tag 1 5 1], [(⟨1, ["frame"]⟩, [tag 1 3 1])]⟩] },
    -- EventProducer.h:55
    { name := "Experimental_FlexRayEventProducer_Produce", pointers := [0, 1, 2], identified := [(⟨2, []⟩, tag 8 1 1)],
      arrays := [⟨⟨2, ["controllerDescriptors"]⟩, ⟨2, ["numReceivers"]⟩, []⟩],
      events := [⟨⟨1, []⟩, [tag 3 1 1, tag 3 2 1, tag 3 3 1, tag 3 5 1, tag 3 6 1, tag 3 7 1], [(⟨1, ["frame"]⟩, [tag 3 1 1, tag 3 2 1])]⟩] },
    -- EventProducer.h:66
    { name := "Experimental_EthernetEventProducer_Produce", pointers := [0, 1, 2], identified := [(⟨2, []⟩, tag 8 1 1)],
      arrays := [⟨⟨2, ["controllerDescriptors"]⟩, ⟨2, ["numReceivers"]⟩, []⟩],
      events := [⟨⟨1, []⟩, [tag 2 1 1, tag 2 2 1, tag 2 3 1, tag 2 4 1], [(⟨1, ["ethernetFrame"]⟩, [tag 2 1 1])]⟩] },
    -- EventProducer.h:78
    { name := "Experimental_LinEventProducer_Produce", pointers := [0, 1, 2], identified := [(⟨2, []⟩, tag 8 1 1)],
      arrays := [⟨⟨2, ["controllerDescriptors"]⟩, ⟨2, ["numReceivers"]⟩, []⟩],
      events := [⟨⟨1, []⟩, [tag 4 4 1, tag 4 6 1, tag 4 11 1], [(⟨1, ["frame"]⟩, [tag 4 4 1])]⟩] },
    -- Orchestration.h:544
    { name := "SystemMonitor_Create", pointers := [0, 1], results := [⟨0, []⟩] },
    -- Orchestration.h:145
    { name := "LifecycleService_Create", pointers := [0, 1, 2], results := [⟨0, []⟩], identified := [(⟨2, []⟩, tag 7 2 1)] },
    -- Orchestration.h:449
    { name := "TimeSyncService_Create", pointers := [0, 1], results := [⟨0, []⟩] },
    -- Orchestration.h:173
    { name := "LifecycleService_SetCommunicationReadyHandler", pointers := [0, 2], handlers := [⟨2, []⟩] },
    -- Orchestration.h:195
    { name := "LifecycleService_SetCommunicationReadyHandlerAsync", pointers := [0, 2], handlers := [⟨2, []⟩] },
    -- Orchestration.h:209
    { name := "LifecycleService_CompleteCommunicationReadyHandlerAsync", pointers := [0] },
    -- Orchestration.h:239
    { name := "LifecycleService_SetStartingHandler", pointers := [0, 2], handlers := [⟨2, []⟩] },
    -- Orchestration.h:269
    { name := "LifecycleService_SetStopHandler", pointers := [0, 2], handlers := [⟨2, []⟩] },
    -- Orchestration.h:296
    { name := "LifecycleService_SetShutdownHandler", pointers := [0, 2], handlers := [⟨2, []⟩] },
    -- Orchestration.h:318
    { name := "LifecycleService_SetAbortHandler", pointers := [0, 2], handlers := [⟨2, []⟩] },
    -- Orchestration.h:328
    { name := "LifecycleService_StartLifecycle", pointers := [0] },
    -- Orchestration.h:342
    { name := "LifecycleService_WaitForLifecycleToComplete", pointers := [0, 1], results := [⟨1, []⟩] },
    -- Orchestration.h:356
    { name := "LifecycleService_ReportError", pointers := [0, 1] },
    -- Orchestration.h:419
    { name := "LifecycleService_State", pointers := [0, 1], results := [⟨0, []⟩] },
    -- Orchestration.h:430
    { name := "LifecycleService_Status", pointers := [0, 1], results := [⟨0, []⟩], identified := [(⟨0, []⟩, tag 7 1 1)] },
    -- Orchestration.h:475
    { name := "TimeSyncService_SetSimulationStepHandler", pointers := [0, 2], handlers := [⟨2, []⟩] },
    -- Orchestration.h:501
    { name := "TimeSyncService_SetSimulationStepHandlerAsync", pointers := [0, 2], handlers := [⟨2, []⟩] },
    -- Orchestration.h:513
    { name := "TimeSyncService_CompleteSimulationStep", pointers := [0] },
    -- Orchestration.h:524
    { name := "TimeSyncService_Now", pointers := [0, 1], results := [⟨1, []⟩] },
    -- Orchestration.h:375
    { name := "LifecycleService_Pause", pointers := [0, 1] },
    -- Orchestration.h:386
    { name := "LifecycleService_Continue", pointers := [0] },
    -- Orchestration.h:408
    { name := "LifecycleService_Stop", pointers := [0, 1] },
    -- Orchestration.h:552
    { name := "SystemMonitor_GetParticipantStatus", pointers := [0, 1, 2], results := [⟨0, []⟩], identified := [(⟨0, []⟩, tag 7 1 1)] },
    -- Orchestration.h:559
    { name := "SystemMonitor_GetSystemState", pointers := [0, 1], results := [⟨0, []⟩] },
    -- Orchestration.h:578
    { name := "SystemMonitor_AddSystemStateHandler", pointers := [0, 2, 3], results := [⟨3, []⟩], handlers := [⟨2, []⟩] },
    -- Orchestration.h:592
    { name := "SystemMonitor_RemoveSystemStateHandler", pointers := [0] },
    -- Orchestration.h:612
    { name := "SystemMonitor_AddParticipantStatusHandler", pointers := [0, 2, 3], results := [⟨3, []⟩], handlers := [⟨2, []⟩] },
    -- Orchestration.h:625
    { name := "SystemMonitor_RemoveParticipantStatusHandler", pointers := [0] },
    -- Orchestration.h:652
    { name := "SystemMonitor_SetParticipantConnectedHandler", pointers := [0, 2], handlers := [⟨2, []⟩] },
    -- Orchestration.h:671
    { name := "SystemMonitor_SetParticipantDisconnectedHandler", pointers := [0, 2], handlers := [⟨2, []⟩] },
    -- Orchestration.h:683
    { name := "SystemMonitor_IsParticipantConnected", pointers := [0, 1, 2], results := [⟨2, []⟩] },
    -- Orchestration.h:698
    { name := "Experimental_SystemController_Create", pointers := [0, 1], results := [⟨0, []⟩] },
    -- Orchestration.h:716
    { name := "Experimental_SystemController_AbortSimulation", pointers := [0] },
    -- Orchestration.h:737
    { name := "Experimental_SystemController_SetWorkflowConfiguration", pointers := [0, 1], identified := [(⟨1, []⟩, tag 7 3 3)],
      members := [⟨1, ["requiredParticipantNames"]⟩],
      arrays := [⟨⟨1, ["requiredParticipantNames", "strings"]⟩, ⟨1, ["requiredParticipantNames", "numStrings"]⟩, ["*"]⟩] },
    -- Orchestration.h:767
    { name := "Experimental_TimeSyncService_AddOtherSimulationStepsCompletedHandler", pointers := [0, 2, 3], results := [⟨3, []⟩],
      handlers := [⟨2, []⟩] },
    -- Orchestration.h:780
    { name := "Experimental_TimeSyncService_RemoveOtherSimulationStepsCompletedHandler", pointers := [0] },
    -- Participant.h:32
    { name := "Participant_Create", pointers := [0, 1, 2, 3], results := [⟨0, []⟩] },
    -- Participant.h:47
    { name := "Participant_Destroy", pointers := [0] },
    -- Participant.h:60
    { name := "Participant_GetLogger", pointers := [0, 1], results := [⟨0, []⟩] },
    -- SilKit.h:58
    { name := "ParticipantConfiguration_FromString", pointers := [0, 1], results := [⟨0, []⟩] },
    -- SilKit.h:72
    { name := "ParticipantConfiguration_FromFile", pointers := [0, 1], results := [⟨0, []⟩] },
    -- SilKit.h:95
    { name := "ParticipantConfiguration_ToJson", pointers := [0, 2], results := [⟨2, []⟩], textTo := some ⟨1, []⟩, textSize := some ⟨2, []⟩ },
    -- SilKit.h:83
    { name := "ParticipantConfiguration_Destroy", pointers := [0] },
    -- Rpc.h:98
    { name := "RpcServer_Create", pointers := [0, 1, 2, 3, 5], results := [⟨0, []⟩], handlers := [⟨5, []⟩],
      identified := [(⟨3, []⟩, tag 6 3 1)], members := [⟨3, ["functionName"]⟩, ⟨3, ["mediaType"]⟩],
      arrays := [⟨⟨3, ["labelList.labels"]⟩, ⟨3, ["labelList.numLabels"]⟩, ["key", "value"]⟩] },
    -- Rpc.h:115
    { name := "RpcServer_SubmitResult", pointers := [0, 1, 2], arrays := [⟨⟨2, ["data"]⟩, ⟨2, ["size"]⟩, []⟩] },
    -- Rpc.h:128
    { name := "RpcServer_SetCallHandler", pointers := [0, 2], handlers := [⟨2, []⟩] },
    -- Rpc.h:142
    { name := "RpcClient_Create", pointers := [0, 1, 2, 3, 5], results := [⟨0, []⟩], handlers := [⟨5, []⟩],
      identified := [(⟨3, []⟩, tag 6 3 1)], members := [⟨3, ["functionName"]⟩, ⟨3, ["mediaType"]⟩],
      arrays := [⟨⟨3, ["labelList.labels"]⟩, ⟨3, ["labelList.numLabels"]⟩, ["key", "value"]⟩] },
    -- Rpc.h:159
    { name := "RpcClient_Call", pointers := [0, 1], arrays := [⟨⟨1, ["data"]⟩, ⟨1, ["size"]⟩, []⟩] },
    -- Rpc.h:179
    { name := "RpcClient_CallWithTimeout", pointers := [0, 1], arrays := [⟨⟨1, ["data"]⟩, ⟨1, ["size"]⟩, []⟩] },
    -- Rpc.h:194
    { name := "RpcClient_SetCallResultHandler", pointers := [0, 2], handlers := [⟨2, []⟩] },
    -- SilKit.h:34
    { name := "ReturnCodeToString", pointers := [0], results := [⟨0, []⟩], choices := [(⟨1, []⟩, 17)] },
    -- Vendor.h:22
    { name := "Vendor_Vector_SilKitRegistry_Create", pointers := [0, 1], results := [⟨0, []⟩] },
    -- Vendor.h:32
    { name := "Vendor_Vector_SilKitRegistry_Destroy", pointers := [0] },
    -- Vendor.h:52
    { name := "Vendor_Vector_SilKitRegistry_SetAllDisconnectedHandler", pointers := [0, 2], handlers := [⟨2, []⟩] },
    -- Vendor.h:68
    { name := "Vendor_Vector_SilKitRegistry_GetLogger", pointers := [0, 1], results := [⟨0, []⟩] },
    -- Vendor.h:86
    { name := "Vendor_Vector_SilKitRegistry_StartListening", pointers := [0, 1, 2], results := [⟨2, []⟩] },
    -- Version.h:15
    { name := "Version_Major", pointers := [0], results := [⟨0, []⟩] },
    -- Version.h:19
    { name := "Version_Minor", pointers := [0], results := [⟨0, []⟩] },
    -- Version.h:23
    { name := "Version_Patch", pointers := [0], results := [⟨0, []⟩] },
    -- Version.h:27
    { name := "Version_BuildNumber", pointers := [0], results := [⟨0, []⟩] },
    -- Version.h:31
    { name := "Version_String", pointers := [0], results := [⟨0, []⟩] },
    -- Version.h:35
    { name := "Version_VersionSuffix", pointers := [0], results := [⟨0, []⟩] },
    -- Version.h:39
    { name := "Version_GitHash", pointers := [0], results := [⟨0, []⟩] }]

end SilKit.CApi.Spec
