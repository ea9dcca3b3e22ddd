import Verif.Model.Handling
/-!
# Model of FlexRay controllers

`SilKit/source/services/flexray/FlexrayController.cpp`, `Validation.cpp`. FlexRay controllers do nothing without a network simulation: all calls are messages to
the simulating participant, and all events come from it.

Simplifications: log messages and tracing are left out. A message without a simulating participant is addressed to the participant with the empty name; the
transmission fails in the I/O thread (VAsioTransmitter.hpp:139-155), so it is sent to nobody.
-/
namespace SilKit.Flexray

/-- `FlexrayClusterParameters`, FlexrayDatatypes.hpp:46-125. -/
structure Cluster where
  gColdstartAttempts : Nat
  gCycleCountMax : Nat
  gdActionPointOffset : Nat
  gdDynamicSlotIdlePhase : Nat
  gdMiniSlot : Nat
  gdMiniSlotActionPointOffset : Nat
  gdStaticSlot : Nat
  gdSymbolWindow : Nat
  gdSymbolWindowActionPointOffset : Nat
  gdTSSTransmitter : Nat
  gdWakeupTxActive : Nat
  gdWakeupTxIdle : Nat
  gListenNoise : Nat
  gMacroPerCycle : Nat
  gMaxWithoutClockCorrectionFatal : Nat
  gMaxWithoutClockCorrectionPassive : Nat
  gNumberOfMiniSlots : Nat
  gNumberOfStaticSlots : Nat
  gPayloadLengthStatic : Nat
  gSyncFrameIDCountMax : Nat
deriving Repr, DecidableEq

/-- `FlexrayNodeParameters`, FlexrayDatatypes.hpp:132-243; `FlexrayMicroTick` is signed. -/
structure Node where
  pAllowHaltDueToClock : Nat
  pAllowPassiveToActive : Nat
  pChannels : Nat
  pClusterDriftDamping : Nat
  pdAcceptedStartupRange : Int
  pdListenTimeout : Int
  pKeySlotId : Nat
  pKeySlotOnlyEnabled : Nat
  pKeySlotUsedForStartup : Nat
  pKeySlotUsedForSync : Nat
  pLatestTx : Nat
  pMacroInitialOffsetA : Nat
  pMacroInitialOffsetB : Nat
  pMicroInitialOffsetA : Int
  pMicroInitialOffsetB : Int
  pMicroPerCycle : Int
  pOffsetCorrectionOut : Int
  pOffsetCorrectionStart : Nat
  pRateCorrectionOut : Int
  pWakeupChannel : Nat
  pWakeupPattern : Nat
  pdMicrotick : Nat
  pSamplesPerMicrotick : Nat
  pSecondKeySlotId : Nat
  pTwoKeySlotMode : Nat
deriving Repr, DecidableEq

/-- `FlexrayTxBufferConfig`, FlexrayDatatypes.hpp:253-275. -/
structure Buffer where
  channels : Nat
  slotId : Nat
  offset : Nat
  repetition : Nat
  ppi : Bool
  headerCrc : Nat
  mode : Nat
deriving Repr, DecidableEq

/-- `FlexrayControllerConfig`, FlexrayDatatypes.hpp:278-287. -/
structure Config where
  cluster : Cluster
  node : Node
  buffers : List Buffer
deriving Repr, DecidableEq

/-- The predefined configuration, `Config::FlexrayController`. -/
structure Preset where
  cluster : Option Cluster := none
  node : Option Node := none
  buffers : List Buffer := []
deriving Repr, DecidableEq

/-- A sequence of `if (..) throw ConfigurationError{..};`. -/
def firstError : List (Bool × String) → Option String
  | [] => none
  | (bad, msg) :: t => if bad then some msg else firstError t

/-- `Validate`, Validation.cpp:13-77. -/
def Cluster.validate (p : Cluster) : Option String := firstError
  [(p.gColdstartAttempts < 2 || p.gColdstartAttempts > 31, "gColdstartAttempts must be in range 2 - 31"),
   (p.gCycleCountMax % 2 != 1, "gCycleCountMax must be an odd value"),
   (p.gCycleCountMax < 7 || p.gCycleCountMax > 63, "gCycleCountMax must be in range 7, 9, ..., 63"),
   (p.gdActionPointOffset < 1 || p.gdActionPointOffset > 63, "gdActionPointOffset must be in range 1 - 63"),
   (p.gdDynamicSlotIdlePhase > 2, "gdDynamicSlotIdlePhase must be in range 0 - 2"),
   (p.gdMiniSlot < 2 || p.gdMiniSlot > 63, "gdMiniSlot must be in range 2 - 63"),
   (p.gdMiniSlotActionPointOffset < 1 || p.gdMiniSlotActionPointOffset > 31, "gdMiniSlotActionPointOffset must be in range 1 - 31"),
   (p.gdStaticSlot < 3 || p.gdStaticSlot > 664, "gdStaticSlot must be in range 3 - 664"),
   (p.gdSymbolWindow > 162, "gdSymbolWindow must be in range 0 - 162"),
   (p.gdSymbolWindowActionPointOffset < 1 || p.gdSymbolWindowActionPointOffset > 63, "gdSymbolWindowActionPointOffset must be in range 1 - 63"),
   (p.gdTSSTransmitter < 1 || p.gdTSSTransmitter > 15, "gdTSSTransmitter must be in range 1 - 15"),
   (p.gdWakeupTxActive < 15 || p.gdWakeupTxActive > 60, "gdWakeupTxActive must be in range 15 - 60"),
   (p.gdWakeupTxIdle < 45 || p.gdWakeupTxIdle > 180, "gdWakeupTxIdle must be in range 45 - 180"),
   (p.gListenNoise < 2 || p.gListenNoise > 16, "gListenNoise must be in range 2 - 16"),
   (p.gMacroPerCycle < 8 || p.gMacroPerCycle > 16000, "gMacroPerCycle must be in range 8 - 16000"),
   (p.gMaxWithoutClockCorrectionFatal < 1 || p.gMaxWithoutClockCorrectionFatal > 15, "gMaxWithoutClockCorrectionFatal must be in range 1 - 15"),
   (p.gMaxWithoutClockCorrectionPassive < 1 || p.gMaxWithoutClockCorrectionPassive > 15, "gMaxWithoutClockCorrectionPassive must be in range 1 - 15"),
   (p.gNumberOfMiniSlots > 7988, "gNumberOfMiniSlots must be in range 0 - 7988"),
   (p.gNumberOfStaticSlots < 2 || p.gNumberOfStaticSlots > 1023, "gNumberOfStaticSlots must be in range 2 - 1023"),
   (p.gPayloadLengthStatic > 127, "gPayloadLengthStatic must be in range 0 - 127"),
   (p.gSyncFrameIDCountMax < 2 || p.gSyncFrameIDCountMax > 15, "gSyncFrameIDCountMax must be in range 2 - 15")]

/-- `Validate`, Validation.cpp:79-144. Channels: A is 1, B is 2, capi/Flexray.h:23-27. -/
def Node.validate (p : Node) : Option String := firstError
  [(p.pAllowHaltDueToClock > 1, "pAllowHaltDueToClock must be 0 or 1"),
   (p.pAllowPassiveToActive > 31, "pAllowPassiveToActive must be in range 0 - 31"),
   (p.pClusterDriftDamping > 10, "pClusterDriftDamping must be in range 0 - 10"),
   (p.pdAcceptedStartupRange < 29 || p.pdAcceptedStartupRange > 2743, "pdAcceptedStartupRange must be in range 29 - 2743"),
   (p.pdListenTimeout < 1926 || p.pdListenTimeout > 2567692, "pdListenTimeout must be in range 1926 - 2567692"),
   (p.pKeySlotId > 1023, "pKeySlotId must be in range 0 - 1023"),
   (p.pKeySlotOnlyEnabled > 1, "pKeySlotOnlyEnabled must be 0 or 1"),
   (p.pKeySlotUsedForStartup > 1, "pKeySlotUsedForStartup must be 0 or 1"),
   (p.pKeySlotUsedForSync > 1, "pKeySlotUsedForSync must be 0 or 1"),
   (p.pLatestTx > 7988, "pLatestTx must be in range 0 - 7988"),
   (p.pMacroInitialOffsetA < 2 || p.pMacroInitialOffsetA > 68, "pMacroInitialOffsetA must be in range 2 - 68"),
   (p.pMacroInitialOffsetB < 2 || p.pMacroInitialOffsetB > 68, "pMacroInitialOffsetB must be in range 2 - 68"),
   (p.pMicroInitialOffsetA < 0 || p.pMicroInitialOffsetA > 239, "pMicroInitialOffsetA must be in range 0 - 239"),
   (p.pMicroInitialOffsetB < 0 || p.pMicroInitialOffsetB > 239, "pMicroInitialOffsetB must be in range 0 - 239"),
   (p.pMicroPerCycle < 960 || p.pMicroPerCycle > 1280000, "pMicroPerCycle must be in range 960 - 1280000"),
   (p.pOffsetCorrectionOut < 15 || p.pOffsetCorrectionOut > 16082, "pOffsetCorrectionOut must be in range 15 - 16082"),
   (p.pOffsetCorrectionStart < 7 || p.pOffsetCorrectionStart > 15999, "pOffsetCorrectionStart must be in range 7 - 15999"),
   (p.pRateCorrectionOut < 3 || p.pRateCorrectionOut > 3846, "pRateCorrectionOut must be in range 3 - 3846"),
   (p.pWakeupChannel != 1 && p.pWakeupChannel != 2, "pWakeupChannel must be either FlexrayChannel A or FlexrayChannel B"),
   (p.pWakeupPattern > 63, "pWakeupPattern must be in range 0 - 63"),
   (p.pSamplesPerMicrotick < 1 || p.pSamplesPerMicrotick > 2, "pSamplesPerMicrotick must be 1 or 2")]

/-- `FlexrayFrame`, FlexrayDatatypes.hpp:302-336. -/
structure Frame where
  flags : Nat
  frameId : Nat
  payloadLength : Nat
  headerCrc : Nat
  cycleCount : Nat
  payload : List Nat
deriving Repr, DecidableEq

/-- `FlexraySymbolPattern`. The messages carry a byte, which need not be one of the enumerators. -/
inductive Pattern
  | casMts | wus | wudop
  | other (n : Nat)
deriving Repr, DecidableEq

/-- `FlexraySymbolEvent`, also its subclasses. -/
structure Symbol where
  timestamp : Nat
  channel : Nat
  pattern : Pattern
deriving Repr, DecidableEq

/-- `FlexrayChiCommand`, WireFlexrayMessages.hpp:79-87. -/
inductive Command
  | run | deferredHalt | freeze | allowColdstart | allSlots | wakeup
deriving Repr, DecidableEq

/-- What controllers send. -/
inductive Msg
  | config (c : Config)
  | bufferConfig (idx : Nat) (b : Buffer)
  | bufferUpdate (idx : Nat) (valid : Bool) (payload : List Nat)
  | command (c : Command)
deriving Repr, DecidableEq

/-- What controllers receive; the fields of the POC status are one number here, the code does not look at them. -/
inductive SimMsg
  | frame (timestamp channel : Nat) (f : Frame)
  | frameTransmit (timestamp idx channel : Nat) (f : Frame)
  | symbol (s : Symbol)
  | symbolTransmit (s : Symbol)
  | cycleStart (timestamp counter : Nat)
  | pocStatus (s : Nat)
deriving Repr, DecidableEq

/-- What handlers are called with. -/
inductive Notice
  | frame (timestamp channel : Nat) (f : Frame)
  | frameTransmit (timestamp idx channel : Nat) (f : Frame)
  | wakeup (s : Symbol)
  | pocStatus (s : Nat)
  | symbol (s : Symbol)
  | symbolTransmit (s : Symbol)
  | cycleStart (timestamp counter : Nat)
deriving Repr, DecidableEq

inductive Kind
  | frame | frameTransmit | wakeup | pocStatus | symbol | symbolTransmit | cycleStart
deriving Repr, DecidableEq

def Notice.kind : Notice → Kind
  | .frame _ _ _ => .frame
  | .frameTransmit _ _ _ _ => .frameTransmit
  | .wakeup _ => .wakeup
  | .pocStatus _ => .pocStatus
  | .symbol _ => .symbol
  | .symbolTransmit _ => .symbolTransmit
  | .cycleStart _ _ => .cycleStart

/-- No filters, FlexrayController.cpp:335-455. -/
def events : Handling.Events Kind Notice := ⟨Notice.kind, fun _ _ => true⟩

inductive Did
  /-- A message to participant `q`, or to nobody. -/
  | send (q : Option Nat) (m : Msg)
  /-- `Configure` throws with this message. -/
  | invalid (msg : String)
  /-- `OutOfRangeError`. -/
  | outOfRange
deriving Repr, DecidableEq

abbrev Out := Handling.Out Kind Notice Did

/-- `FlexrayController`, FlexrayController.hpp:148-170. -/
structure Ctl where
  self : Nat
  net : String
  preset : Preset
  /-- `_bufferConfigs`. -/
  buffers : List Buffer := []
  /-- `_simulatedLink`, if `_simulatedLinkDetected`. -/
  sim : Option Nat := none
  handlers : Kind → Handling.Table := fun _ => {}

inductive Input
  | configure (c : Config)
  | reconfigureTxBuffer (idx : Nat) (b : Buffer)
  | updateTxBuffer (idx : Nat) (valid : Bool) (payload : List Nat)
  | command (c : Command)
  | addHandler (k : Kind)
  | removeHandler (k : Kind) (id : Nat)
  /-- A service of the type `Link` is discovered: participant and network. -/
  | linkCreated (q : Nat) (net : String)
  | linkRemoved (q : Nat) (net : String)
  /-- A message of a service of participant `q` with the identifier `id`. -/
  | recv (q id : Nat) (m : SimMsg)
deriving Repr, DecidableEq

abbrev R := Ctl × List Out

def Ctl.tell (c : Ctl) (n : Notice) : List Out := Handling.tell events c.handlers n

/-- `SendMsg`, FlexrayController.cpp:325-329. -/
def Ctl.send (c : Ctl) (m : Msg) : R := (c, [.did (.send c.sim m)])

/-- The predefined values win, FlexrayController.cpp:117-132. -/
def Ctl.effective (c : Ctl) (cfg : Config) : Config where
  cluster := c.preset.cluster.getD cfg.cluster
  node := c.preset.node.getD cfg.node
  buffers := if c.preset.buffers = [] then cfg.buffers else c.preset.buffers

/-- `Configure`, FlexrayController.cpp:115-139. -/
def Ctl.configure (c : Ctl) (cfg : Config) : R :=
  match (c.effective cfg).cluster.validate with
  | some msg => (c, [.did (.invalid msg)])
  | none =>
      match (c.effective cfg).node.validate with
      | some msg => (c, [.did (.invalid msg)])
      | none => Ctl.send { c with buffers := (c.effective cfg).buffers } (.config (c.effective cfg))

/-- `ReconfigureTxBuffer`, FlexrayController.cpp:141-163. -/
def Ctl.reconfigureTxBuffer (c : Ctl) (idx : Nat) (b : Buffer) : R :=
  if idx ≥ c.buffers.length then (c, [.did .outOfRange])
  else if c.preset.buffers ≠ [] then (c, [])
  else c.send (.bufferConfig idx b)

/-- `UpdateTxBuffer`, FlexrayController.cpp:165-197. -/
def Ctl.updateTxBuffer (c : Ctl) (idx : Nat) (valid : Bool) (payload : List Nat) : R :=
  if idx ≥ c.buffers.length then (c, [.did .outOfRange]) else c.send (.bufferUpdate idx valid payload)

/-- `AllowReception`, FlexrayController.cpp:64-69. -/
def Ctl.allowReception (c : Ctl) (q id : Nat) : Bool := c.sim == some q && id == c.self

/-- `ReceiveMsg` for symbols, FlexrayController.cpp:272-292. -/
def Ctl.onSymbol (c : Ctl) (s : Symbol) : List Out :=
  (match s.pattern with
    | .casMts => []
    | .wus | .wudop => c.tell (.wakeup s)
    | .other _ => []) ++ c.tell (.symbol s)

/-- `ReceiveMsg`, FlexrayController.cpp:240-322. -/
def Ctl.take (c : Ctl) : SimMsg → List Out
  | .frame t ch f => c.tell (.frame t ch f)
  | .frameTransmit t i ch f => c.tell (.frameTransmit t i ch f)
  | .symbol s => c.onSymbol s
  | .symbolTransmit s => c.tell (.symbolTransmit s)
  | .cycleStart t n => c.tell (.cycleStart t n)
  | .pocStatus s => c.tell (.pocStatus s)

/-- The API 199-239, 335-455; `RegisterServiceDiscovery`, FlexrayController.cpp:27-62: a network simulation that leaves is only logged. -/
def Ctl.step (c : Ctl) : Input → R
  | .configure cfg => c.configure cfg
  | .reconfigureTxBuffer idx b => c.reconfigureTxBuffer idx b
  | .updateTxBuffer idx v p => c.updateTxBuffer idx v p
  | .command x => c.send (.command x)
  | .addHandler k => ({ c with handlers := (Handling.add (ν := Notice) (ρ := Did) c.handlers k 0).1 }, (Handling.add c.handlers k 0).2)
  | .removeHandler k id => ({ c with handlers := (Handling.remove (ν := Notice) (ρ := Did) c.handlers k id).1 }, (Handling.remove c.handlers k id).2)
  | .linkCreated q net => if c.sim = none ∧ net = c.net then ({ c with sim := some q }, []) else (c, [])
  | .linkRemoved _ _ => (c, [])
  | .recv q id m => if c.allowReception q id then (c, c.take m) else (c, [])

end SilKit.Flexray
