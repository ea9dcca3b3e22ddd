import Verif.Model.Flexray
import Verif.Spec.Handling
/-!
# Specification of FlexRay controllers

The ranges are those in the documentation of the API, `include/silkit/services/flexray/FlexrayDatatypes.hpp:46-243`.
-/
namespace SilKit.Flexray.Spec
open Handling.Spec

/-- The documented range of a cluster parameter. -/
structure ClusterInRange (p : Cluster) : Prop where
  gColdstartAttempts : 2 ≤ p.gColdstartAttempts ∧ p.gColdstartAttempts ≤ 31
  gCycleCountMax : 7 ≤ p.gCycleCountMax ∧ p.gCycleCountMax ≤ 63 ∧ p.gCycleCountMax % 2 = 1
  gdActionPointOffset : 1 ≤ p.gdActionPointOffset ∧ p.gdActionPointOffset ≤ 63
  gdDynamicSlotIdlePhase : p.gdDynamicSlotIdlePhase ≤ 2
  gdMiniSlot : 2 ≤ p.gdMiniSlot ∧ p.gdMiniSlot ≤ 63
  gdMiniSlotActionPointOffset : 1 ≤ p.gdMiniSlotActionPointOffset ∧ p.gdMiniSlotActionPointOffset ≤ 31
  gdStaticSlot : 3 ≤ p.gdStaticSlot ∧ p.gdStaticSlot ≤ 664
  gdSymbolWindow : p.gdSymbolWindow ≤ 162
  gdSymbolWindowActionPointOffset : 1 ≤ p.gdSymbolWindowActionPointOffset ∧ p.gdSymbolWindowActionPointOffset ≤ 63
  gdTSSTransmitter : 1 ≤ p.gdTSSTransmitter ∧ p.gdTSSTransmitter ≤ 15
  gdWakeupTxActive : 15 ≤ p.gdWakeupTxActive ∧ p.gdWakeupTxActive ≤ 60
  gdWakeupTxIdle : 45 ≤ p.gdWakeupTxIdle ∧ p.gdWakeupTxIdle ≤ 180
  gListenNoise : 2 ≤ p.gListenNoise ∧ p.gListenNoise ≤ 16
  gMacroPerCycle : 8 ≤ p.gMacroPerCycle ∧ p.gMacroPerCycle ≤ 16000
  gMaxWithoutClockCorrectionFatal : 1 ≤ p.gMaxWithoutClockCorrectionFatal ∧ p.gMaxWithoutClockCorrectionFatal ≤ 15
  gMaxWithoutClockCorrectionPassive : 1 ≤ p.gMaxWithoutClockCorrectionPassive ∧ p.gMaxWithoutClockCorrectionPassive ≤ 15
  gNumberOfMiniSlots : p.gNumberOfMiniSlots ≤ 7988
  gNumberOfStaticSlots : 2 ≤ p.gNumberOfStaticSlots ∧ p.gNumberOfStaticSlots ≤ 1023
  gPayloadLengthStatic : p.gPayloadLengthStatic ≤ 127
  gSyncFrameIDCountMax : 2 ≤ p.gSyncFrameIDCountMax ∧ p.gSyncFrameIDCountMax ≤ 15

/-- The documented range of a node parameter, except for those in `NodeRest`. -/
structure NodeInRange (p : Node) : Prop where
  pAllowHaltDueToClock : p.pAllowHaltDueToClock ≤ 1
  pAllowPassiveToActive : p.pAllowPassiveToActive ≤ 31
  pClusterDriftDamping : p.pClusterDriftDamping ≤ 10
  pdAcceptedStartupRange : 29 ≤ p.pdAcceptedStartupRange ∧ p.pdAcceptedStartupRange ≤ 2743
  pdListenTimeout : 1926 ≤ p.pdListenTimeout ∧ p.pdListenTimeout ≤ 2567692
  pKeySlotId : p.pKeySlotId ≤ 1023
  pKeySlotOnlyEnabled : p.pKeySlotOnlyEnabled ≤ 1
  pKeySlotUsedForStartup : p.pKeySlotUsedForStartup ≤ 1
  pKeySlotUsedForSync : p.pKeySlotUsedForSync ≤ 1
  pLatestTx : p.pLatestTx ≤ 7988
  pMacroInitialOffsetA : 2 ≤ p.pMacroInitialOffsetA ∧ p.pMacroInitialOffsetA ≤ 68
  pMacroInitialOffsetB : 2 ≤ p.pMacroInitialOffsetB ∧ p.pMacroInitialOffsetB ≤ 68
  pMicroInitialOffsetA : 0 ≤ p.pMicroInitialOffsetA ∧ p.pMicroInitialOffsetA ≤ 239
  pMicroInitialOffsetB : 0 ≤ p.pMicroInitialOffsetB ∧ p.pMicroInitialOffsetB ≤ 239
  pMicroPerCycle : 960 ≤ p.pMicroPerCycle ∧ p.pMicroPerCycle ≤ 1280000
  pOffsetCorrectionOut : 15 ≤ p.pOffsetCorrectionOut ∧ p.pOffsetCorrectionOut ≤ 16082
  pOffsetCorrectionStart : 7 ≤ p.pOffsetCorrectionStart ∧ p.pOffsetCorrectionStart ≤ 15999
  pRateCorrectionOut : 3 ≤ p.pRateCorrectionOut ∧ p.pRateCorrectionOut ≤ 3846
  /-- Channel A or B. -/
  pWakeupChannel : p.pWakeupChannel = 1 ∨ p.pWakeupChannel = 2
  pWakeupPattern : p.pWakeupPattern ≤ 63
  pSamplesPerMicrotick : p.pSamplesPerMicrotick = 1 ∨ p.pSamplesPerMicrotick = 2

/-- The documented ranges that the code does not check. -/
structure NodeRest (p : Node) : Prop where
  /-- Channel A, B or both. -/
  pChannels : p.pChannels = 1 ∨ p.pChannels = 2 ∨ p.pChannels = 3
  /-- 12.5 ns, 25 ns or 50 ns. -/
  pdMicrotick : p.pdMicrotick = 1 ∨ p.pdMicrotick = 2 ∨ p.pdMicrotick = 3
  pSecondKeySlotId : p.pSecondKeySlotId ≤ 1023
  pTwoKeySlotMode : p.pTwoKeySlotMode ≤ 1

/-- What is configured: values of the participant configuration file replace those of the call. -/
def wanted (pre : Preset) (cfg : Config) : Config :=
  { cluster := match pre.cluster with | some x => x | none => cfg.cluster
    node := match pre.node with | some x => x | none => cfg.node
    buffers := match pre.buffers with | [] => cfg.buffers | l => l }

def onInput (r : R) (x : Input) : R := ((r.1.step x).1, r.2 ++ (r.1.step x).2)

/-- A controller with the service identifier `i`, on the network `net`, and all that happens to it. -/
def solo (i : Nat) (net : String) (pre : Preset) (h : List Input) : R := h.foldl onInput ({ self := i, net := net, preset := pre }, [])

def countStep (n : Nat) : Did → Nat
  | .send _ (.config c) => c.buffers.length
  | _ => n

/-- The number of buffers that the last accepted configuration configures. -/
def bufferCount (t : List Out) : Nat := (dids t).foldl countStep 0

/-- The participant that simulates the network: the first that announces it. -/
def simulator (net : String) (h : List Input) : Option Nat :=
  h.findSome? (fun | .linkCreated q n => if n = net then some q else none | _ => none)

/-- The events that a message of the simulation leads to. -/
def reports : SimMsg → List Notice
  | .frame t ch f => [.frame t ch f]
  | .frameTransmit t i ch f => [.frameTransmit t i ch f]
  | .symbol s => if s.pattern = .wus ∨ s.pattern = .wudop then [.wakeup s, .symbol s] else [.symbol s]
  | .symbolTransmit s => [.symbolTransmit s]
  | .cycleStart t n => [.cycleStart t n]
  | .pocStatus s => [.pocStatus s]

/-- What is reported in a whole history: the messages of the simulator of the network for this controller, since the simulator is known. -/
def reportedFrom (i : Nat) (net : String) : Option Nat → List Input → List Notice
  | _, [] => []
  | none, .linkCreated q n :: h => reportedFrom i net (if n = net then some q else none) h
  | some q, .recv q' id m :: h => (if q' = q ∧ id = i then reports m else []) ++ reportedFrom i net (some q) h
  | s, _ :: h => reportedFrom i net s h

end SilKit.Flexray.Spec
