import Verif.Model.NetSimValues
import Verif.Spec.HourglassValues
/-!
# What the author of a network simulator may expect of the values

Written without the C structures: each message of a controller arrives with the fields the controller has given, each produced event is sent with the fields the
simulator has given.
-/
namespace SilKit.NetSimValues.Spec
open SilKit.NetSimValues HourglassValues
open SilKit.HourglassValues.Spec (Nanoseconds Text)

/-- What the simulated controller has to get. The flags of a mode change are a number with two bits. -/
def expected : Wire → Message
  | .canFrame _ f _ u => .canFrameRequest f u
  | .canConfigureBaudrate b f x => .canConfigureBaudrate b f x
  | .canSetControllerMode r c m => .canControllerMode (BitVec.ofNat 32 (r.toNat + 2 * c.toNat)) m
  | .frHostCommand c => .frHostCommand c
  | .frControllerConfig c => .frControllerConfig c
  | .frTxBufferConfigUpdate i c => .frTxBufferConfigUpdate i c
  | .frTxBufferUpdate u => .frTxBufferUpdate u
  | .ethFrame _ r _ u => .ethFrameRequest r u
  | .ethSetMode m => .ethControllerMode m
  | .linSendFrameRequest f r => .linFrameRequest f r
  | .linSendFrameHeaderRequest _ i => .linFrameHeaderRequest i
  | .linWakeupPulse t _ => .linWakeupPulse t
  | .linControllerConfig m b r s => .linControllerConfig m b r s
  | .linFrameResponseUpdate r => .linFrameResponseUpdate r
  | .linControllerStatusUpdate t s => .linControllerStatusUpdate t s

/-- The messages of which this is true: timestamps are 64-bit nanoseconds, arrays have less than 2^32 elements, modes are known ones, a FlexRay buffer update
without valid payload has no payload, and a LIN status update has the timestamp zero. -/
def Carried : Wire → Prop
  | .frControllerConfig c => c.bufferConfigs.length < 2 ^ 32
  | .frTxBufferUpdate u => u.payloadDataValid = true ∨ u.payload = []
  | .ethSetMode m => m = 0 ∨ m = 1
  | .linWakeupPulse t _ => Nanoseconds t
  | .linControllerConfig _ _ r s => r.length < 2 ^ 32 ∧ (s = 0 ∨ s = 1)
  | .linFrameResponseUpdate r => r.length < 2 ^ 32
  | .linControllerStatusUpdate t _ => t = 0
  | _ => True

/-- The most recent value that the events have set, or zero. -/
def latest (f : Event → Option (BitVec 32)) (before : List Event) : BitVec 32 := ((before.filterMap f).getLast?).getD 0

def canState : Event → Option (BitVec 32)
  | .canStateChange _ s => some s
  | _ => none
def canErrorState : Event → Option (BitVec 32)
  | .canErrorStateChange _ s => some s
  | _ => none
def ethernetState : Event → Option (BitVec 32)
  | .ethStateChange _ s => some s
  | _ => none
def ethernetBitrate : Event → Option (BitVec 32)
  | .ethBitrateChange _ b => some b
  | _ => none

/-- The message that has to be sent for an event, after the events `before` on the same network. A status message has the new value and the latest value of the
other field. Ethernet frames are filled up with zeroes to 60 bytes. -/
def message (before : List Event) : Event → Sent
  | .canFrame t f d u => .canFrame t f d u
  | .canFrameTransmit i t s u => .canFrameTransmit i t s u
  | .canStateChange t s => .canStatus t s (latest canErrorState before)
  | .canErrorStateChange t s => .canStatus t (latest canState before) s
  | .frFrame t c f => .frFrame t c f
  | .frFrameTransmit t b c f => .frFrameTransmit t b c f
  | .frSymbol t c q => .frSymbol t c q
  | .frSymbolTransmit t c q => .frSymbolTransmit t c q
  | .frCycleStart t c => .frCycleStart t c
  | .frPocStatus t s => .frPocStatus t s
  | .ethFrame t r d u => .ethFrame t (r.rightpad 60 0) d u
  | .ethFrameTransmit t s u => .ethFrameTransmit t s u
  | .ethStateChange t s => .ethStatus t s (latest ethernetBitrate before)
  | .ethBitrateChange t b => .ethStatus t (latest ethernetState before) b
  | .linFrameStatus t f s => .linTransmission t f s
  | .linSendFrameHeaderRequest t i => .linSendFrameHeaderRequest t i
  | .linWakeup t d => .linWakeupPulse t d

/-- All messages with their receivers, for events produced after the events `before`. -/
def messages (before : List Event) : List (Event × List Nat) → List (Nat × Sent)
  | [] => []
  | (e, rs) :: rest => rs.map (fun r => (r, message before e)) ++ messages (before ++ [e]) rest

/-- Timestamps are 64-bit nanoseconds, FlexRay payloads have less than 2^32 bytes. -/
def Producible : Event → Prop
  | .canFrame t _ _ _ | .canFrameTransmit _ t _ _ | .canStateChange t _ | .canErrorStateChange t _ => Nanoseconds t
  | .frFrame t _ f | .frFrameTransmit t _ _ f => Nanoseconds t ∧ f.payload.length < 2 ^ 32
  | .frSymbol t _ _ | .frSymbolTransmit t _ _ | .frCycleStart t _ | .frPocStatus t _ => Nanoseconds t
  | .ethFrame t _ _ _ | .ethFrameTransmit t _ _ | .ethStateChange t _ | .ethBitrateChange t _ => Nanoseconds t
  | .linFrameStatus t _ _ | .linSendFrameHeaderRequest t _ | .linWakeup t _ => Nanoseconds t

/-- The network types: CAN 1, LIN 2, Ethernet 3, FlexRay 4; the rest is none. -/
def busOf (type : BitVec 32) : Option Bus :=
  if type.toNat = 1 then some .can else if type.toNat = 2 then some .lin else if type.toNat = 3 then some .ethernet
  else if type.toNat = 4 then some .flexray else none

/-- The calls that name a network: with a network object. -/
def Named (ops : List Op) (type : BitVec 32) (name : Bytes) : Prop := Op.simulate type name true ∈ ops

/-- All names are without zero bytes. -/
def TextNames (ops : List Op) : Prop := ∀ t n g, Op.simulate t n g ∈ ops → Text n

end SilKit.NetSimValues.Spec
