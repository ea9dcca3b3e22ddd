import Verif.Model.VersionHandshake
import Verif.Spec.Messages
/-!
# Specification of the handshake between versions (C79)
-/
namespace SilKit.VersionHandshake.Spec
open SilKit.Wire SilKit.Spec MessageBuffer

/-- The versions this code says it understands. -/
def understood : List ProtocolVersion := [⟨3, 0⟩, ⟨3, 1⟩]

/-- The bytes of the header every announcement starts with. -/
def headerBytes (v : ProtocolVersion) : List UInt8 := [0x56, 0x49, 0x42, 0x2d] ++ leBytes 2 v.major.toNat ++ leBytes 2 v.minor.toNat

/-- The bytes of a handshake message of kind `kind`: its size, 5, its kind, and its contents. -/
def message (kind : UInt8) (contents : List UInt8) : List UInt8 := leBytes 4 (contents.length + 6) ++ [5, kind] ++ contents

/-- A connection that has just been established: no version has been agreed on. -/
def Fresh (p : Peer) : Prop := p.version = ⟨0, 0⟩

/-- The strings and lists of what a node says about itself have sizes the wire format can carry. -/
def Fits (n : Node) : Prop := FitsVAsioPeerInfo n.info ∧ Short n.simulationName ∧ ShortList n.subscribers ∧ ∀ s ∈ n.subscribers, FitsVAsioMsgSubscriber s

end SilKit.VersionHandshake.Spec
