import Verif.Model.MessageBuffer
/-!
# What it means that a wire format round-trips and that decoding is safe
-/
namespace SilKit.Spec

/-- Running the encoder `w` on a buffer whose write position is at its end appends exactly `bytes` (and changes nothing
else). -/
def Appends (ver : ProtocolVersion) (w : R Unit) (bytes : List UInt8) : Prop :=
  ∀ b : MessageBuffer, b.protocolVersion = ver → b.wPos = b.storage.length →
    w b = .ok ((), { b with storage := b.storage ++ bytes, wPos := b.wPos + bytes.length })

/-- Wherever `bytes` occurs in a buffer, running the decoder `r` at the start of the occurrence returns `a`, consumes
exactly `bytes` and changes nothing else. -/
def Yields {α : Type} (ver : ProtocolVersion) (r : R α) (bytes : List UInt8) (a : α) : Prop :=
  ∀ (b : MessageBuffer) (before after : List UInt8), b.protocolVersion = ver →
    b.storage = before ++ bytes ++ after → b.rPos = before.length →
    r b = .ok (a, { b with rPos := b.rPos + bytes.length })

/-- The encoder `w` (of the value `a`) and the decoder `r` agree: the encoder succeeds and produces a non-empty byte
string from which the decoder, in any context, reconstructs `a` while consuming exactly these bytes. -/
def RoundTrips {α : Type} (ver : ProtocolVersion) (w : R Unit) (r : R α) (a : α) : Prop :=
  ∃ bytes : List UInt8, bytes ≠ [] ∧ Appends ver w bytes ∧ Yields ver r bytes a

/-- Outcome of a decoder that started at a read position inside the message: either an exception, or a value with the
message unchanged and the read position moved forward inside the message. Undefined behaviour (which includes reading
outside of the message) and oversized allocations are excluded. -/
def GoodOutcome {α : Type} (b : MessageBuffer) : Res (α × MessageBuffer) → Prop
  | .ok (_, b') => b'.storage = b.storage ∧ b'.protocolVersion = b.protocolVersion ∧ b.rPos ≤ b'.rPos ∧
      b'.rPos ≤ b'.storage.length
  | .throw _ => True
  | .ub _ => False

/-- The decoder is memory safe on every byte string. -/
def SafeDecoder {α : Type} (r : R α) : Prop :=
  ∀ b : MessageBuffer, b.rPos ≤ b.storage.length → GoodOutcome b (r b)

/-- Like `GoodOutcome`, but tolerates signed overflow of a time stamp computation (never a memory access). -/
def GoodOutcomeUpToOverflow {α : Type} (b : MessageBuffer) : Res (α × MessageBuffer) → Prop
  | .ub m => m = signedOverflow
  | r => GoodOutcome b r

/-- The decoder never accesses memory outside of the message. -/
def MemorySafeDecoder {α : Type} (r : R α) : Prop :=
  ∀ b : MessageBuffer, b.rPos ≤ b.storage.length → GoodOutcomeUpToOverflow b (r b)

/-- The entries of a `std::map`: strictly ascending keys. -/
def MapEntries (m : List (List UInt8 × List UInt8)) : Prop :=
  m.Pairwise (fun a b => MessageBuffer.bytesLt a.1 b.1 = true)

/-- A string or byte vector that the wire format can carry (32-bit length). -/
def Short (s : List UInt8) : Prop := s.length < 2 ^ 32

/-- A list that the wire format can carry (32-bit count). -/
def ShortList {α : Type} (s : List α) : Prop := s.length < 2 ^ 32

end SilKit.Spec
