import Verif.Model.Basic
/-!
# `SilKit::Core::MessageBuffer`

Model of `SilKit/source/core/internal/MessageBuffer.hpp`: the elementary streaming operators from which every wire
message is built. Integers are `BitVec w` (the two's complement representation of the C++ integer or of the underlying
type of the enum), strings and byte vectors are lists of bytes. The host is little endian (the code uses `memcpy` of the
native representation; both ends of a connection have to agree on it, which is an assumption of the code).
-/
namespace SilKit

/-- `struct ProtocolVersion`, core/internal/ProtocolVersion.hpp:12-16. -/
structure ProtocolVersion where
  major : BitVec 16
  minor : BitVec 16
deriving Repr, DecidableEq

/-- `CurrentProtocolVersion()`, core/internal/ProtocolVersion.hpp:22-25. -/
def currentProtocolVersion : ProtocolVersion := ⟨3, 1⟩

/-- `operator<(ProtocolVersion, ProtocolVersion)`, core/internal/ProtocolVersion.hpp:37-40. -/
def ProtocolVersion.lt (a b : ProtocolVersion) : Bool :=
  a.major.toNat < b.major.toNat || (a.major == b.major && a.minor.toNat < b.minor.toNat)

/-- Members of `MessageBuffer`, MessageBuffer.hpp:257-260. -/
structure MessageBuffer where
  protocolVersion : ProtocolVersion
  storage : List UInt8
  wPos : Nat
  rPos : Nat
deriving Repr, DecidableEq

namespace MessageBuffer

/-- Default constructor, MessageBuffer.hpp:59 with the member initialisers 257-260. -/
def empty : MessageBuffer := ⟨currentProtocolVersion, [], 0, 0⟩

/-- `MessageBuffer(std::vector<uint8_t> data)`, MessageBuffer.hpp:266-271. -/
def ofBytes (data : List UInt8) : MessageBuffer := ⟨currentProtocolVersion, data, data.length, 0⟩

end MessageBuffer

/-- Message text of the modelled exception `end_of_buffer`, MessageBuffer.hpp:28-30. -/
def endOfBuffer : String := "end_of_buffer"
/-- Undefined behaviour: access outside of the storage of a vector. -/
def outOfBounds : String := "out-of-bounds access"
/-- Undefined behaviour: signed integer overflow. -/
def signedOverflow : String := "signed integer overflow"
/-- Not undefined behaviour, but reported as such by the model so that it cannot go unnoticed: a container is resized
to more elements than the message has bytes. -/
def oversizedAllocation : String := "resize to more elements than the message has bytes"

/-- A streaming operation on a message buffer: `buffer << x` is an `R Unit`, `buffer >> x` is an `R α` returning the new
value of `x`. (Modelling device: state and exception passing.) -/
def R (α : Type) : Type := MessageBuffer → Res (α × MessageBuffer)

namespace R

/-- Value without touching the buffer. -/
protected def pure {α : Type} (a : α) : R α := fun b => .ok (a, b)

/-- Sequencing: the second operation continues with the buffer left by the first one. -/
protected def bind {α β : Type} (r : R α) (k : α → R β) : R β := fun b =>
  match r b with
  | .ok (a, b') => k a b'
  | .throw m => .throw m
  | .ub m => .ub m

instance : Monad R where
  pure := R.pure
  bind := R.bind

end R

namespace MessageBuffer

/-- `throw end_of_buffer{}` or another exception. -/
def throwing {α : Type} (msg : String) : R α := fun _ => .throw msg

/-- Undefined behaviour. -/
def undefined {α : Type} (msg : String) : R α := fun _ => .ub msg

/-- `GetProtocolVersion`, MessageBuffer.hpp:663-666. -/
def getProtocolVersion : R ProtocolVersion := fun b => .ok (b.protocolVersion, b)

/-- `SetProtocolVersion`, MessageBuffer.hpp:659-662. -/
def setProtocolVersion (v : ProtocolVersion) : R Unit := fun b => .ok ((), { b with protocolVersion := v })

/-- `RemainingBytesLeft`, MessageBuffer.hpp:280-283. -/
def remainingBytesLeft : R Nat := fun b =>
  .ok (if b.rPos > b.storage.length then 0 else b.storage.length - b.rPos, b)

/-- `ReadPos`, MessageBuffer.hpp:673-676. -/
def readPos : R Nat := fun b => .ok (b.rPos, b)

/-- `SetReadPos`, MessageBuffer.hpp:678-681. -/
def setReadPos (p : Nat) : R Unit := fun b => .ok ((), { b with rPos := p })

/-- The `n` bytes of the little-endian representation of `v` (`memcpy` from an integer). -/
def leBytes : Nat → Nat → List UInt8
  | 0, _ => []
  | n + 1, v => UInt8.ofNat (v % 256) :: leBytes n (v / 256)

/-- The number with the given little-endian representation (`memcpy` into an integer). -/
def leVal : List UInt8 → Nat
  | [] => 0
  | b :: bs => b.toNat + 256 * leVal bs

/-- `memcpy`/`std::copy` of `bytes` to `storage + pos`; undefined if the target range is not inside the vector.
(Used by all writing operators, e.g. MessageBuffer.hpp:106, 301, 404.) -/
def copyTo (storage : List UInt8) (pos : Nat) (bytes : List UInt8) : Res (List UInt8) :=
  if pos + bytes.length ≤ storage.length then
    .ok (storage.take pos ++ bytes ++ storage.drop (pos + bytes.length))
  else .ub outOfBounds

/-- `memcpy`/`std::copy` of `n` bytes from `storage + pos`; undefined if the source range is not inside the vector.
(Used by all reading operators, e.g. MessageBuffer.hpp:118, 314, 335.) -/
def copyFrom (storage : List UInt8) (pos n : Nat) : Res (List UInt8) :=
  if pos + n ≤ storage.length then .ok ((storage.drop pos).take n) else .ub outOfBounds

/-- `operator<<(IntegerT)`, MessageBuffer.hpp:99-111, and `operator<<(enum)` (159-163), which forwards the underlying
integer. `sizeof(IntegerT)` is `w / 8`. `bool` is the 8-bit integer holding its object representation. -/
def wInt {w : Nat} (t : BitVec w) : R Unit := fun b =>
  let storage :=
    if b.wPos + w / 8 > b.storage.length then b.storage ++ List.replicate (w / 8) 0 else b.storage
  match copyTo storage b.wPos (leBytes (w / 8) t.toNat) with
  | .ok st => .ok ((), { b with storage := st, wPos := b.wPos + w / 8 })
  | .throw m => .throw m
  | .ub m => .ub m

/-- The guard `if (_rPos + n > _storage.size()) throw end_of_buffer{}` that precedes every read
(e.g. MessageBuffer.hpp:115-116). -/
def guardRead (n : Nat) : R Unit := fun b =>
  if b.rPos + n > b.storage.length then .throw endOfBuffer else .ok ((), b)

/-- Copy `n` bytes from the read position and advance it (e.g. MessageBuffer.hpp:118-119). No check here: copying past
the end of the storage is undefined behaviour. -/
def takeRead (n : Nat) : R (List UInt8) := fun b =>
  match copyFrom b.storage b.rPos n with
  | .ok bs => .ok (bs, { b with rPos := b.rPos + n })
  | .throw m => .throw m
  | .ub m => .ub m

/-- `operator>>(IntegerT&)`, MessageBuffer.hpp:112-122, and `operator>>(enum&)` (164-168). -/
def rInt (w : Nat) : R (BitVec w) := do
  guardRead (w / 8)
  let bs ← takeRead (w / 8)
  pure (BitVec.ofNat w (leVal bs))

/-- `_storage.resize(_wPos + size)` if needed, copy, advance: common tail of MessageBuffer.hpp:296-302, 399-405,
455-461. -/
def wRaw (bytes : List UInt8) : R Unit := fun b =>
  let storage :=
    if b.wPos + bytes.length > b.storage.length then
      b.storage ++ List.replicate (b.wPos + bytes.length - b.storage.length) 0
    else b.storage
  match copyTo storage b.wPos bytes with
  | .ok st => .ok ((), { b with storage := st, wPos := b.wPos + bytes.length })
  | .throw m => .throw m
  | .ub m => .ub m

/-- `std::numeric_limits<uint32_t>::max()`. -/
def uint32Max : Nat := 2 ^ 32 - 1

/-- `operator<<(const std::string&)`, MessageBuffer.hpp:287-305; identical to `operator<<(Span<const uint8_t>)`
(389-407), to which `std::vector<uint8_t>` (322-326) and `SharedVector<uint8_t>` (430-434) forward.
`IncreaseCapacity` only reserves memory and is left out. -/
def wBytes (str : List UInt8) : R Unit :=
  if str.length > uint32Max then throwing endOfBuffer
  else do
    wInt (BitVec.ofNat 32 str.length)
    wRaw str

/-- `operator>>(std::string&)`, MessageBuffer.hpp:306-318; identical to `operator>>(std::vector<uint8_t>&)`
(327-341), to which `SharedVector<uint8_t>` (437-445) forwards. -/
def rBytes : R (List UInt8) := do
  let strLength ← rInt 32
  guardRead strLength.toNat
  takeRead strLength.toNat

/-- `for (auto&& value : vector) *this << value;`, MessageBuffer.hpp:355-358. -/
def wLoop {α : Type} (w : α → R Unit) : List α → R Unit
  | [] => pure ()
  | v :: vs => do w v; wLoop w vs

/-- `operator<<(const std::vector<ValueT>&)`, MessageBuffer.hpp:345-361. -/
def wVec {α : Type} (w : α → R Unit) (vector : List α) : R Unit :=
  if vector.length > uint32Max then throwing endOfBuffer
  else do
    wInt (BitVec.ofNat 32 vector.length)
    wLoop w vector

/-- `for (uint32_t i = 0; i < vectorSize; i++) *this >> vector[i];`, MessageBuffer.hpp:372-375. -/
def rLoop {α : Type} (r : R α) : Nat → R (List α)
  | 0 => pure []
  | n + 1 => do let v ← r; let vs ← rLoop r n; pure (v :: vs)

/-- `vector.resize(n)` before any element was read, MessageBuffer.hpp:371. The model flags a resize to more elements
than the message has bytes. -/
def resizeTo (n : Nat) : R Unit := fun b =>
  if n ≤ b.storage.length then .ok ((), b) else .ub oversizedAllocation

/-- `operator>>(std::vector<ValueT>&)`, MessageBuffer.hpp:362-378. -/
def rVec {α : Type} (r : R α) : R (List α) := do
  let vectorSize ← rInt 32
  guardRead vectorSize.toNat
  resizeTo vectorSize.toNat
  rLoop r vectorSize.toNat

/-- `operator<<(const std::array<uint8_t, SIZE>&)`, MessageBuffer.hpp:449-464 (the size test is constant). -/
def wArray {n : Nat} (array : Vector UInt8 n) : R Unit := wRaw array.toList

/-- The copy into the array, MessageBuffer.hpp:471-472. -/
def takeArray (n : Nat) : R (Vector UInt8 n) := fun b =>
  match copyFrom b.storage b.rPos n with
  | .ok bs => if h : bs.toArray.size = n then .ok (⟨bs.toArray, h⟩, { b with rPos := b.rPos + n }) else .ub outOfBounds
  | .throw m => .throw m
  | .ub m => .ub m

/-- `operator>>(std::array<uint8_t, SIZE>&)`, MessageBuffer.hpp:465-475. -/
def rArray (n : Nat) : R (Vector UInt8 n) := do
  guardRead n
  takeArray n

/-- `operator<<(std::chrono::duration)`, MessageBuffer.hpp:506-511: the 64-bit count. -/
def wDuration (d : BitVec 64) : R Unit := wInt d

/-- `operator>>(std::chrono::duration&)`, MessageBuffer.hpp:512-519. -/
def rDuration : R (BitVec 64) := rInt 64

/-- `operator<<(std::chrono::system_clock::time_point)`, MessageBuffer.hpp:521-525: nanoseconds since the epoch
(libstdc++'s `system_clock::duration`) are truncated towards zero to microseconds. -/
def wTimePoint (t : BitVec 64) : R Unit := wDuration (t.sdiv 1000)

/-- `operator>>(std::chrono::system_clock::time_point&)`, MessageBuffer.hpp:526-532: the conversion of microseconds to
the clock's nanoseconds multiplies a signed 64-bit number by 1000. -/
def rTimePoint : R (BitVec 64) := do
  let us ← rDuration
  if -(2 : Int) ^ 63 ≤ us.toInt * 1000 ∧ us.toInt * 1000 < 2 ^ 63 then
    pure (BitVec.ofInt 64 (us.toInt * 1000))
  else undefined signedOverflow

/-- `operator<<(const void*)`, MessageBuffer.hpp:536-540. -/
def wPtr (p : BitVec 64) : R Unit := wInt p

/-- `operator>>(void*&)`, MessageBuffer.hpp:542-548. -/
def rPtr : R (BitVec 64) := rInt 64

/-- `operator<<(const std::pair<T, U>&)`, MessageBuffer.hpp:626-631. -/
def wPair {α β : Type} (w1 : α → R Unit) (w2 : β → R Unit) (p : α × β) : R Unit := do w1 p.1; w2 p.2

/-- `operator>>(std::pair<T, U>&)`, MessageBuffer.hpp:633-638. -/
def rPair {α β : Type} (r1 : R α) (r2 : R β) : R (α × β) := do let a ← r1; let b ← r2; pure (a, b)

/-- The iteration order of `std::map<std::string, ...>`: lexicographic on unsigned bytes (`char_traits<char>::compare`).
-/
def bytesLt : List UInt8 → List UInt8 → Bool
  | _, [] => false
  | [], _ :: _ => true
  | a :: as, b :: bs => if a.toNat < b.toNat then true else if b.toNat < a.toNat then false else bytesLt as bs

/-- `tmp[key] = value` on `std::map<std::string, std::string>` represented as the list of its entries in key order
(MessageBuffer.hpp:584). -/
def mapAssign (key value : List UInt8) : List (List UInt8 × List UInt8) → List (List UInt8 × List UInt8)
  | [] => [(key, value)]
  | (k, v) :: rest =>
    if key == k then (k, value) :: rest
    else if bytesLt k key then (k, v) :: mapAssign key value rest
    else (key, value) :: (k, v) :: rest

/-- `operator<<(const std::map<std::string, std::string>&)`, MessageBuffer.hpp:563-571. The size is truncated to 32 bits
without a check. -/
def wMap (m : List (List UInt8 × List UInt8)) : R Unit := do
  wInt (BitVec.ofNat 32 m.length)
  wLoop (wPair wBytes wBytes) m

/-- The loop of MessageBuffer.hpp:579-585. -/
def rMapLoop : Nat → List (List UInt8 × List UInt8) → R (List (List UInt8 × List UInt8))
  | 0, tmp => pure tmp
  | n + 1, tmp => do
    let key ← rBytes
    let value ← rBytes
    rMapLoop n (mapAssign key value tmp)

/-- `operator>>(std::map<std::string, std::string>&)`, MessageBuffer.hpp:573-592. -/
def rMap : R (List (List UInt8 × List UInt8)) := do
  let numElements ← rInt 32
  let tmp ← rMapLoop numElements.toNat []
  if numElements.toNat != tmp.length then
    throwing "MessageBuffer unable to deserialize std::map<std::string, std::string>"
  else pure tmp

/-- `Util::Uuid`, util/Uuid.hpp:16-22. -/
structure Uuid where
  ab : BitVec 64
  cd : BitVec 64
deriving Repr, DecidableEq

/-- `operator<<(const Util::Uuid&)`, MessageBuffer.hpp:644-648. -/
def wUuid (u : Uuid) : R Unit := do wInt u.ab; wInt u.cd

/-- `operator>>(Util::Uuid&)`, MessageBuffer.hpp:650-654. -/
def rUuid : R Uuid := do let ab ← rInt 64; let cd ← rInt 64; pure ⟨ab, cd⟩

end MessageBuffer
end SilKit
