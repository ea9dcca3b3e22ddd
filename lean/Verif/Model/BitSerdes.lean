import Verif.Model.MessageBuffer
/-!
# Model of the public `Util::SerDes::Serializer` and `Deserializer`

`include/silkit/util/serdes/Serializer.hpp` and `Deserializer.hpp`. `uint64_t` members are `Nat` with explicit reduction
modulo 2^64 after left shifts. An integral type `T` is its width `w` (8, 16, 32, 64) and signedness.
-/
namespace SilKit.BitSerdes
open MessageBuffer (leBytes leVal)

/-- Members of `Serializer`, Serializer.hpp:247-249. -/
structure Ser where
  buffer : List UInt8 := []
  unalignedData : Nat := 0
  unalignedBits : Nat := 0
deriving Repr, DecidableEq

/-- `Serializer::Align`, Serializer.hpp:239-247 (pushes the low byte of the pending bits). -/
def Ser.align (s : Ser) : Ser :=
  if s.unalignedBits ≠ 0 then
    { buffer := s.buffer ++ [UInt8.ofNat (s.unalignedData % 256)], unalignedData := 0, unalignedBits := 0 }
  else s

/-- `SerializeUnaligned` for unsigned types of width `w`, Serializer.hpp:183-215. `data` is the argument as a number below
2^w. The copied value is *not* masked to `bitSize` bits. Shifting by the full width or copying more than eight bytes
would be undefined. -/
def Ser.unalignedU (s : Ser) (w data bitSize : Nat) : Res Ser :=
  if s.unalignedBits ≥ 8 then .throw "SerializedUnaligned(): current mUnalignedBits >= 8"
  else if bitSize > w then .throw "SerializedUnaligned(): current bitSize > 8 * sizeof(T)"
  else
    let d := s.unalignedData ||| (data <<< s.unalignedBits) % 2 ^ 64
    let flushBytes := (s.unalignedBits + bitSize) / 8
    let remainingBits := (s.unalignedBits + bitSize) % 8
    if flushBytes = 0 then .ok { s with unalignedData := d, unalignedBits := remainingBits }
    else if flushBytes > 8 then .ub outOfBounds
    else if flushBytes = 8 then
      if 64 - s.unalignedBits ≥ w then .ub "shift by at least the width"
      else .ok { buffer := s.buffer ++ leBytes 8 d, unalignedData := data >>> (64 - s.unalignedBits),
                 unalignedBits := remainingBits }
    else .ok { buffer := s.buffer ++ leBytes flushBytes d, unalignedData := d >>> (flushBytes * 8),
               unalignedBits := remainingBits }

/-- `SerializeUnaligned` for signed types, Serializer.hpp:217-228: masked to `bitSize` bits first. -/
def Ser.unalignedS (s : Ser) (w : Nat) (data : BitVec w) (bitSize : Nat) : Res Ser :=
  s.unalignedU w (if bitSize < w then data.toNat &&& (2 ^ bitSize - 1) else data.toNat) bitSize

/-- `SerializeAligned`, Serializer.hpp:230-237: copies the first `numBytes` bytes of the object. Copying more bytes than
the object has, or forming `&mBuffer[oldSize]` without growing, is undefined. -/
def Ser.aligned (s : Ser) (w data numBytes : Nat) : Res Ser :=
  if numBytes = 0 ∨ numBytes > w / 8 then .ub outOfBounds
  else .ok { s.align with buffer := s.align.buffer ++ leBytes numBytes data }

/-- `Serialize(T data, bitSize)` for unsigned `T`, Serializer.hpp:41-53. -/
def Ser.uint (s : Ser) (w : Nat) (data : BitVec w) (bitSize : Nat) : Res Ser :=
  if bitSize % 8 ≠ 0 then s.unalignedU w data.toNat bitSize else s.aligned w data.toNat (bitSize / 8)

/-- `Serialize(T data, bitSize)` for signed `T`, Serializer.hpp:41-53. -/
def Ser.sint (s : Ser) (w : Nat) (data : BitVec w) (bitSize : Nat) : Res Ser :=
  if bitSize % 8 ≠ 0 then s.unalignedS w data bitSize else s.aligned w data.toNat (bitSize / 8)

/-- Appending raw bytes to the buffer (Serializer.hpp:74-76, 85-87, 96-98). -/
def Ser.raw (s : Ser) (bytes : List UInt8) : Ser := { s with buffer := s.buffer ++ bytes }

/-- `Serialize(bool)`, Serializer.hpp:57-60; also `BeginOptional`, 128-131. -/
def Ser.bool (s : Ser) (b : Bool) : Res Ser := s.aligned 8 (if b then 1 else 0) 1

/-- `Serialize(float/double)`, Serializer.hpp:67-77: `raw` is the object representation (4 or 8 bytes). -/
def Ser.float (s : Ser) (raw : List UInt8) : Res Ser := .ok (s.align.raw raw)

/-- `Serialize(std::string)` (82-88) and `Serialize(const std::vector<uint8_t>&)` (93-99): the length is cast to
`uint32_t`. -/
def Ser.bytes (s : Ser) (str : List UInt8) : Res Ser :=
  match s.aligned 32 (str.length % 2 ^ 32) 4 with
  | .ok s' => .ok (s'.raw str)
  | .throw m => .throw m
  | .ub m => .ub m

/-- `BeginArray`, Serializer.hpp:113-120 (release build, no range check). -/
def Ser.beginArray (s : Ser) (size : Nat) : Res Ser := s.aligned 32 (size % 2 ^ 32) 4

/-- `BeginUnion`, Serializer.hpp:140-150 (release build, no range check). -/
def Ser.beginUnion (s : Ser) (discriminator : BitVec 32) : Res Ser := s.aligned 32 discriminator.toNat 4

/-- `ReleaseBuffer`, Serializer.hpp:167-175: the data and the serializer afterwards (`Reset`, 156-161). -/
def Ser.release (s : Ser) : List UInt8 × Ser := (s.align.buffer, {})

/-- Members of `Deserializer`, Deserializer.hpp:279-282. -/
structure Des where
  buffer : List UInt8
  readPos : Nat := 0
  unalignedData : Nat := 0
  unalignedBits : Nat := 0
deriving Repr, DecidableEq

/-- `Deserializer::Align`, Deserializer.hpp:264-268. -/
def Des.align (d : Des) : Des := { d with unalignedData := 0, unalignedBits := 0 }

/-- `AssertCapacity`, Deserializer.hpp:270-274 (`mBuffer.size() - mReadPos` wraps around if the read position is behind the
end; the check passes then). -/
def Des.lacks (d : Des) (requiredSize : Nat) : Bool :=
  d.readPos ≤ d.buffer.length && d.buffer.length - d.readPos < requiredSize

/-- Message of the exception thrown by `AssertCapacity`. -/
def endOfData : String := "SilKit::Util::Serdes::Deserializer::AssertCapacity: end of buffer"

/-- `&mBuffer[mReadPos]` and copying `n` bytes; undefined outside of the buffer. -/
def Des.fetch (d : Des) (n : Nat) : Res (List UInt8) :=
  if d.readPos + n ≤ d.buffer.length then .ok ((d.buffer.drop d.readPos).take n) else .ub outOfBounds

/-- Last part of `DeserializeUnaligned`, Deserializer.hpp:210-227, with `readData`/`readBits` as left by the first part. -/
def Des.extract (d : Des) (w bitSize readData readBits : Nat) : Res (Nat × Des) :=
  let result := d.unalignedData % 2 ^ w
  let result := if bitSize < w then result &&& (2 ^ bitSize - 1) else result
  if bitSize ≥ 64 then .ub "shift by at least the width"
  else
    let data := d.unalignedData >>> bitSize
    let bits := d.unalignedBits - bitSize
    if readBits ≠ 0 then
      .ok (result, { d with unalignedData := data ||| (readData <<< bits) % 2 ^ 64, unalignedBits := bits + readBits })
    else .ok (result, { d with unalignedData := data, unalignedBits := bits })

/-- `DeserializeUnaligned` for unsigned types, Deserializer.hpp:174-228. -/
def Des.unalignedU (d : Des) (w bitSize : Nat) : Res (Nat × Des) :=
  if d.unalignedBits ≥ 8 then .throw "DeserializedUnaligned(): current mUnalignedBits >= 8"
  else if bitSize > w then .throw "DeserializedUnaligned(): current bitSize > 8 * sizeof(T)"
  else if d.unalignedBits < bitSize then
    let missingBits := bitSize - d.unalignedBits
    let readBytes := missingBits / 8 + (if missingBits % 8 > 0 then 1 else 0)
    if d.lacks readBytes then .throw endOfData
    else if readBytes > 8 then .ub outOfBounds
    else match d.fetch readBytes with
      | .ok bytes =>
        let readData := leVal bytes
        let data := d.unalignedData ||| (readData <<< d.unalignedBits) % 2 ^ 64
        if d.unalignedBits + readBytes * 8 > 64 then
          Des.extract { d with readPos := d.readPos + readBytes, unalignedData := data, unalignedBits := 64 } w bitSize
            (readData >>> (64 - d.unalignedBits)) (d.unalignedBits + readBytes * 8 - 64)
        else
          Des.extract { d with readPos := d.readPos + readBytes, unalignedData := data,
                               unalignedBits := d.unalignedBits + readBytes * 8 } w bitSize readData 0
      | .throw m => .throw m
      | .ub m => .ub m
  else d.extract w bitSize 0 0

/-- `DeserializeUnaligned` for signed types, Deserializer.hpp:229-249: shift to the top, then arithmetic shift down. -/
def Des.unalignedS (d : Des) (w bitSize : Nat) : Res (BitVec w × Des) :=
  match d.unalignedU w bitSize with
  | .ok (u, d') => .ok (((BitVec.ofNat w u) <<< (w - bitSize)).sshiftRight (w - bitSize), d')
  | .throw m => .throw m
  | .ub m => .ub m

/-- The common part of `DeserializeAligned`, Deserializer.hpp:251-262: the fetched bytes. `numBytes` of zero shifts by the
full width, more than `sizeof(T)` writes in front of the object. -/
def Des.alignedRaw (d : Des) (w numBytes : Nat) : Res (List UInt8 × Des) :=
  if d.align.lacks numBytes then .throw endOfData
  else if numBytes = 0 ∨ numBytes > w / 8 then .ub outOfBounds
  else match d.align.fetch numBytes with
    | .ok bytes => .ok (bytes, { d.align with readPos := d.align.readPos + numBytes })
    | .throw m => .throw m
    | .ub m => .ub m

/-- `DeserializeAligned` for unsigned types: bytes copied to the top, then logical shift down (the uninitialised low bytes
are shifted out). -/
def Des.alignedU (d : Des) (w numBytes : Nat) : Res (BitVec w × Des) :=
  match d.alignedRaw w numBytes with
  | .ok (bytes, d') => .ok (((BitVec.ofNat w (leVal bytes)) <<< (w - 8 * numBytes)) >>> (w - 8 * numBytes), d')
  | .throw m => .throw m
  | .ub m => .ub m

/-- `DeserializeAligned` for signed types: arithmetic shift down. -/
def Des.alignedS (d : Des) (w numBytes : Nat) : Res (BitVec w × Des) :=
  match d.alignedRaw w numBytes with
  | .ok (bytes, d') => .ok (((BitVec.ofNat w (leVal bytes)) <<< (w - 8 * numBytes)).sshiftRight (w - 8 * numBytes), d')
  | .throw m => .throw m
  | .ub m => .ub m

/-- `Deserialize<T>(bitSize)` for unsigned `T`, Deserializer.hpp:42-55. -/
def Des.uint (d : Des) (w bitSize : Nat) : Res (BitVec w × Des) :=
  if bitSize % 8 ≠ 0 then
    match d.unalignedU w bitSize with
    | .ok (u, d') => .ok (BitVec.ofNat w u, d')
    | .throw m => .throw m
    | .ub m => .ub m
  else d.alignedU w (bitSize / 8)

/-- `Deserialize<T>(bitSize)` for signed `T`, Deserializer.hpp:42-55. -/
def Des.sint (d : Des) (w bitSize : Nat) : Res (BitVec w × Des) :=
  if bitSize % 8 ≠ 0 then d.unalignedS w bitSize else d.alignedS w (bitSize / 8)

/-- `Deserialize<bool>`, Deserializer.hpp:60-64; also `BeginOptional`, 137-140. -/
def Des.bool (d : Des) : Res (Bool × Des) :=
  match d.alignedU 8 1 with
  | .ok (v, d') => .ok (v ≠ 0, d')
  | .throw m => .throw m
  | .ub m => .ub m

/-- `AssertCapacity(n)` followed by taking `n` bytes (Deserializer.hpp:76-82, 91-94, 104-107). -/
def Des.take (d : Des) (n : Nat) : Res (List UInt8 × Des) :=
  if d.lacks n then .throw endOfData
  else match d.fetch n with
    | .ok bytes => .ok (bytes, { d with readPos := d.readPos + n })
    | .throw m => .throw m
    | .ub m => .ub m

/-- `Deserialize<float/double>`, Deserializer.hpp:69-83, `n` = `sizeof(T)`. -/
def Des.float (d : Des) (n : Nat) : Res (List UInt8 × Des) := d.align.take n

/-- `Deserialize<std::string>` (88-96) and `Deserialize<std::vector<uint8_t>>` (101-109). -/
def Des.bytes (d : Des) : Res (List UInt8 × Des) :=
  match d.alignedU 32 4 with
  | .ok (size, d') => d'.take size.toNat
  | .throw m => .throw m
  | .ub m => .ub m

end SilKit.BitSerdes
