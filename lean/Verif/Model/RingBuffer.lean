import Verif.Model.Basic
/-!
# Model of `core/vasio/RingBuffer.cpp`
-/
namespace SilKit

/-- The members of `RingBuffer` (core/vasio/RingBuffer.hpp:51-56).
`buf` is `_buffer`; its length is the capacity. -/
structure RingBuffer where
  buf : List UInt8
  size : Nat
  wPos : Nat
  rPos : Nat
deriving Repr, DecidableEq

namespace RingBuffer

/-- core/vasio/RingBuffer.cpp:15-18: constructor, `_buffer.resize(capacity)` (zero-filled). -/
def mk' (capacity : Nat) : RingBuffer :=
  { buf := List.replicate capacity 0, size := 0, wPos := 0, rPos := 0 }

/-- core/vasio/RingBuffer.cpp:123-126 `Capacity`. -/
def capacity (b : RingBuffer) : Nat := b.buf.length

/-- core/vasio/RingBuffer.cpp:133-136 `Empty`. -/
def empty (b : RingBuffer) : Bool := b.size == 0

/-- core/vasio/RingBuffer.cpp:20-26 `AdvanceWPos` (+ `SizeCheck`, 138-144). `% 0` is undefined behaviour.
On a failed `SizeCheck` the code throws after having modified the members; the modified state is not observed any
more in the model. -/
def advanceWPos (b : RingBuffer) (numBytes : Nat) : Res RingBuffer :=
  if b.capacity = 0 then .ub "modulo by zero"
  else
    let b' := { b with wPos := (b.wPos + numBytes) % b.capacity, size := b.size + numBytes }
    if b'.size > b'.capacity then .throw "Buffer size must not exceed capacity!" else .ok b'

/-- core/vasio/RingBuffer.cpp:28-34 `AdvanceRPos`. `_size -= numBytes` wraps around when `numBytes > _size`, which
then fails `SizeCheck`. -/
def advanceRPos (b : RingBuffer) (numBytes : Nat) : Res RingBuffer :=
  if b.capacity = 0 then .ub "modulo by zero"
  else if numBytes > b.size then .throw "Buffer size must not exceed capacity!"
  else
    let b' := { b with rPos := (b.rPos + numBytes) % b.capacity, size := b.size - numBytes }
    if b'.size > b'.capacity then .throw "Buffer size must not exceed capacity!" else .ok b'

/-- core/vasio/RingBuffer.cpp:36-56 `Peek` of `n = elem.size()` bytes: `none` models the return value `false`,
`some bytes` models `true` with `elem = bytes`. Copying from outside `_buffer` is undefined behaviour. -/
def peek (b : RingBuffer) (n : Nat) : Res (Option (List UInt8)) :=
  if n > b.size then .ok none
  else if b.rPos > b.capacity then .ub "iterator out of range"
  else
    let numBytesArrayOne := min (b.capacity - b.rPos) n
    let one := (b.buf.drop b.rPos).take numBytesArrayOne
    if numBytesArrayOne < n then
      if n - numBytesArrayOne > b.capacity then .ub "copy out of range"
      else .ok (some (one ++ b.buf.take (n - numBytesArrayOne)))
    else .ok (some one)

/-- core/vasio/RingBuffer.cpp:58-68 `Read`. -/
def read (b : RingBuffer) (n : Nat) : Res (RingBuffer × Option (List UInt8)) :=
  match b.peek n with
  | .ok none => .ok (b, none)
  | .ok (some bytes) =>
    match b.advanceRPos n with
    | .ok b' => .ok (b', some bytes)
    | .throw m => .throw m
    | .ub m => .ub m
  | .throw m => .throw m
  | .ub m => .ub m

/-- core/vasio/RingBuffer.cpp:85-96 `GetFreeMemorySizeArrayOne`. -/
def freeOne (b : RingBuffer) : Nat :=
  if b.empty then b.capacity - b.wPos else min (b.capacity - b.wPos) (b.capacity - b.size)

/-- core/vasio/RingBuffer.cpp:98-109 `GetFreeMemorySizeArrayTwo`. -/
def freeTwo (b : RingBuffer) : Nat :=
  if b.empty then b.wPos else (b.capacity - b.size) - b.freeOne

/-- core/vasio/RingBuffer.cpp:70-83, 112-121 `GetWritingBuffers`: the (offset, length) of the contiguous free
regions, in the order in which they are pushed (empty regions are not pushed). -/
def getWritingBuffers (b : RingBuffer) : List (Nat × Nat) :=
  (if b.freeOne > 0 then [(b.wPos, b.freeOne)] else []) ++
  (if b.freeTwo > 0 then [(0, b.freeTwo)] else [])

/-- core/vasio/RingBuffer.cpp:146-163 `Reserve`. -/
def reserve (b : RingBuffer) (newCapacity : Nat) : Res RingBuffer :=
  if newCapacity ≤ b.capacity then .ok b
  else
    match b.peek b.size with
    | .ok none => .ok { buf := List.replicate newCapacity 0, size := b.size, rPos := 0, wPos := b.size }
    | .ok (some bytes) =>
      .ok { buf := bytes ++ List.replicate (newCapacity - bytes.length) 0, size := b.size, rPos := 0, wPos := b.size }
    | .throw m => .throw m
    | .ub m => .ub m

/-- The effect of the socket storing `bytes` at offset `off` (`recv` into a buffer obtained from
`GetWritingBuffers`, core/vasio/VAsioPeer.cpp:216-224). Writing outside `_buffer` is undefined behaviour. -/
def store (buf : List UInt8) (off : Nat) (bytes : List UInt8) : Res (List UInt8) :=
  if off + bytes.length > buf.length then .ub "write out of range"
  else .ok (buf.take off ++ bytes ++ buf.drop (off + bytes.length))

/-- Scatter-read: the socket fills the given regions one after the other. -/
def scatter (buf : List UInt8) : List (Nat × Nat) → List UInt8 → Res (List UInt8)
  | [], _ => .ok buf
  | (off, len) :: rest, bytes =>
    match store buf off (bytes.take len) with
    | .ok buf' => scatter buf' rest (bytes.drop len)
    | .throw m => .throw m
    | .ub m => .ub m

/-- Total size of a list of regions. -/
def total (regions : List (Nat × Nat)) : Nat := (regions.map (·.2)).sum

/-- One completed `AsyncReadSome`: the socket has up to `bytes` available, stores as many as fit in the regions and
reports the number, which is then passed to `AdvanceWPos` (core/vasio/VAsioPeer.cpp:216-224, 301-308). Returns the
number of bytes taken from the socket. -/
def receive (b : RingBuffer) (bytes : List UInt8) : Res (RingBuffer × Nat) :=
  let regions := b.getWritingBuffers
  let n := min bytes.length (total regions)
  match scatter b.buf regions (bytes.take n) with
  | .ok buf' =>
    match ({ b with buf := buf' } : RingBuffer).advanceWPos n with
    | .ok b' => .ok (b', n)
    | .throw m => .throw m
    | .ub m => .ub m
  | .throw m => .throw m
  | .ub m => .ub m

/-- The operations its only user (`VAsioPeer`) issues on the buffer. -/
inductive Op where
  | receive (bytes : List UInt8)
  | peek (n : Nat)
  | read (n : Nat)
  | reserve (n : Nat)
deriving Repr, DecidableEq

/-- What the caller observes: number of bytes accepted, bytes read/peeked (`none` = `false`), nothing. -/
inductive Obs where
  | accepted (n : Nat)
  | bytes (bs : Option (List UInt8))
  | unit
deriving Repr, DecidableEq

/-- Dispatch of one operation. -/
def step (b : RingBuffer) : Op → Res (RingBuffer × Obs)
  | .receive bytes => match b.receive bytes with
    | .ok (b', n) => .ok (b', .accepted n)
    | .throw m => .throw m
    | .ub m => .ub m
  | .peek n => match b.peek n with
    | .ok r => .ok (b, .bytes r)
    | .throw m => .throw m
    | .ub m => .ub m
  | .read n => match b.read n with
    | .ok (b', r) => .ok (b', .bytes r)
    | .throw m => .throw m
    | .ub m => .ub m
  | .reserve n => match b.reserve n with
    | .ok b' => .ok (b', .unit)
    | .throw m => .throw m
    | .ub m => .ub m

/-- A whole history of operations; collects the observations. -/
def run (b : RingBuffer) : List Op → Res (RingBuffer × List Obs)
  | [] => .ok (b, [])
  | op :: ops => match b.step op with
    | .ok (b', o) => match b'.run ops with
      | .ok (b'', os) => .ok (b'', o :: os)
      | .throw m => .throw m
      | .ub m => .ub m
    | .throw m => .throw m
    | .ub m => .ub m

end RingBuffer
end SilKit
