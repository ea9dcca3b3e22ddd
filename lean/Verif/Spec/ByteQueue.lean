import Verif.Model.RingBuffer
/-!
# Specification: a bounded byte queue

Independent of the ring buffer's positions: a list of bytes and a capacity.
-/
namespace SilKit.Spec

/-- A FIFO of bytes (oldest first) that holds at most `cap` bytes. -/
structure ByteQueue where
  cap : Nat
  items : List UInt8
deriving Repr, DecidableEq

namespace ByteQueue

/-- The empty queue. -/
def empty (cap : Nat) : ByteQueue := { cap, items := [] }

/-- What each operation means for a queue. `receive` appends as many bytes as there is room for, `peek`/`read` return
the oldest bytes if there are enough (only `read` removes them), `reserve` raises the capacity. -/
def step (q : ByteQueue) : RingBuffer.Op → ByteQueue × RingBuffer.Obs
  | .receive bytes =>
    let room := q.cap - q.items.length
    ({ q with items := q.items ++ bytes.take room }, .accepted (min bytes.length room))
  | .peek n => (q, .bytes (if n ≤ q.items.length then some (q.items.take n) else none))
  | .read n =>
    if n ≤ q.items.length then ({ q with items := q.items.drop n }, .bytes (some (q.items.take n)))
    else (q, .bytes none)
  | .reserve n => ({ q with cap := max q.cap n }, .unit)

/-- A whole history. -/
def run (q : ByteQueue) : List RingBuffer.Op → ByteQueue × List RingBuffer.Obs
  | [] => (q, [])
  | op :: ops =>
    let (q', o) := q.step op
    let (q'', os) := q'.run ops
    (q'', o :: os)

/-- The bytes that went in: for each `receive`, the accepted part. -/
def written : List RingBuffer.Op → List RingBuffer.Obs → List UInt8
  | .receive bytes :: ops, .accepted n :: os => bytes.take n ++ written ops os
  | _ :: ops, _ :: os => written ops os
  | _, _ => []

/-- The bytes that came out through `read`. -/
def readOut : List RingBuffer.Op → List RingBuffer.Obs → List UInt8
  | .read _ :: ops, .bytes (some bs) :: os => bs ++ readOut ops os
  | _ :: ops, _ :: os => readOut ops os
  | _, _ => []

end ByteQueue
end SilKit.Spec
