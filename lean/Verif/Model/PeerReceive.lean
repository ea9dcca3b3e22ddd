import Verif.Model.RingBuffer
/-!
# Model of the receive path of `core/vasio/VAsioPeer.cpp`
-/
namespace SilKit.PeerReceive

/-- How the listener (`VAsioConnection::OnSocketData`) reacts to a message (core/vasio/VAsioPeer.cpp:284-290):
it returns, it returns after the peer has been shut down by it (`Shutdown()`), or an exception leaves
`SerializedMessage{...}` / `OnSocketData`. -/
inductive Reaction where
  | ok
  | shutdown
  | throws
deriving Repr, DecidableEq

/-- Receive-related members of `VAsioPeer` (core/vasio/VAsioPeer.hpp:116-121) plus ghost history:
`readPending` – an `AsyncReadSome` is outstanding; `delivered` – messages handed to the listener so far, oldest first.
-/
structure State where
  ring : RingBuffer
  currentMsgSize : Nat
  isShuttingDown : Bool
  readPending : Bool
  delivered : List (List UInt8)
deriving Repr, DecidableEq

/-- core/vasio/VAsioPeer.cpp:243: `*reinterpret_cast<uint32_t*>(msgSizeInBytes.data())` on a little-endian machine. -/
def le32 : List UInt8 → Nat
  | [a, b, c, d] => a.toNat + 256 * b.toNat + 65536 * c.toNat + 16777216 * d.toNat
  | _ => 0

/-- core/vasio/VAsioPeer.cpp:216-224 `ReadSomeAsync`: asserts free space, then starts a read. -/
def readSomeAsync (s : State) : Res State :=
  if s.ring.capacity - s.ring.size > 0 then .ok { s with readPending := true }
  else .throw "SILKIT_ASSERT(_msgBuffer.Capacity() - _msgBuffer.Size() > 0)"

/-- core/vasio/VAsioPeer.cpp:55-66 `Shutdown` (the part relevant for receiving). -/
def shutdown (s : State) : State := { s with isShuttingDown := true }

/-- Result of the dispatch loop: it ended normally, or an exception escaped to the I/O loop
(core/vasio/VAsioConnection.cpp:1213-1231 logs it and continues; this peer has no outstanding read then). -/
inductive Outcome where
  | done (s : State)
  | escaped (s : State)
  | ub
  | outOfFuel
deriving Repr, DecidableEq

/-- core/vasio/VAsioPeer.cpp:230-252: first part of the loop body of `DispatchBuffer`, determines the size of the next
message. `.inl` = the loop is left here. -/
def nextSize (s : State) : Outcome ⊕ State :=
  if s.currentMsgSize = 0 then
    if s.isShuttingDown = true then .inl (.done s)
    else if s.ring.size ≥ 4 then
      match s.ring.peek 4 with
      | .ok (some bytes) => .inr { s with currentMsgSize := le32 bytes }
      | .ok none => .inl (.escaped s)
      | .throw _ => .inl (.escaped s)
      | .ub _ => .inl .ub
    else
      match readSomeAsync s with
      | .ok s' => .inl (.done s')
      | .throw _ => .inl (.escaped s)
      | .ub _ => .inl .ub
  else .inr s

/-- core/vasio/VAsioPeer.cpp:254-293: second part of the loop body of `DispatchBuffer`; `loop` is the next iteration.
`react h m` is the listener's reaction to message `m` after the history `h` of delivered messages (arbitrary). -/
def handleMessage (react : List (List UInt8) → List UInt8 → Reaction) (loop : State → Outcome) (s : State) : Outcome :=
  -- lines 255-262
  if s.currentMsgSize = 0 ∨ s.currentMsgSize > 1024 * 1024 * 1024 then .done (shutdown s)
  -- lines 265-275
  else if s.ring.size < s.currentMsgSize then
    match (if s.ring.capacity < s.currentMsgSize then s.ring.reserve s.currentMsgSize else .ok s.ring) with
    | .ok ring =>
      match readSomeAsync { s with ring } with
      | .ok s' => .done s'
      | .throw _ => .escaped { s with ring }
      | .ub _ => .ub
    | .throw _ => .escaped s
    | .ub _ => .ub
  -- lines 276-293
  else
    match s.ring.read s.currentMsgSize with
    | .ok (ring, some msg) =>
      match react s.delivered msg with
      | .ok => loop { s with ring, delivered := s.delivered ++ [msg], currentMsgSize := 0 }
      | .shutdown => loop (shutdown { s with ring, delivered := s.delivered ++ [msg], currentMsgSize := 0 })
      | .throws => .escaped { s with ring, delivered := s.delivered ++ [msg] }
    | .ok (ring, none) => .escaped { s with ring }
    | .throw _ => .escaped s
    | .ub _ => .ub

/-- core/vasio/VAsioPeer.cpp:226-295 `DispatchBuffer`. The `while(true)` loop is unrolled with fuel; running out of fuel
is a distinct outcome. -/
def dispatchBuffer (react : List (List UInt8) → List UInt8 → Reaction) : Nat → State → Outcome
  | 0, _ => .outOfFuel
  | fuel + 1, s =>
    match nextSize s with
    | .inl o => o
    | .inr s' => handleMessage react (dispatchBuffer react fuel) s'

/-- core/vasio/VAsioPeer.cpp:209-214 `StartAsyncRead` on a fresh peer whose ring buffer has capacity `cap`
(the constructor uses 4096, core/vasio/VAsioPeer.cpp:36-46). -/
def start (cap : Nat) : Res State :=
  readSomeAsync { ring := RingBuffer.mk' cap, currentMsgSize := 0, isShuttingDown := false, readPending := false,
                  delivered := [] }

/-- core/vasio/VAsioPeer.cpp:301-308 `OnAsyncReadSomeDone`: the socket has `avail` bytes available, stores as many as
fit, and the buffer is dispatched. Returns how many bytes were taken from the socket. -/
def onAsyncReadSomeDone (react : List (List UInt8) → List UInt8 → Reaction) (s : State) (avail : List UInt8) :
    Outcome × Nat :=
  match s.ring.receive avail with
  | .ok (ring, n) => (dispatchBuffer react (ring.size + 2) { s with ring, readPending := false }, n)
  | .throw _ => (.escaped { s with readPending := false }, 0)
  | .ub _ => (.ub, 0)

/-- The connection as a whole: the peer, and the bytes the remote side has written that are still in the operating
system (`stream`). `taken` counts the bytes taken out of the OS so far (ghost). -/
structure Conn where
  peer : State
  stream : List UInt8
  taken : List UInt8
deriving Repr, DecidableEq

/-- One read completion with at most `k` bytes (the OS decides `k`). It can only happen while a read is outstanding
and the OS has data (`k > 0`). A completion that is not possible is ignored. -/
def Conn.recv (react : List (List UInt8) → List UInt8 → Reaction) (c : Conn) (k : Nat) : Option Conn :=
  if c.peer.readPending = false ∨ k = 0 ∨ c.stream = [] then some c
  else
    match onAsyncReadSomeDone react c.peer (c.stream.take k) with
    | (.done p, n) => some { peer := p, stream := c.stream.drop n, taken := c.taken ++ c.stream.take n }
    | (.escaped p, n) => some { peer := p, stream := c.stream.drop n, taken := c.taken ++ c.stream.take n }
    | (.ub, _) => none
    | (.outOfFuel, _) => none

/-- A sequence of read completions of the given maximal sizes. `none` = undefined behaviour or endless loop. -/
def Conn.run (react : List (List UInt8) → List UInt8 → Reaction) (c : Conn) : List Nat → Option Conn
  | [] => some c
  | k :: ks => match c.recv react k with
    | some c' => c'.run react ks
    | none => none

/-- A fresh connection on which the remote side will write `stream`. -/
def Conn.start (cap : Nat) (stream : List UInt8) : Option Conn :=
  match PeerReceive.start cap with
  | .ok p => some { peer := p, stream, taken := [] }
  | _ => none

end SilKit.PeerReceive
