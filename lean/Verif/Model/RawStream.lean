import Verif.Model.Basic
/-!
# The byte stream of a connection (core/vasio/io/impl/AsioGenericRawByteStream.cpp)

The stream is used by any threads; every section that holds the mutex is one step. There is one I/O thread: it runs one completion at a time, and calls
the listener after the mutex was released, so calls of other threads can come in between. The socket is an environment that takes bytes from what the
peer sent and hands bytes over to the peer, in any portions and with any errors. Not modelled: exceptions and errors of `async_read_some`,
`async_write_some` and `close` themselves, socket options, endpoints, and more than one thread that runs the I/O context.
-/
namespace SilKit.RawStream

abbrev Bytes := List UInt8

/-- The error code of a completion: none, one of IsErrorToTryAgain (AsioGenericRawByteStream.cpp:42-49), any other. -/
inductive Code | success | again | failure
deriving Repr, DecidableEq

/-- Calls to the listener, IRawByteStream.hpp:36-45. The code passes the number of bytes of a read; the bytes themselves are in the buffer. -/
inductive Call
  | readDone (data : Bytes)
  | writeDone (data : Bytes)
  | shutdown
deriving Repr, DecidableEq

/-- What can be observed: requests that were accepted, and calls to the listener. -/
inductive Event
  | readRequest (size : Nat)
  | writeRequest (data : Bytes)
  | called (call : Call)
deriving Repr, DecidableEq

structure State where
  /-- _shutdownPending -/
  shutdownPending : Bool := false
  /-- _shutdownPosted -/
  shutdownPosted : Bool := false
  /-- _reading -/
  reading : Bool := false
  /-- _writing -/
  writing : Bool := false
  /-- _readBufferSequence: the capacity of the buffers -/
  readBuffer : Nat := 0
  /-- _writeBufferSequence: the contents of the buffers -/
  writeBuffer : Bytes := []
  /-- a read operation of the socket has been started and not been completed -/
  readStarted : Bool := false
  /-- a write operation of the socket has been started and not been completed -/
  writeStarted : Bool := false
  /-- the socket was closed -/
  closed : Bool := false
  /-- what the peer has sent, from the position of the next read on -/
  incoming : Bytes := []
  /-- what was handed over to the peer -/
  outgoing : Bytes := []
  /-- asio::post: the number of posted calls of OnShutdown -/
  posted : Nat := 0
  /-- the I/O thread has released the mutex and is about to call the listener -/
  inCall : Option Call := none
  /-- what happened so far; a ghost -/
  log : List Event := []
  /-- an InvalidStateError was thrown by a completion -/
  invalid : Bool := false
deriving Repr, DecidableEq

inductive Op
  /-- AsyncReadSome with buffers of a size in total -/
  | asyncRead (size : Nat)
  /-- AsyncWriteSome -/
  | asyncWrite (data : Bytes)
  /-- Shutdown -/
  | shutdown
  /-- the peer sends bytes -/
  | receive (data : Bytes)
  /-- the I/O thread runs the completion of the read, for which `n` bytes were transferred -/
  | readComplete (code : Code) (n : Nat)
  | writeComplete (code : Code) (n : Nat)
  /-- the I/O thread runs a posted call -/
  | runPosted
  /-- the I/O thread calls the listener -/
  | call
deriving Repr, DecidableEq

/-- The condition at the end of HandleShutdownOrError, AsioGenericRawByteStream.cpp:279-290. -/
def postShutdown (s : State) : State :=
  if s.reading = false ∧ s.writing = false ∧ s.shutdownPosted = false then { s with shutdownPosted := true, posted := s.posted + 1 } else s

/-- HandleShutdownOrError, AsioGenericRawByteStream.cpp:257-291. -/
def handleShutdown (s : State) : State :=
  postShutdown (if s.shutdownPending then s else { s with shutdownPending := true, closed := true })

/-- AsyncReadSome, AsioGenericRawByteStream.cpp:100-131; the result tells whether InvalidStateError is thrown. -/
def asyncRead (s : State) (size : Nat) : State × Bool :=
  if s.shutdownPending then (s, false)
  else if s.reading then (s, true)
  else ({ s with reading := true, readBuffer := size, readStarted := true, log := s.log ++ [.readRequest size] }, false)

/-- AsyncWriteSome, AsioGenericRawByteStream.cpp:134-165. -/
def asyncWrite (s : State) (data : Bytes) : State × Bool :=
  if s.shutdownPending then (s, false)
  else if s.writing then (s, true)
  else ({ s with writing := true, writeBuffer := data, writeStarted := true, log := s.log ++ [.writeRequest data] }, false)

/-- OnAsioAsyncReadSomeComplete from the check for a shutdown on, AsioGenericRawByteStream.cpp:195-216; `data` is in the buffer. -/
def afterRead (s : State) (code : Code) (data : Bytes) : State :=
  if s.shutdownPending ∨ code = .failure then handleShutdown s
  else if code ≠ .success ∧ data.length = 0 then { s with reading := true, readStarted := true }
  else { s with inCall := some (.readDone data) }

/-- OnAsioAsyncReadSomeComplete, AsioGenericRawByteStream.cpp:179-216. -/
def onRead (s : State) (code : Code) (data : Bytes) : State :=
  if s.reading then afterRead { s with reading := false } code data else { s with invalid := true }

/-- OnAsioAsyncWriteSomeComplete from the check for a shutdown on, AsioGenericRawByteStream.cpp:235-254. -/
def afterWrite (s : State) (code : Code) (data : Bytes) : State :=
  if s.shutdownPending ∨ code = .failure then handleShutdown s
  else if code ≠ .success ∧ data.length = 0 then { s with writing := true, writeStarted := true }
  else { s with inCall := some (.writeDone data) }

/-- OnAsioAsyncWriteSomeComplete, AsioGenericRawByteStream.cpp:219-254. -/
def onWrite (s : State) (code : Code) (data : Bytes) : State :=
  if s.writing then afterWrite { s with writing := false } code data else { s with invalid := true }

/-- What the socket does: at most as many bytes as there are and as fit into the buffers. -/
def socketRead (s : State) (code : Code) (n : Nat) : State :=
  let data := s.incoming.take (min n s.readBuffer)
  onRead { s with readStarted := false, incoming := s.incoming.drop (min n s.readBuffer) } code data

def socketWrite (s : State) (code : Code) (n : Nat) : State :=
  let data := s.writeBuffer.take n
  onWrite { s with writeStarted := false, outgoing := s.outgoing ++ data } code data

/-- One step. Steps of the I/O thread need it to be idle, and completions need an operation. A failed operation transfers no bytes. -/
def step (s : State) : Op → State
  | .asyncRead size => (asyncRead s size).1
  | .asyncWrite data => (asyncWrite s data).1
  | .shutdown => handleShutdown s
  | .receive data => { s with incoming := s.incoming ++ data }
  | .readComplete code n =>
    if s.inCall = none ∧ s.readStarted = true then socketRead s code (if code = .failure then 0 else n) else s
  | .writeComplete code n =>
    if s.inCall = none ∧ s.writeStarted = true then socketWrite s code (if code = .failure then 0 else n) else s
  | .runPosted =>
    if s.inCall = none ∧ s.posted ≠ 0 then { s with posted := s.posted - 1, inCall := some .shutdown } else s
  | .call =>
    match s.inCall with
    | some c => { s with inCall := none, log := s.log ++ [.called c] }
    | none => s

def run (ops : List Op) : State := ops.foldl step {}

end SilKit.RawStream
