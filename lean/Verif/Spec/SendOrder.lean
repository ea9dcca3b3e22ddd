import Verif.Model.PeerSend
/-!
# Specification vocabulary for outgoing message order
-/
namespace SilKit.Spec
open PeerSend

/-- The messages handed to the connection in a history, in order. -/
def sent : List Event → List Msg
  | [] => []
  | .send m :: es => m :: sent es
  | _ :: es => sent es

/-- The bytes of a list of whole messages. -/
def bytesOf (ms : List Msg) : List UInt8 := (ms.map (·.bytes)).flatten

/-- User data and step-completion/status messages, whose mutual order matters. -/
def timed (ms : List Msg) : List Msg := ms.filter (fun m => m.kind ≠ .other)

/-- All other (control) messages. -/
def control (ms : List Msg) : List Msg := ms.filter (fun m => m.kind = .other)

/-- `out` contains exactly the messages of `ms`, with user data and step-completion/status messages in unchanged order
among each other, and control messages in unchanged order among each other. -/
def SameUpToControl (ms out : List Msg) : Prop := timed out = timed ms ∧ control out = control ms

/-- Measure of the work left for the I/O thread: bytes to write, buffers to start, functors to run. -/
def work (s : State) : Nat :=
  s.current.length + s.sendingQueue.flatten.length + 2 * s.sendingQueue.length + s.pendingStarts +
    (if s.sending then 1 else 0)

end SilKit.Spec
