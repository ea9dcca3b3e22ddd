import Verif.Model.RawStream
/-! # Specification: what a listener of a byte stream can rely on -/
namespace SilKit.RawStream

/-- All bytes that the peer has sent. -/
def receivedBy : List Op → Bytes
  | [] => []
  | .receive data :: ops => data ++ receivedBy ops
  | _ :: ops => receivedBy ops

/-- The bytes that the listener was given. -/
def readData : List Event → Bytes
  | [] => []
  | .called (.readDone data) :: l => data ++ readData l
  | _ :: l => readData l

/-- The bytes that the listener was told to be written. -/
def writtenData : List Event → Bytes
  | [] => []
  | .called (.writeDone data) :: l => data ++ writtenData l
  | _ :: l => writtenData l

/-- Requests and completions of reads take turns, a request first, and a completion fits into the buffers of the request. `pending` is the request
that is not completed. -/
def ReadsTakeTurns (pending : Option Nat) : List Event → Prop
  | [] => True
  | .readRequest size :: l => pending = none ∧ ReadsTakeTurns (some size) l
  | .called (.readDone data) :: l => (∃ size, pending = some size ∧ data.length ≤ size) ∧ ReadsTakeTurns none l
  | _ :: l => ReadsTakeTurns pending l

/-- The same for writes; what was written is a beginning of what was requested. -/
def WritesTakeTurns (pending : Option Bytes) : List Event → Prop
  | [] => True
  | .writeRequest data :: l => pending = none ∧ WritesTakeTurns (some data) l
  | .called (.writeDone data) :: l => (∃ all, pending = some all ∧ data <+: all) ∧ WritesTakeTurns none l
  | _ :: l => WritesTakeTurns pending l

/-- The request whose completion has not been reported. -/
def openRead (pending : Option Nat) : List Event → Option Nat
  | [] => pending
  | .readRequest size :: l => openRead (some size) l
  | .called (.readDone _) :: l => openRead none l
  | _ :: l => openRead pending l

def openWrite (pending : Option Bytes) : List Event → Option Bytes
  | [] => pending
  | .writeRequest data :: l => openWrite (some data) l
  | .called (.writeDone _) :: l => openWrite none l
  | _ :: l => openWrite pending l

/-- The user makes a request only after the completion of the previous one of its kind was reported. -/
def Orderly (ops : List Op) : Prop :=
  (∀ l size r, ops = l ++ .asyncRead size :: r → openRead none (run l).log = none) ∧
    ∀ l data r, ops = l ++ .asyncWrite data :: r → openWrite none (run l).log = none

/-- The end is reported at most once, and nothing after it. -/
def EndsOnce : List Event → Prop
  | [] => True
  | .called .shutdown :: l => l = []
  | _ :: l => EndsOnce l

/-- The stream is asked to shut down, or an operation fails. -/
def isEnd : Op → Bool
  | .shutdown => true
  | .readComplete .failure _ => true
  | .writeComplete .failure _ => true
  | _ => false

end SilKit.RawStream
