import Verif.Model.Basic
import Verif.Model.MessageBuffer
/-!
# Writing and reading PCAP traces (tracing/PcapSink.cpp, tracing/PcapReader.cpp, tracing/Pcap.hpp)

Bytes are written in the order of a little endian machine, on which the structures of Pcap.hpp have no padding (they are asserted to have 24 and 16 bytes).
Writing to a file or a pipe succeeds; a crash or a full disk is modelled by cutting off the file at any place.
-/
namespace SilKit.Pcap
open MessageBuffer (leBytes leVal)

/-- A frame with its time stamp in nanoseconds: the arguments of `PcapSink::Trace`, and what `PcapReader::Read` returns. -/
structure Frame where
  time : Int
  raw : List UInt8
deriving Repr, DecidableEq

/-- `NativeMagic`, Pcap.hpp:13. -/
def nativeMagic : Nat := 0xa1b23c4d

/-- `GlobalHeader`, Pcap.hpp:19-28, with its default values. -/
def globalHeader : List UInt8 :=
  leBytes 4 nativeMagic ++ leBytes 2 2 ++ leBytes 2 4 ++ leBytes 4 0 ++ leBytes 4 0 ++ leBytes 4 65535 ++ leBytes 4 1

/-- `duration_cast<microseconds>` followed by the conversion of `count()` to the unsigned type of `tosec`, PcapSink.cpp:112-119. -/
def microseconds (time : Int) : Nat := (time.tdiv 1000 % 2 ^ 64).toNat

/-- The packet header, PcapSink.cpp:115-119 and Pcap.hpp:31-37; each field is converted to 32 bits. -/
def packetHeader (f : Frame) : List UInt8 :=
  leBytes 4 (microseconds f.time / 1000000) ++ leBytes 4 (microseconds f.time % 1000000) ++ leBytes 4 f.raw.length ++ leBytes 4 f.raw.length

/-- A sink. -/
structure Sink where
  /-- What was written to the file. -/
  file : List UInt8 := []
  /-- `_file.is_open()`. -/
  fileOpen : Bool := false
  /-- What was written to the pipe. -/
  pipe : List UInt8 := []
  /-- `_pipe != nullptr`. -/
  pipeOpen : Bool := false
  headerWritten : Bool := false
deriving Repr, DecidableEq

/-- `PcapSink::Open` of a file, PcapSink.cpp:45-52: the file is truncated and the global header is written. -/
def Sink.openFile (s : Sink) : Sink := { s with file := globalHeader, fileOpen := true }

/-- `PcapSink::Open` of a pipe, PcapSink.cpp:54-58. -/
def Sink.openPipe (s : Sink) : Sink := { s with pipe := [], pipeOpen := true, headerWritten := false }

/-- `PcapSink::Close`, PcapSink.cpp:74-96. -/
def Sink.close (s : Sink) : Sink := { s with fileOpen := false, pipeOpen := false }

/-- The two writes to the file, PcapSink.cpp:122-127. `message.raw.at(0)` throws if there are no bytes, when the packet header has been written already;
the flag tells whether this happens. -/
def Sink.traceFile (s : Sink) (f : Frame) : Sink × Bool :=
  if !s.fileOpen then (s, false)
  else if f.raw = [] then ({ s with file := s.file ++ packetHeader f }, true)
  else ({ s with file := s.file ++ packetHeader f ++ f.raw }, false)

/-- The writes to the pipe, PcapSink.cpp:129-147. -/
def Sink.tracePipe (s : Sink) (f : Frame) : Sink × Bool :=
  if !s.pipeOpen then (s, false)
  else
    let start := if s.headerWritten then s.pipe else s.pipe ++ globalHeader
    if f.raw = [] then ({ s with pipe := start ++ packetHeader f, headerWritten := true }, true)
    else ({ s with pipe := start ++ packetHeader f ++ f.raw, headerWritten := true }, false)

/-- `PcapSink::Trace` of an Ethernet frame, PcapSink.cpp:98-153; the flag tells whether it throws. -/
def Sink.trace (s : Sink) (f : Frame) : Sink × Bool :=
  let (s1, thrown) := s.traceFile f
  if thrown then (s1, true) else s1.tracePipe f

/-- Several calls of `Trace`, one after the other; exceptions are caught by the caller. -/
def Sink.traceAll (s : Sink) (fs : List Frame) : Sink := fs.foldl (fun s f => (s.trace f).1) s

/-- The writes of one call of `Trace` to the file. The lock in PcapSink.cpp:110 is never locked, so that calls of several threads can be interleaved. -/
def writes (f : Frame) : List (List UInt8) := [packetHeader f, f.raw]

/-- A reader of a file. -/
structure Reader where
  bytes : List UInt8
  /-- The position in the stream. -/
  pos : Nat := 0
  /-- `_stream->good()`. -/
  good : Bool := true
  /-- `_currentMessage`. -/
  current : Option Frame := none
  /-- `_numMessages`. -/
  num : Nat := 0
deriving Repr, DecidableEq

/-- `_stream->read` of `n` bytes: `none`, and no longer `good()`, if there are not so many. -/
def Reader.read (r : Reader) (n : Nat) : Reader × Option (List UInt8) :=
  if r.good && decide (r.pos + n ≤ r.bytes.length) then ({ r with pos := r.pos + n }, some ((r.bytes.drop r.pos).take n))
  else ({ r with good := false }, none)

/-- The field at an offset of a header. -/
def field (hdr : List UInt8) (at_ n : Nat) : Nat := leVal ((hdr.drop at_).take n)

/-- The time stamp, PcapReader.cpp:184. -/
def timeOf (hdr : List UInt8) : Int := ((field hdr 0 4 * 1000000000 + field hdr 4 4 * 1000 : Nat) : Int)

/-- One round of the loop of `Seek`, PcapReader.cpp:171-201. -/
def Reader.next (r : Reader) : Reader × Bool :=
  match r.read 16 with
  | (r1, none) => (r1, false)
  | (r1, some hdr) =>
    match r1.read (field hdr 8 4) with
    | (r2, none) => (r2, false)
    | (r2, some raw) => ({ r2 with current := some ⟨timeOf hdr, raw⟩, num := r2.num + 1 }, true)

/-- `Seek`, PcapReader.cpp:168-203. -/
def Reader.seek (r : Reader) : Nat → Reader × Bool
  | 0 => (r, true)
  | n + 1 => match r.next with
    | (r1, false) => (r1, false)
    | (r1, true) => r1.seek n

/-- `ReadGlobalHeader`, PcapReader.cpp:130-151. The meta infos are not modelled. -/
def Reader.globalHeader (r : Reader) : Res Reader :=
  match r.read 24 with
  | (_, none) => .throw "global header short read"
  | (r1, some hdr) =>
    if field hdr 0 4 != nativeMagic then .throw "invalid PCAP valid magic number"
    else if field hdr 4 2 != 2 && field hdr 6 2 != 4 then .throw "invalid PCAP version"
    else .ok r1

/-- Opening a file, PcapReader.cpp:81-86, 101-128; the result of `Seek(1)` is ignored. The file exists. -/
def openReader (bytes : List UInt8) : Res Reader :=
  (Reader.globalHeader { bytes := bytes }).bind fun r => .ok (r.seek 1).1

end SilKit.Pcap
