import Verif.Model.Pcap
/-!
# What a PCAP trace is, independent of how it is written and read
-/
namespace SilKit.Pcap.Spec
open SilKit.Pcap

/-- The format can hold the frame: its time is not negative and less than 2^32 seconds, it has less than 2^32 bytes. -/
def Recordable (f : Frame) : Prop := 0 ≤ f.time ∧ f.time < 2 ^ 32 * 1000000000 ∧ f.raw.length < 2 ^ 32

/-- The frame as it is recorded: the time is rounded down to microseconds. -/
def recorded (f : Frame) : Frame := ⟨f.time / 1000 * 1000, f.raw⟩

/-- The number of bytes of the file that a frame needs. -/
def size (f : Frame) : Nat := 16 + f.raw.length

/-- The frames that are completely in the first `n` bytes after the global header. -/
def kept : Nat → List Frame → List Frame
  | _, [] => []
  | n, f :: fs => if size f ≤ n then f :: kept (n - size f) fs else []

/-- One way of executing the two sequences of writes concurrently. -/
inductive Interleaved {α : Type} : List α → List α → List α → Prop
  | nil : Interleaved [] [] []
  | left {a xs ys zs} : Interleaved xs ys zs → Interleaved (a :: xs) ys (a :: zs)
  | right {a xs ys zs} : Interleaved xs ys zs → Interleaved xs (a :: ys) (a :: zs)

/-- How others read the first 32 bit and the time stamps of a PCAP file: by the magic number they know whether the fraction of a second is in
microseconds or in nanoseconds (see https://www.ietf.org/archive/id/draft-gharris-opsawg-pcap-01.html, section 4). `none` if it is not a PCAP file of
this byte order. -/
def standardTime (magic seconds fraction : Nat) : Option Nat :=
  if magic = 0xa1b2c3d4 then some (seconds * 1000000000 + fraction * 1000)
  else if magic = 0xa1b23c4d then some (seconds * 1000000000 + fraction)
  else none

end SilKit.Pcap.Spec
