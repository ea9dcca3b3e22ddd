/-!
# Specification of the wire framing

A frame is a byte string whose first four bytes are its own length in little-endian order. The specification parses a
complete byte string, without any notion of chunks or buffers.
-/
namespace SilKit.Spec

/-- Little-endian value of the first four bytes. -/
def prefixLength : List UInt8 → Nat
  | a :: b :: c :: d :: _ => a.toNat + 256 * b.toNat + 65536 * c.toNat + 16777216 * d.toNat
  | _ => 0

/-- The largest frame a peer accepts. -/
def maxFrame : Nat := 2 ^ 30

/-- A legal frame: its length prefix is its length, at most 1 GiB. -/
def LegalFrame (m : List UInt8) : Prop := 4 ≤ m.length ∧ prefixLength m = m.length ∧ m.length ≤ maxFrame

instance (m : List UInt8) : Decidable (LegalFrame m) := by unfold LegalFrame; infer_instance

/-- An illegal start: four bytes are present and announce a length of zero or above the maximum. -/
def IllegalStart (s : List UInt8) : Prop := 4 ≤ s.length ∧ (prefixLength s = 0 ∨ maxFrame < prefixLength s)

instance (s : List UInt8) : Decidable (IllegalStart s) := by unfold IllegalStart; infer_instance

/-- Greedy parse of a byte string into frames; the flag says whether parsing stopped at an illegal prefix. -/
def parse (s : List UInt8) : List (List UInt8) × Bool :=
  if s.length < 4 then ([], false)
  else if prefixLength s = 0 ∨ maxFrame < prefixLength s then ([], true)
  else if s.length < prefixLength s then ([], false)
  else
    let r := parse (s.drop (prefixLength s))
    (s.take (prefixLength s) :: r.1, r.2)
termination_by s.length
decreasing_by simp; omega

end SilKit.Spec
