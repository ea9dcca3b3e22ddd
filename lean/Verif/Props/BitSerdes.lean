import Verif.Lemmas.BitSerdesItems
/-!
# C08 – the public `Serializer` and `Deserializer` are inverse
-/
namespace SilKit.Props
open Spec BitSerdes

/-- **C08.** For every sequence of serialize calls whose values are representable in the requested number of bits:
serializing succeeds, and making the matching deserialize calls on the released buffer returns exactly the original
values and ends at the end of the buffer. -/
theorem C08_serializer_roundtrip (items : List Item) (h : ∀ i ∈ items, i.InRange) :
    ∃ s d, writeAll {} items = .ok s ∧ readAll { buffer := s.release.1 } (items.map Item.shape) = .ok (items, d) ∧
      d.buffer = s.release.1 ∧ d.readPos = d.buffer.length := by
  obtain ⟨s, d, h1, h2, h3, h4⟩ := released_roundtrip items h
  exact ⟨s, d, h1, h2, h4, h3⟩

/-- Bit fields of three to 63 bits, straddling byte and 64-bit boundaries, interleaved with aligned data. -/
def sampleItems : List Item :=
  [.beginStruct, .uint 8 3 5, .uint 64 63 (2 ^ 63 - 1), .sint 16 13 (-4096), .bool true, .uint 32 24 0xABCDEF,
   .sint 32 24 (-1), .beginArray 2, .string [1, 2, 3], .string [], .endArray, .beginOptional false, .endOptional,
   .beginUnion (-7), .float [0, 0, 128, 63], .endUnion, .sint 8 1 (-1), .endStruct]

/-- `C08_serializer_roundtrip` applies to `sampleItems`. -/
example : ∀ i ∈ sampleItems, i.InRange := by
  simp [sampleItems, Item.InRange, IntWidth]

/-- **C08 (reuse).** The same serializer object can be used again after `ReleaseBuffer`: it behaves like a new one. -/
theorem C08_serializer_reusable (first second : List Item) (h1 : ∀ i ∈ first, i.InRange) (h2 : ∀ i ∈ second, i.InRange) :
    ∃ s s' d, writeAll {} first = .ok s ∧ writeAll s.release.2 second = .ok s' ∧
      readAll { buffer := s'.release.1 } (second.map Item.shape) = .ok (second, d) := by
  obtain ⟨s, _, a1, _⟩ := released_roundtrip first h1
  obtain ⟨s', d, b1, b2, _⟩ := released_roundtrip second h2
  exact ⟨s, s', d, a1, b1, b2⟩

example : (∀ i ∈ [Item.uint 8 3 5], i.InRange) ∧ (∀ i ∈ sampleItems, i.InRange) := by
  constructor <;> simp [sampleItems, Item.InRange, IntWidth]

/-- **C08 (hostile data).** Whatever bytes the deserializer is given and whatever sequence of calls (with admissible bit
sizes) is made on it, nothing outside of the buffer is read: every run ends with values or an exception. -/
theorem C08_reading_is_safe (bytes : List UInt8) (shapes : List Shape) (h : ∀ s ∈ shapes, s.Admissible) :
    ∀ m, readAll { buffer := bytes } shapes ≠ .ub m := by
  intro m hm
  have := all_safe shapes (d := { buffer := bytes }) ⟨Nat.zero_le _, by simp⟩ h
  rw [hm] at this
  exact this

example : (∀ s ∈ sampleItems.map Item.shape, s.Admissible) ∧
    readAll { buffer := [0xFF] } [.uint 8 3, .string] = .throw endOfData := by
  constructor
  · simp [sampleItems, Item.shape, Shape.Admissible, IntWidth]
  · decide +kernel

/-- **Without the range condition C08 is false:** an unsigned value that does not fit its bit size is not cut and destroys
the *following* field (`Serialize(uint8_t{0xFF}, 3)` followed by `Serialize(uint8_t{0}, 5)`). Signed values are cut. -/
theorem C08_oversized_unsigned_value_corrupts_next_field :
    ∃ s d, writeAll {} [.uint 8 3 0xFF, .uint 8 5 0] = .ok s ∧
      readAll { buffer := s.release.1 } [.uint 8 3, .uint 8 5] = .ok ([.uint 8 3 7, .uint 8 5 31], d) :=
  ⟨⟨[0xFF], 0, 0⟩, ⟨[0xFF], 1, 0, 0⟩, by decide +kernel, by decide +kernel⟩

/-- Asking for more bits than the type has is refused for bit fields, but for whole bytes memory behind the value is read
(serializer) respectively memory in front of the value is written (deserializer). -/
theorem C08_oversized_bit_size_is_undefined_behaviour :
    writeAll {} [.uint 8 16 1] = .ub outOfBounds ∧ readAll { buffer := [1, 2] } [.uint 8 16] = .ub outOfBounds ∧
    writeAll {} [.uint 8 15 1] = .throw "SerializedUnaligned(): current bitSize > 8 * sizeof(T)" := by
  refine ⟨by decide +kernel, by decide +kernel, by decide +kernel⟩

end SilKit.Props
