import Verif.Model.BitSerdes
/-!
# Specification vocabulary for the public serializer

A data set is a list of `Item`s: the calls made on the serializer with their arguments. The reader makes the same calls
without knowing the values (`Shape`).
-/
namespace SilKit.Spec
open BitSerdes

/-- One call on the serializer, with its value. -/
inductive Item where
  | uint (w bitSize v : Nat)
  | sint (w bitSize : Nat) (v : Int)
  | bool (b : Bool)
  | float (raw : List UInt8)
  | string (s : List UInt8)
  | beginStruct
  | endStruct
  | beginArray (size : Nat)
  | endArray
  | beginOptional (available : Bool)
  | endOptional
  | beginUnion (discriminator : Int)
  | endUnion
deriving Repr, DecidableEq

/-- The same call on the deserializer: only what the reader has to know. -/
inductive Shape where
  | uint (w bitSize : Nat)
  | sint (w bitSize : Nat)
  | bool
  | float (size : Nat)
  | string
  | beginStruct
  | endStruct
  | beginArray
  | endArray
  | beginOptional
  | endOptional
  | beginUnion
  | endUnion
deriving Repr, DecidableEq

/-- Forget the value. -/
def Item.shape : Item → Shape
  | .uint w n _ => .uint w n
  | .sint w n _ => .sint w n
  | .bool _ => .bool
  | .float raw => .float raw.length
  | .string _ => .string
  | .beginStruct => .beginStruct
  | .endStruct => .endStruct
  | .beginArray _ => .beginArray
  | .endArray => .endArray
  | .beginOptional _ => .beginOptional
  | .endOptional => .endOptional
  | .beginUnion _ => .beginUnion
  | .endUnion => .endUnion

/-- The integral types: 8, 16, 32 or 64 bits. -/
def IntWidth (w : Nat) : Prop := w = 8 ∨ w = 16 ∨ w = 32 ∨ w = 64

/-- The value is representable in the number of bits given, sizes fit into 32 bits. -/
def Item.InRange : Item → Prop
  | .uint w n v => IntWidth w ∧ 1 ≤ n ∧ n ≤ w ∧ v < 2 ^ n
  | .sint w n v => IntWidth w ∧ 1 ≤ n ∧ n ≤ w ∧ -(2 : Int) ^ (n - 1) ≤ v ∧ v < 2 ^ (n - 1)
  | .float raw => raw.length = 4 ∨ raw.length = 8
  | .string s => s.length < 2 ^ 32
  | .beginArray n => n < 2 ^ 32
  | .beginUnion d => -(2 : Int) ^ 31 ≤ d ∧ d < 2 ^ 31
  | _ => True

/-- Making the call on the serializer (an `int`/`unsigned` argument is passed as its two's complement). -/
def Item.write (s : Ser) : Item → Res Ser
  | .uint w n v => s.uint w (BitVec.ofNat w v) n
  | .sint w n v => s.sint w (BitVec.ofInt w v) n
  | .bool b => s.bool b
  | .float raw => s.float raw
  | .string str => s.bytes str
  | .beginStruct => .ok s.align
  | .beginArray n => s.beginArray n
  | .beginOptional b => s.bool b
  | .beginUnion d => s.beginUnion (BitVec.ofInt 32 d)
  | .endStruct => .ok s
  | .endArray => .ok s
  | .endOptional => .ok s
  | .endUnion => .ok s

/-- Pair a read value with its item constructor. -/
def readAs {α : Type} (f : α → Item) : Res (α × Des) → Res (Item × Des)
  | .ok (a, d) => .ok (f a, d)
  | .throw m => .throw m
  | .ub m => .ub m

/-- Making the call on the deserializer; the result is reported as the item that was read. -/
def Shape.read (d : Des) : Shape → Res (Item × Des)
  | .uint w n => readAs (fun v => .uint w n v.toNat) (d.uint w n)
  | .sint w n => readAs (fun v => .sint w n v.toInt) (d.sint w n)
  | .bool => readAs .bool d.bool
  | .float size => readAs .float (d.float size)
  | .string => readAs .string d.bytes
  | .beginStruct => .ok (.beginStruct, d.align)
  | .beginArray => readAs (fun v => .beginArray v.toNat) (d.alignedU 32 4)
  | .beginOptional => readAs .beginOptional d.bool
  | .beginUnion => readAs (fun v => .beginUnion v.toInt) (d.alignedU 32 4)
  | .endStruct => .ok (.endStruct, d)
  | .endArray => .ok (.endArray, d)
  | .endOptional => .ok (.endOptional, d)
  | .endUnion => .ok (.endUnion, d)

/-- A whole data set is written. -/
def writeAll (s : Ser) : List Item → Res Ser
  | [] => .ok s
  | i :: is => match i.write s with
    | .ok s' => writeAll s' is
    | .throw m => .throw m
    | .ub m => .ub m

/-- A whole data set is read. -/
def readAll (d : Des) : List Shape → Res (List Item × Des)
  | [] => .ok ([], d)
  | i :: is => match i.read d with
    | .ok (x, d') => match readAll d' is with
      | .ok (xs, d'') => .ok (x :: xs, d'')
      | .throw m => .throw m
      | .ub m => .ub m
    | .throw m => .throw m
    | .ub m => .ub m

/-- The bit sizes the reader asks for are admissible for the integer type. -/
def Shape.Admissible : Shape → Prop
  | .uint w n => IntWidth w ∧ 1 ≤ n ∧ (n ≤ w ∨ n % 8 ≠ 0)
  | .sint w n => IntWidth w ∧ 1 ≤ n ∧ (n ≤ w ∨ n % 8 ≠ 0)
  | _ => True

end SilKit.Spec
