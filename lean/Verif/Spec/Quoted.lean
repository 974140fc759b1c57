import Verif.Spec.Keys
/-!
# Specification: what the integer parsers make of arbitrary bytes

The parser for quoted integers and integer keys looks at the whole text, though only its beginning has been checked to be an integer.
-/
namespace Verif.Spec
open Verif.Model

/-- A byte minus the byte `0`, modulo 256. For a digit it is the value of the digit. -/
def byteVal (c : UInt8) : Nat := (c.toNat + 208) % 256

/-- The positional value of a text, every byte taken for a digit. -/
def bytesVal (s : Bytes) : Nat := s.foldl (fun a c => 10 * a + byteVal c) 0

/-- The number of digits of the greatest value of an unsigned type. -/
def uDigits : Nat → Nat
  | 8 => 3
  | 16 => 5
  | 32 => 10
  | _ => 20

/-- The number of digits of the greatest value of a signed type. -/
def iDigits : Nat → Nat
  | 8 => 3
  | 16 => 5
  | 32 => 10
  | _ => 19

/-- The first digit of `2^b`. -/
def uLead : Nat → Nat
  | 8 => 2
  | 16 => 6
  | _ => 4

/-- What an unsigned parser of `b` bits makes of a text: its positional value modulo `2^b`, if the text is shorter than the widest literal, or as long and a check against wrapping does not strike; 64-bit parsers check differently. -/
inductive ReadsU : Nat → Bytes → Nat → Prop
  | short {b : Nat} {s : Bytes} : s ≠ [] → s.length < uDigits b → ReadsU b s (bytesVal s % 2 ^ b)
  | wide {b : Nat} {c : UInt8} {s : Bytes} : b ≠ 64 → s.length + 1 = uDigits b → byteVal c ≤ uLead b → bytesVal s % 2 ^ b < bytesVal (c :: s) % 2 ^ b → ReadsU b (c :: s) (bytesVal (c :: s) % 2 ^ b)
  | wide64 {s : Bytes} : s.length = 19 → bytesVal s % 2 ^ 64 < 2 ^ 64 - 10 ^ 19 → ReadsU 64 (49 :: s) (10 ^ 19 + bytesVal s % 2 ^ 64)

/-- What a signed parser of `b` bits makes of a text: plus or minus the positional value of what is behind the sign, wrapped around into the range of the type, if it is not longer than the widest literal; with a text of that length the sign
must be right. -/
inductive ReadsI : Nat → Bytes → Int → Prop
  | pos {b : Nat} {c : UInt8} {s : Bytes} : c ≠ 45 → s.length + 1 ≤ iDigits b → (s.length + 1 = iDigits b → 0 ≤ (bytesVal (c :: s) : Int).bmod (2 ^ b)) → ReadsI b (c :: s) ((bytesVal (c :: s) : Int).bmod (2 ^ b))
  | neg {b : Nat} {s : Bytes} : s ≠ [] → s.length ≤ iDigits b → (s.length = iDigits b → (-(bytesVal s : Int)).bmod (2 ^ b) ≤ 0) → ReadsI b (45 :: s) ((-(bytesVal s : Int)).bmod (2 ^ b))

/-- What the parser for the kind makes of a text. -/
def ReadsInt (is64 : Bool) (k : IKind) (s : Bytes) (v : Int) : Prop :=
  if k.signed then ReadsI (k.bits is64) s v else ∃ n : Nat, ReadsU (k.bits is64) s n ∧ v = n

end Verif.Spec
