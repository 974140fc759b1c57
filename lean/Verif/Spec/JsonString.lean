import Verif.Basic
/-!
# Specification: contents of JSON strings (RFC 8259, section 7)

`Denotes raw out`: the raw text between the quotes denotes the byte string `out`. UTF-8 is Lean's own
`String.utf8EncodeChar`.
-/
namespace Verif.Spec

/-- Value of a hexadecimal digit. -/
def hexVal (c : UInt8) : Option Nat :=
  let n := c.toNat
  if 48 ≤ n ∧ n ≤ 57 then some (n - 48)          -- 0-9
  else if 65 ≤ n ∧ n ≤ 70 then some (n - 55)     -- A-F
  else if 97 ≤ n ∧ n ≤ 102 then some (n - 87)    -- a-f
  else none

/-- The character denoted by a two-character escape. -/
def escChar (c : UInt8) : Option UInt8 :=
  match Char.ofNat c.toNat with
  | '"' => some 0x22
  | '\\' => some 0x5C
  | '/' => some 0x2F
  | 'b' => some 0x08
  | 'f' => some 0x0C
  | 'n' => some 0x0A
  | 'r' => some 0x0D
  | 't' => some 0x09
  | _ => none

/-- The UTF-8 text of one `\u` code unit: the character, or U+FFFD for a (half of a) surrogate. -/
def unitText (v : Nat) : Bytes :=
  if 0xD800 ≤ v ∧ v ≤ 0xDFFF then String.utf8EncodeChar (Char.ofNat 0xFFFD)
  else String.utf8EncodeChar (Char.ofNat v)

/-- `Denotes raw out`: the JSON string content `raw` denotes the bytes `out`. `plain` allows every byte other than
the backslash; JSON further excludes quotes and control characters, which matters to the
tokenizer only. -/
inductive Denotes : Bytes → Bytes → Prop
  | nil : Denotes [] []
  | plain {c : UInt8} {s o : Bytes} : c ≠ 92 → Denotes s o → Denotes (c :: s) (c :: o)
  | esc {c r : UInt8} {s o : Bytes} : escChar c = some r → Denotes s o → Denotes (92 :: c :: s) (r :: o)
  | uni {a b c d : UInt8} {w x y z : Nat} {s o : Bytes} :
      hexVal a = some w → hexVal b = some x → hexVal c = some y → hexVal d = some z → Denotes s o →
      Denotes (92 :: 117 :: a :: b :: c :: d :: s) (unitText (4096 * w + 256 * x + 16 * y + z) ++ o)

/-- Well-formed UTF-8: the encoding of some list of Unicode scalar values. -/
def ValidUTF8 (b : Bytes) : Prop := ∃ cs : List Char, b = cs.flatMap String.utf8EncodeChar

/-- Hexadecimal digit of a number below 16. -/
def hexDigit (n : Nat) : UInt8 := if n < 10 then UInt8.ofNat (48 + n) else UInt8.ofNat (87 + n)

/-- The standard escaping of one byte. -/
def escapeByte (c : UInt8) : Bytes :=
  if c = 34 then [92, 34]
  else if c = 92 then [92, 92]
  else if c < 32 then [92, 117, 48, 48, hexDigit (c.toNat / 16), hexDigit (c.toNat % 16)]
  else [c]

/-- The standard escaping of a byte string. -/
def escape (s : Bytes) : Bytes := s.flatMap escapeByte

end Verif.Spec
