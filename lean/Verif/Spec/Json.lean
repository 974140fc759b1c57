import Verif.Spec.Doc
/-!
# Specification: JSON texts (RFC 8259)

`IsDoc src v`: the text `src` is a JSON document, and `v` is its syntax tree, with the byte positions of all its parts. This is the whole grammar, with white space, commas and colons. The tokenizer, which is not part of the repository,
is specified by it: on a JSON document it delivers the tokens of this tree, and it rejects every other text.
-/
namespace Verif.Spec
open Verif.Model

/-- White space: space, tab, line feed, carriage return. -/
def IsSpace (s : Bytes) : Prop := ∀ c ∈ s, c = 32 ∨ c = 9 ∨ c = 10 ∨ c = 13

/-- The characters between the quotes of a string: anything but quotes, backslashes and control characters, and escapes. -/
inductive IsContent : Bytes → Prop
  | nil : IsContent []
  | plain {c : UInt8} {s : Bytes} : c ≠ 34 → c ≠ 92 → 32 ≤ c → IsContent s → IsContent (c :: s)
  | esc {c r : UInt8} {s : Bytes} : escChar c = some r → IsContent s → IsContent (92 :: c :: s)
  | uni {a b c d : UInt8} {w x y z : Nat} {s : Bytes} :
      hexVal a = some w → hexVal b = some x → hexVal c = some y → hexVal d = some z → IsContent s → IsContent (92 :: 117 :: a :: b :: c :: d :: s)

/-- A text with white space on both sides of it; the part inside, at its position, satisfies `P`. -/
def Padded (P : Nat → Bytes → Prop) (a : Nat) (s : Bytes) : Prop :=
  ∃ w t w', s = w ++ t ++ w' ∧ IsSpace w ∧ IsSpace w' ∧ P (a + w.length) t

/-- The bytes `s` at position `a` of a text are a quoted string at `[k.1, k.2)`. -/
def IsString (k : Nat × Nat) (a : Nat) (s : Bytes) : Prop :=
  ∃ raw, s = 34 :: (raw ++ [34]) ∧ IsContent raw ∧ k = (a, a + s.length)

mutual
/-- The bytes `s` at position `a` of a text are a JSON value, without white space around it, with the tree `v`. -/
def IsJson : JVal → Nat → Bytes → Prop
  | .null i e, a, s => s = b!"null" ∧ i = a ∧ e = a + s.length
  | .bool b i e, a, s => s = (if b then b!"true" else b!"false") ∧ i = a ∧ e = a + s.length
  | .num isInt i e, a, s => IsNumber s ∧ (isInt = true ↔ IsInteger s) ∧ i = a ∧ e = a + s.length
  | .str i e, a, s => IsString (i, e) a s
  | .arr i vs k, a, s => ∃ body, s = 91 :: (body ++ [93]) ∧ i = a ∧ k = a + 1 + body.length ∧ IsElems vs (a + 1) body
  | .obj i ms k, a, s => ∃ body, s = 123 :: (body ++ [125]) ∧ i = a ∧ k = a + 1 + body.length ∧ IsMembers ms (a + 1) body
/-- What stands between the brackets of an array: nothing, or values separated by commas. -/
def IsElems : List JVal → Nat → Bytes → Prop
  | [], _, s => IsSpace s
  | v :: vs, a, s => (vs = [] ∧ Padded (IsJson v) a s) ∨
      (vs ≠ [] ∧ ∃ s₁ s₂, s = s₁ ++ 44 :: s₂ ∧ Padded (IsJson v) a s₁ ∧ IsElems vs (a + s₁.length + 1) s₂)
/-- What stands between the braces of an object: nothing, or members separated by commas. A member is a string, a colon and a value. -/
def IsMembers : List ((Nat × Nat) × JVal) → Nat → Bytes → Prop
  | [], _, s => IsSpace s
  | m :: ms, a, s => ∃ key val rest, s = key ++ 58 :: (val ++ rest) ∧ Padded (IsString m.1) a key ∧ Padded (IsJson m.2) (a + key.length + 1) val ∧
      ((ms = [] ∧ rest = []) ∨ (ms ≠ [] ∧ ∃ s₂, rest = 44 :: s₂ ∧ IsMembers ms (a + key.length + 1 + val.length + 1) s₂))
end

/-- The text is a JSON document with the tree `v`. -/
def IsDoc (src : Bytes) (v : JVal) : Prop := Padded (IsJson v) 0 src

end Verif.Spec
