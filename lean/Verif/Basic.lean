/-!
# Basics: bytes and byte-string literals
-/
namespace Verif

/-- A Go byte slice or string. -/
abbrev Bytes := List UInt8

/-- Bytes of an ASCII text; only used to write concrete texts in models, specifications and examples. -/
def asciiBytes (s : String) : Bytes := s.toList.map fun c => UInt8.ofNat c.toNat

open Lean in
/-- `b!"abc"` is the literal byte list of the UTF-8 encoding of the string literal. -/
macro:max "b!" s:str : term => do
  let bs := s.getString.toUTF8.toList
  let es ← bs.toArray.mapM fun b => `(($(quote b.toNat) : UInt8))
  `(([$es,*] : List UInt8))

end Verif
