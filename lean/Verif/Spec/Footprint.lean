import Verif.Model.Api
/-!
# Specification: how much memory a value owns

`footprint b` is the number of bytes on the heap that the value in the memory `b` keeps alive: what its pointers point to, the arrays of its slices, the entries of its maps, the bytes of its strings (counted even if they are
shared with the input), at every depth. Headers inside `any` and map keys count 16 bytes, the size of a string header or an interface on a 64-bit platform.
-/
namespace Verif.Spec
open Verif.Model

/-- Size of a map key. -/
def keyBytes : Key → Nat
  | .str s => 16 + s.bytes.length
  | .int _ => 16
  | .opaque b => 16 + b.length

mutual
/-- What the contents of an `any` keep alive: 16 bytes for each value, key or string inside, and the bytes of the strings. -/
def anyBytes : AnyVal → Nat
  | .null => 0
  | .bool _ | .num _ | .other _ => 16
  | .str s => 16 + s.bytes.length
  | .arr es => 16 + anyBytesL es
  | .obj ms => 16 + anyBytesM ms
/-- The elements of an array. -/
def anyBytesL : List AnyVal → Nat
  | [] => 0
  | v :: vs => 16 + anyBytes v + anyBytesL vs
/-- The members of an object. -/
def anyBytesM : List (Str × AnyVal) → Nat
  | [] => 0
  | (k, v) :: ms => 16 + k.bytes.length + (16 + anyBytes v) + anyBytesM ms
end

mutual
/-- What one cell keeps alive. -/
def cellBytes : Cell → Nat
  | .zero | .pad | .bool _ | .int _ | .flt _ => 0
  | .str s => s.bytes.length
  | .any v => anyBytes v
  | .user b => b.length
  | .ptr b => b.length + footprint b
  | .slice _ _ a => a.length + footprint a
  | .map es => entryBytes es
/-- What the value in a block keeps alive. -/
def footprint : List Cell → Nat
  | [] => 0
  | c :: b => cellBytes c + footprint b
/-- The entries of a map. -/
def entryBytes : List (Key × List Cell) → Nat
  | [] => 0
  | (k, b) :: es => keyBytes k + (b.length + footprint b) + entryBytes es
end

/-- The user's methods keep alive at most `c` bytes per byte of the text they get (and `c` more), on top of what the receiver had. -/
structure Frugal (x : Ext) (c : Nat) : Prop where
  json : ∀ rt old b, footprint (x.unmarshalJSON rt old b).1 ≤ footprint old + c * (b.length + 1)
  text : ∀ rt old b, footprint (x.unmarshalText rt old b).1 ≤ footprint old + c * (b.length + 1)
  key : ∀ rt b k, x.unmarshalKey rt b = .ok k → k.length ≤ c * (b.length + 1)

/-- The largest size of a value in the frame table. -/
def maxSize : List Frame → Nat
  | [] => 0
  | f :: fs => max (max f.size f.mapValueSize) (maxSize fs)

/-- Bytes of memory per byte of input: depends on the type of the decoder only. -/
def factor (c : Nat) (frames : List Frame) : Nat := (32 + c + maxSize frames) * (2 * frames.length + 7)

end Verif.Spec
