import Verif.Basic
/-!
# Model of `internal/unescape/unescape.go`

`none` is an index-out-of-range panic (or exhausted fuel; the caller passes the length of the text,
and `Proof/Unescape.lean` shows that this suffices on every valid text). The type parameters `S`, `O` only decide
about copying and are not represented: the result bytes are the same for `string` and `[]byte`.
-/
namespace Verif.Model.Unescape

/-- `lutReplace`: unescape.go:111-120 (absent entries are 0). -/
def lutReplace (c : UInt8) : UInt8 :=
  if c = 92 then 92       -- '\\': '\\'
  else if c = 47 then 47  -- '/': '/'
  else if c = 34 then 34  -- '"': '"'
  else if c = 98 then 8   -- 'b': '\b'
  else if c = 102 then 12 -- 'f': '\f'
  else if c = 110 then 10 -- 'n': '\n'
  else if c = 114 then 13 -- 'r': '\r'
  else if c = 116 then 9  -- 't': '\t'
  else 0

/-- `lut`: unescape.go:122-127 (absent entries are 0). -/
def lut (c : UInt8) : Nat :=
  if 48 ≤ c ∧ c ≤ 57 then c.toNat - 48
  else if 65 ≤ c ∧ c ≤ 70 then c.toNat - 65 + 10
  else if 97 ≤ c ∧ c ≤ 102 then c.toNat - 97 + 10
  else 0

/-- The replacement character in UTF-8, `RuneError`: unescape.go:141. -/
def runeError : Bytes := [0xEF, 0xBF, 0xBD]

/-- The bytes appended for a `\uXXXX` escape: unescape.go:43-52. `surrogateMin = 0xD800`,
`surrogateMax = 0xDFFF`, `rune1Max = 0x7F`, `rune2Max = 0x7FF`, `maxRune = 0x10FFFF`, `tx = 0x80`,
`t2 = 0xC0`, `t3 = 0xE0`, `maskx = 0x3F` (unescape.go:129-142). -/
def encodeUnit (a b c d : UInt8) : Bytes :=
  let r : UInt32 := UInt32.ofNat ((lut a <<< 12) + (lut b <<< 8) + (lut c <<< 4) + lut d)
  if r ≤ 0x7F then [r.toUInt8]
  else if r ≤ 0x7FF then [(0xC0 : UInt8) ||| (r >>> 6).toUInt8, (0x80 : UInt8) ||| (r.toUInt8 &&& 0x3F)]
  else if r > 0x10FFFF ∨ (0xD800 ≤ r ∧ r ≤ 0xDFFF) then runeError
  else [(0xE0 : UInt8) ||| (r >>> 12).toUInt8, (0x80 : UInt8) ||| ((r >>> 6).toUInt8 &&& 0x3F), (0x80 : UInt8) ||| (r.toUInt8 &&& 0x3F)]

/-- `strings.IndexByte(s, '\\')`: index of the first backslash. -/
def indexBackslash : Bytes → Option Nat
  | [] => none
  | c :: cs => if c = 92 then some 0 else (indexBackslash cs).map (· + 1)

/-- The loop `for i = 0; i < len(s) && s[i] != '\\'; i++ {}`: unescape.go:59-60. -/
def scanShort : Bytes → Nat
  | [] => 0
  | c :: cs => if c = 92 then 0 else scanShort cs + 1

/-- One escape sequence at the head of `s`: unescape.go:42-56. Returns the extended buffer and the
text after the escape. -/
def oneEscape (buf s : Bytes) : Option (Bytes × Bytes) :=
  match s with
  | _ :: c1 :: rest =>
    if c1 = 117 then
      match rest with
      | c2 :: c3 :: c4 :: c5 :: rest' => some (buf ++ encodeUnit c2 c3 c4 c5, rest')
      | _ => none
    else some (buf ++ [lutReplace c1], rest)
  | _ => none

/-- Label `ESCAPE_SEQUENCE` up to the end of the loop body (unescape.go:41-101), followed by the
head of the next iteration (unescape.go:35-40), with `buf` the output so far and `s` the text at the escape. -/
def escapeSequence : (fuel : Nat) → (buf s : Bytes) → Option Bytes
  | 0, _, _ => none
  | fuel + 1, buf, s =>
    match oneEscape buf s with
    | none => none
    | some (buf, s) =>
      -- `continue` with index `i`: unescape.go:35-40
      let next (i : Nat) : Option Bytes :=
        let buf := buf ++ s.take i
        let s := s.drop i
        if s.length < 1 then some buf else escapeSequence fuel buf s
      match s with
      | b0 :: b1 :: b2 :: b3 :: b4 :: b5 :: b6 :: b7 :: rest =>
        if b0 = 92 then escapeSequence fuel buf s -- unescape.go:63-66
        else if b1 = 92 then next 1
        else if b2 = 92 then next 2
        else if b3 = 92 then next 3
        else if b4 = 92 then next 4
        else if b5 = 92 then next 5
        else if b6 = 92 then next 6
        else if b7 = 92 then next 7
        else match indexBackslash rest with -- unescape.go:95-101
          | none => some (buf ++ s)
          | some i => next (i + 8)
      | _ => next (scanShort s) -- unescape.go:58-62

/-- `Valid`: unescape.go:12-109. -/
def valid (str : Bytes) : Option Bytes :=
  if str.length < 1 then some []
  else match indexBackslash str with
    | none => some str
    | some i =>
      let buf := str.take i
      let s := str.drop i
      if s.length < 1 then some buf else escapeSequence s.length buf s

end Verif.Model.Unescape
