import Verif.Model.Ext
/-!
# The methods of `Number`

jscandec.go:31-45. The methods hand the text of the number to `strconv`.
-/
namespace Verif.Model

/-- The two errors of `strconv.ParseInt` (`strconv.ErrSyntax`, `strconv.ErrRange`, inside a `*NumError`). -/
inductive NumErr
  | syntax | range
  deriving DecidableEq, Repr

/-- Digit loop of `strconv.ParseUint(s, 10, 64)`, transcribed from Go's standard library: a character that is not a digit is a syntax error; `n >= cutoff` (`cutoff = maxUint64/10 + 1`) and a sum that wraps around are
range errors, reported without looking at the rest. -/
def parseUintLoop : Bytes → Nat → Except NumErr Nat
  | [], n => .ok n
  | c :: cs, n =>
    if c.toNat < 48 ∨ 57 < c.toNat then .error .syntax
    else if n ≥ (2 ^ 64 - 1) / 10 + 1 then .error .range
    else
      let n10 := n * 10
      let n1 := (n10 + (c.toNat - 48)) % 2 ^ 64
      if n1 < n10 then .error .range else parseUintLoop cs n1

/-- `strconv.ParseUint(s, 10, 64)`: the value and the error; `maxUint64` with a range error, 0 with a syntax error. -/
def parseUint64 (s : Bytes) : Nat × Option NumErr :=
  if s = [] then (0, some .syntax)
  else match parseUintLoop s 0 with
    | .ok n => (n, none)
    | .error .syntax => (0, some .syntax)
    | .error .range => (2 ^ 64 - 1, some .range)

/-- `strconv.ParseInt(s, 10, 64)`, transcribed from Go's standard library: optional sign, `ParseUint` of the rest, range check. With a range error the value is the nearest `int64`. -/
def parseInt64 (s : Bytes) : Int × Option NumErr :=
  if s = [] then (0, some .syntax)
  else
    let neg : Bool := s.head? = some 45
    let s1 := if s.head? = some 43 ∨ s.head? = some 45 then s.drop 1 else s
    match parseUint64 s1 with
    | (_, some .syntax) => (0, some .syntax)
    | (un, _) =>
      if neg = false ∧ un ≥ 2 ^ 63 then (2 ^ 63 - 1, some .range)
      else if neg = true ∧ un > 2 ^ 63 then (-(2 ^ 63), some .range)
      else (if neg then -(un : Int) else un, none)

/-- `Number.String`: jscandec.go:34-35. -/
def numberString (n : Str) : Str := n

/-- `Number.Float64`: jscandec.go:37-40. -/
def numberFloat64 (x : Ext) (n : Str) : Except Nat Flt := x.parseFloat64 n.bytes

/-- `Number.Int64`: jscandec.go:42-45. -/
def numberInt64 (n : Str) : Int × Option NumErr := parseInt64 n.bytes

end Verif.Model
