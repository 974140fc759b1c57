import Verif.Model.Mem
import Verif.Model.Tokens
import Verif.Model.JsonNum
import Verif.Model.Unescape
/-!
# Error values, options, and the functions the decoder calls outside the repository
-/
namespace Verif.Model

/-- Identity of a Go type (`reflect.Type` compared with `==`). -/
abbrev TypeId := Nat

/-- Error values: jscandec.go:21-29 and the errors of callees. -/
inductive Err
  | nilDest          -- ErrNilDest
  | unexpectedValue  -- ErrUnexpectedValue
  | unknownField     -- ErrUnknownField
  | integerOverflow  -- ErrIntegerOverflow
  | stringTag        -- ErrStringTagOptionOnUnsupportedType
  | unsupportedType (t : TypeId) -- fmt.Errorf("unsupported type: %v", t)
  | parse (e : Nat)  -- an error of strconv
  | user (e : Nat)   -- an error of UnmarshalJSON / UnmarshalText
  | syntax (e : Nat) -- jscan.Error
  deriving DecidableEq, Repr

/-- `DecodeOptions`: jscandec.go:662-700. -/
structure Options where
  disallowUnknownFields : Bool
  disableFieldNameUnescaping : Bool
  disableCaseInsensitiveMatching : Bool
  deriving DecidableEq, Repr

/-- `DefaultOptions`: jscandec.go:472-475. -/
def defaultOptions : Options := ⟨false, false, false⟩

/-- `InitOptions`: jscandec.go:654-660. -/
structure InitOptions where
  disallowStringTagOptOnUnsupportedTypes : Bool
  deriving DecidableEq, Repr

/-- `DefaultInitOptions`: jscandec.go:467-470. -/
def defaultInitOptions : InitOptions := ⟨false⟩

/-- Platform, input kind and external functions. The theorems hold for every `Ext`. -/
structure Ext where
  /-- `strconv.IntSize == 64` -/
  is64 : Bool
  /-- `S = string` (as opposed to `[]byte`) -/
  strInput : Bool
  /-- `strconv.ParseFloat(s, 32)` converted to `float32` (`Decoder.parseFloat32`, jscandec.go:573-579) -/
  parseFloat32 : Bytes → Except Nat Flt
  /-- `strconv.ParseFloat(s, 64)` (jscandec.go:580-586) -/
  parseFloat64 : Bytes → Except Nat Flt
  /-- `float32(i)` for an `int32` -/
  f32OfInt : Int → Flt
  /-- `float64(i)` for an `int64` -/
  f64OfInt : Int → Flt
  /-- `jscan.Token.Int32` on the text of the token -/
  tokInt32 : Bytes → Except Nat Int
  /-- `jscan.Token.Int64` -/
  tokInt64 : Bytes → Except Nat Int
  /-- `jscan.Token.Float64` -/
  tokFloat64 : Bytes → Except Nat Flt
  /-- `strings.EqualFold` -/
  equalFold : Bytes → Bytes → Bool
  /-- `UnmarshalJSON` of the type on the old contents of the receiver: new contents and possibly an error -/
  unmarshalJSON : TypeId → Block → Bytes → Block × Option Nat
  /-- `UnmarshalText` -/
  unmarshalText : TypeId → Block → Bytes → Block × Option Nat
  /-- `UnmarshalText` on a new map key: the identity of the resulting key -/
  unmarshalKey : TypeId → Bytes → Except Nat Bytes

/-- Size of a machine word. -/
def Ext.W (x : Ext) : Nat := if x.is64 then 8 else 4

/-- A string converted from the input text, `string(s[i:j])` or `unescape.Valid[S, string]` without escapes: shares the input only if `S = string`. -/
def Ext.mkStr (x : Ext) (b : Bytes) : Str := ⟨b, x.strInput⟩

/-- `unescape.Valid[S, string]` (unescape.go:12-109): the result is the input itself if it contains no escape, and freshly
allocated otherwise. -/
def Ext.unescStr (x : Ext) (b : Bytes) : Option Str :=
  (Unescape.valid b).map fun o => ⟨o, x.strInput && (Unescape.indexBackslash b).isNone && decide (0 < b.length)⟩

/-- User code cannot change the size of the receiver. -/
def fit (n : Nat) (b : Block) : Block := (b ++ zeros n).take n

end Verif.Model
