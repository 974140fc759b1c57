import Verif.Model.AppendType
/-!
# `ExpectType` as a number, and its names
-/
namespace Verif.Model

/-- The constants of type `ExpectType` in the order of their declaration: jscandec.go:49-232. -/
def expectTypes : List EType := [
  .number, .jsonUnmarshaler, .textUnmarshaler, .ptr, .ptrRecur, .any,
  .map, .mapStringString, .mapRecur, .array, .arrayLen0, .slice,
  .sliceRecur, .sliceEmptyStruct, .sliceOf .bool, .sliceOf .str, .sliceOf (.int .int), .sliceOf (.int .i8),
  .sliceOf (.int .i16), .sliceOf (.int .i32), .sliceOf (.int .i64), .sliceOf (.int .uint), .sliceOf (.int .u8), .sliceOf (.int .u16),
  .sliceOf (.int .u32), .sliceOf (.int .u64), .sliceOf (.flt .f32), .sliceOf (.flt .f64), .struct, .structRecur,
  .emptyStruct, .scalar .bool, .scalar .str, .scalar (.flt .f32), .scalar (.flt .f64), .scalar (.int .int),
  .scalar (.int .i8), .scalar (.int .i16), .scalar (.int .i32), .scalar (.int .i64), .scalar (.int .uint), .scalar (.int .u8),
  .scalar (.int .u16), .scalar (.int .u32), .scalar (.int .u64), .quoted .bool, .quoted .str, .quoted (.flt .f32),
  .quoted (.flt .f64), .quoted (.int .int), .quoted (.int .i8), .quoted (.int .i16), .quoted (.int .i32), .quoted (.int .i64),
  .quoted (.int .uint), .quoted (.int .u8), .quoted (.int .u16), .quoted (.int .u32), .quoted (.int .u64)]

/-- The value of the constant (`iota`, the value 0 has no name): jscandec.go:49-232. -/
def EType.code : EType → Int
  | .number => 1
  | .jsonUnmarshaler => 2
  | .textUnmarshaler => 3
  | .ptr => 4
  | .ptrRecur => 5
  | .any => 6
  | .map => 7
  | .mapStringString => 8
  | .mapRecur => 9
  | .array => 10
  | .arrayLen0 => 11
  | .slice => 12
  | .sliceRecur => 13
  | .sliceEmptyStruct => 14
  | .sliceOf .bool => 15
  | .sliceOf .str => 16
  | .sliceOf (.int .int) => 17
  | .sliceOf (.int .i8) => 18
  | .sliceOf (.int .i16) => 19
  | .sliceOf (.int .i32) => 20
  | .sliceOf (.int .i64) => 21
  | .sliceOf (.int .uint) => 22
  | .sliceOf (.int .u8) => 23
  | .sliceOf (.int .u16) => 24
  | .sliceOf (.int .u32) => 25
  | .sliceOf (.int .u64) => 26
  | .sliceOf (.flt .f32) => 27
  | .sliceOf (.flt .f64) => 28
  | .struct => 29
  | .structRecur => 30
  | .emptyStruct => 31
  | .scalar .bool => 32
  | .scalar .str => 33
  | .scalar (.flt .f32) => 34
  | .scalar (.flt .f64) => 35
  | .scalar (.int .int) => 36
  | .scalar (.int .i8) => 37
  | .scalar (.int .i16) => 38
  | .scalar (.int .i32) => 39
  | .scalar (.int .i64) => 40
  | .scalar (.int .uint) => 41
  | .scalar (.int .u8) => 42
  | .scalar (.int .u16) => 43
  | .scalar (.int .u32) => 44
  | .scalar (.int .u64) => 45
  | .quoted .bool => 46
  | .quoted .str => 47
  | .quoted (.flt .f32) => 48
  | .quoted (.flt .f64) => 49
  | .quoted (.int .int) => 50
  | .quoted (.int .i8) => 51
  | .quoted (.int .i16) => 52
  | .quoted (.int .i32) => 53
  | .quoted (.int .i64) => 54
  | .quoted (.int .uint) => 55
  | .quoted (.int .u8) => 56
  | .quoted (.int .u16) => 57
  | .quoted (.int .u32) => 58
  | .quoted (.int .u64) => 59

/-- `ExpectType.String` on any value of the type (an `int8`): jscandec.go:234-356. -/
def expectString (n : Int) : String :=
  match n with
  | 1 => "jscandec.Number"
  | 2 => "interface{UnmarshalJSON([]byte)error}"
  | 3 => "interface{UnmarshalText([]byte)error}"
  | 4 => "*"
  | 5 => "*⟲"
  | 6 => "any"
  | 7 => "map"
  | 8 => "map[string]string"
  | 9 => "map⟲"
  | 10 => "array"
  | 11 => "[0]array"
  | 12 => "slice"
  | 13 => "slice⟲"
  | 14 => "[]struct{}"
  | 15 => "[]bool"
  | 16 => "[]string"
  | 17 => "[]int"
  | 18 => "[]int8"
  | 19 => "[]int16"
  | 20 => "[]int32"
  | 21 => "[]int64"
  | 22 => "[]uint"
  | 23 => "[]uint8"
  | 24 => "[]uint16"
  | 25 => "[]uint32"
  | 26 => "[]uint64"
  | 27 => "[]float32"
  | 28 => "[]float64"
  | 29 => "struct"
  | 30 => "struct⟲"
  | 31 => "struct{}"
  | 32 => "boolean"
  | 33 => "string"
  | 34 => "float32"
  | 35 => "float64"
  | 36 => "int"
  | 37 => "int8"
  | 38 => "int16"
  | 39 => "int32"
  | 40 => "int64"
  | 41 => "uint"
  | 42 => "uint8"
  | 43 => "uint16"
  | 44 => "uint32"
  | 45 => "uint64"
  | 46 => "string(boolean)"
  | 47 => "string(string)"
  | 48 => "string(float32)"
  | 49 => "string(float64)"
  | 50 => "string(int)"
  | 51 => "string(int8)"
  | 52 => "string(int16)"
  | 53 => "string(int32)"
  | 54 => "string(int64)"
  | 55 => "string(uint)"
  | 56 => "string(uint8)"
  | 57 => "string(uint16)"
  | 58 => "string(uint32)"
  | 59 => "string(uint64)"
  | _ => ""

end Verif.Model
