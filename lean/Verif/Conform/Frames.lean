import Verif.Model.AppendType
/-!
# The frames built for a type, compared with TestAppendTypeToStack (generated by tools/conformance)

The number in front of each case is its line in jscandec_internal_test.go. `ptrImpl` is not compared (the code has no such field). `Typ` and `MapValueType` are pointers to
values of size 0, which the test compares with reflect.DeepEqual: it would accept any. Three of its cases (lines 538, 1017, 1041) have copies of the wrong line there; in these the two fields are not compared.
-/
namespace Verif.Conform.Frames
open Verif.Model

/-- The types of the test. -/
def types : List TypeInfo := [
  /- 0 -/ { kind := .string, size := 16 },
  /- 1 -/ { kind := .int .int, size := 8 },
  /- 2 -/ { kind := .struct, size := 0, fields := [] },
  /- 3 -/ { kind := .struct, size := 24, fields := [⟨b!"Foo", b!"foo", 1, 0⟩, ⟨b!"Bar", b!"bar", 0, 8⟩] },
  /- 4 -/ { kind := .struct, size := 64, fields := [⟨b!"S1", [], 3, 0⟩, ⟨b!"Bar", [], 5, 24⟩, ⟨b!"Ignored", b!"-", 6, 48⟩, ⟨b!"Bazz", b!"bazz", 1, 56⟩] },
  /- 5 -/ { kind := .slice, size := 24, elem := 0 },
  /- 6 -/ { kind := .int .i16, size := 2 },
  /- 7 -/ { kind := .slice, size := 24, elem := 8 },
  /- 8 -/ { kind := .bool, size := 1 },
  /- 9 -/ { kind := .slice, size := 24, elem := 1 },
  /- 10 -/ { kind := .slice, size := 24, elem := 11 },
  /- 11 -/ { kind := .int .i8, size := 1 },
  /- 12 -/ { kind := .slice, size := 24, elem := 6 },
  /- 13 -/ { kind := .slice, size := 24, elem := 14 },
  /- 14 -/ { kind := .int .i32, size := 4 },
  /- 15 -/ { kind := .slice, size := 24, elem := 16 },
  /- 16 -/ { kind := .int .i64, size := 8 },
  /- 17 -/ { kind := .slice, size := 24, elem := 18 },
  /- 18 -/ { kind := .int .uint, size := 8 },
  /- 19 -/ { kind := .slice, size := 24, elem := 20 },
  /- 20 -/ { kind := .int .u8, size := 1 },
  /- 21 -/ { kind := .slice, size := 24, elem := 22 },
  /- 22 -/ { kind := .int .u16, size := 2 },
  /- 23 -/ { kind := .slice, size := 24, elem := 24 },
  /- 24 -/ { kind := .int .u32, size := 4 },
  /- 25 -/ { kind := .slice, size := 24, elem := 26 },
  /- 26 -/ { kind := .int .u64, size := 8 },
  /- 27 -/ { kind := .slice, size := 24, elem := 28 },
  /- 28 -/ { kind := .slice, size := 24, elem := 5 },
  /- 29 -/ { kind := .slice, size := 24, elem := 3 },
  /- 30 -/ { kind := .array, size := 0, len := 0, elem := 1 },
  /- 31 -/ { kind := .array, size := 0, len := 0, elem := 32 },
  /- 32 -/ { kind := .array, size := 0, len := 0, elem := 0 },
  /- 33 -/ { kind := .array, size := 0, len := 3, elem := 32 },
  /- 34 -/ { kind := .array, size := 32, len := 4, elem := 1 },
  /- 35 -/ { kind := .map, size := 8, key := 0, elem := 0 },
  /- 36 -/ { kind := .map, size := 8, key := 0, elem := 37 },
  /- 37 -/ { kind := .struct, size := 256, fields := [⟨b!"F", [], 38, 0⟩] },
  /- 38 -/ { kind := .array, size := 256, len := 256, elem := 20 },
  /- 39 -/ { kind := .map, size := 8, key := 40, elem := 0 },
  /- 40 -/ { kind := .struct, size := 8, fields := [⟨b!"f", [], 1, 0⟩], implText := true },
  /- 41 -/ { kind := .map, size := 8, key := 40, elem := 1 },
  /- 42 -/ { kind := .map, size := 8, key := 1, elem := 3 },
  /- 43 -/ { kind := .map, size := 8, key := 1, elem := 44 },
  /- 44 -/ { kind := .map, size := 8, key := 0, elem := 45 },
  /- 45 -/ { kind := .float .f32, size := 4 },
  /- 46 -/ { kind := .map, size := 8, key := 11, elem := 11 },
  /- 47 -/ { kind := .map, size := 8, key := 6, elem := 6 },
  /- 48 -/ { kind := .map, size := 8, key := 14, elem := 14 },
  /- 49 -/ { kind := .map, size := 8, key := 16, elem := 16 },
  /- 50 -/ { kind := .map, size := 8, key := 18, elem := 18 },
  /- 51 -/ { kind := .map, size := 8, key := 20, elem := 20 },
  /- 52 -/ { kind := .map, size := 8, key := 22, elem := 22 },
  /- 53 -/ { kind := .map, size := 8, key := 24, elem := 24 },
  /- 54 -/ { kind := .map, size := 8, key := 26, elem := 26 },
  /- 55 -/ { kind := .struct, size := 48, fields := [⟨b!"Any", [], 56, 0⟩, ⟨b!"Map", [], 57, 16⟩, ⟨b!"Slice", [], 58, 24⟩] },
  /- 56 -/ { kind := .interface, size := 16 },
  /- 57 -/ { kind := .map, size := 8, key := 0, elem := 56 },
  /- 58 -/ { kind := .slice, size := 24, elem := 56 },
  /- 59 -/ { kind := .pointer, size := 8, elem := 1 },
  /- 60 -/ { kind := .pointer, size := 8, elem := 59 },
  /- 61 -/ { kind := .struct, size := 8, fields := [⟨b!"f", [], 1, 0⟩], implJSON := true },
  /- 62 -/ { kind := .pointer, size := 8, elem := 40, implText := true },
  /- 63 -/ { kind := .pointer, size := 8, elem := 61, implJSON := true },
  /- 64 -/ { kind := .slice, size := 24, elem := 61 },
  /- 65 -/ { kind := .slice, size := 24, elem := 40 },
  /- 66 -/ { kind := .struct, size := 32, fields := [⟨b!"f", [], 1, 0⟩], implJSON := true },
  /- 67 -/ { kind := .struct, size := 48, fields := [⟨b!"Name", b!"name", 0, 0⟩, ⟨b!"Unmarshaler", b!"unmar", 61, 16⟩, ⟨b!"Tail", b!"tail", 9, 24⟩] },
  /- 68 -/ { kind := .struct, size := 48, fields := [⟨b!"Name", b!"name", 0, 0⟩, ⟨b!"Unmarshaler", b!"unmar", 63, 16⟩, ⟨b!"Tail", b!"tail", 9, 24⟩] },
  /- 69 -/ { kind := .struct, size := 16, fields := [⟨b!"String", b!",string", 0, 0⟩] },
  /- 70 -/ { kind := .struct, size := 1, fields := [⟨b!"Bool", b!",string", 8, 0⟩] },
  /- 71 -/ { kind := .struct, size := 4, fields := [⟨b!"Float32", b!",string", 45, 0⟩] },
  /- 72 -/ { kind := .struct, size := 8, fields := [⟨b!"Float64", b!",string", 73, 0⟩] },
  /- 73 -/ { kind := .float .f64, size := 8 },
  /- 74 -/ { kind := .struct, size := 8, fields := [⟨b!"Int", b!",string", 1, 0⟩] },
  /- 75 -/ { kind := .struct, size := 1, fields := [⟨b!"Int8", b!",string", 11, 0⟩] },
  /- 76 -/ { kind := .struct, size := 2, fields := [⟨b!"Int16", b!",string", 6, 0⟩] },
  /- 77 -/ { kind := .struct, size := 4, fields := [⟨b!"Int32", b!",string", 14, 0⟩] },
  /- 78 -/ { kind := .struct, size := 8, fields := [⟨b!"Int64", b!",string", 16, 0⟩] },
  /- 79 -/ { kind := .struct, size := 8, fields := [⟨b!"Uint", b!",string", 18, 0⟩] },
  /- 80 -/ { kind := .struct, size := 1, fields := [⟨b!"Uint8", b!",string", 20, 0⟩] },
  /- 81 -/ { kind := .struct, size := 2, fields := [⟨b!"Uint16", b!",string", 22, 0⟩] },
  /- 82 -/ { kind := .struct, size := 4, fields := [⟨b!"Uint32", b!",string", 24, 0⟩] },
  /- 83 -/ { kind := .struct, size := 8, fields := [⟨b!"Uint64", b!",string", 26, 0⟩] },
  /- 84 -/ { kind := .slice, size := 24, elem := 85 },
  /- 85 -/ { kind := .struct, size := 40, fields := [⟨b!"ID", [], 0, 0⟩, ⟨b!"Recursion", [], 84, 16⟩] },
  /- 86 -/ { kind := .slice, size := 24, elem := 87 },
  /- 87 -/ { kind := .struct, size := 24, fields := [⟨b!"ID", [], 0, 0⟩, ⟨b!"Recursion", [], 88, 16⟩] },
  /- 88 -/ { kind := .map, size := 8, key := 0, elem := 87 },
  /- 89 -/ { kind := .slice, size := 24, elem := 90 },
  /- 90 -/ { kind := .struct, size := 24, fields := [⟨b!"ID", [], 0, 0⟩, ⟨b!"Recursion", [], 91, 16⟩] },
  /- 91 -/ { kind := .pointer, size := 8, elem := 90 }]

/-- The program under test. -/
def testEnv : TypeEnv := fun t => types.getD t { kind := .other }

/-- A frame without the parts the test does not compare. -/
def strip (f : Frame) : Frame := { f with ptrImpl := false }

/-- The frame without type descriptors. -/
def bare (f : Frame) : Frame := { strip f with typ := none, mapValueTyp := none, mapValueSize := 0 }

/-- The frames built for a type. -/
def framesOf (g : Frame → Frame) (t : TypeId) : Option (List Frame) :=
  match appendType testEnv 8 (some defaultInitOptions) 20 [] (some t) with
  | .ok fs => some (fs.map g)
  | _ => none

/- 104 -/
example : framesOf strip 0 = some [
    { type := .scalar .str, size := 16, fields := [], rtype := none, cap := 0, faststr := false, recurFrame := 0, offset := 0, parent := none, typ := some 0, mapValueSize := 0, mapValueTyp := none }] := by decide +kernel

/- 115 -/
example : framesOf strip 1 = some [
    { type := .scalar (.int .int), size := 8, fields := [], rtype := none, cap := 0, faststr := false, recurFrame := 0, offset := 0, parent := none, typ := some 1, mapValueSize := 0, mapValueTyp := none }] := by decide +kernel

/- 126 -/
example : framesOf strip 2 = some [
    { type := .emptyStruct, size := 0, fields := [], rtype := none, cap := 0, faststr := false, recurFrame := 0, offset := 0, parent := none, typ := some 2, mapValueSize := 0, mapValueTyp := none }] := by decide +kernel

/- 137 -/
example : framesOf strip 3 = some [
    { type := .struct, size := 24, fields := [(b!"foo", 1), (b!"bar", 2)], rtype := some 3, cap := 0, faststr := false, recurFrame := 0, offset := 0, parent := none, typ := some 3, mapValueSize := 0, mapValueTyp := none },
    { type := .scalar (.int .int), size := 8, fields := [], rtype := none, cap := 0, faststr := false, recurFrame := 0, offset := 0, parent := some 0, typ := some 1, mapValueSize := 0, mapValueTyp := none },
    { type := .scalar .str, size := 16, fields := [], rtype := none, cap := 0, faststr := false, recurFrame := 0, offset := 8, parent := some 0, typ := some 0, mapValueSize := 0, mapValueTyp := none }] := by decide +kernel

/- 166 -/
example : framesOf strip 4 = some [
    { type := .struct, size := 64, fields := [(b!"S1", 1), (b!"Bar", 4), (b!"bazz", 5)], rtype := some 4, cap := 0, faststr := false, recurFrame := 0, offset := 0, parent := none, typ := some 4, mapValueSize := 0, mapValueTyp := none },
    { type := .struct, size := 24, fields := [(b!"foo", 2), (b!"bar", 3)], rtype := some 3, cap := 0, faststr := false, recurFrame := 0, offset := 0, parent := some 0, typ := some 3, mapValueSize := 0, mapValueTyp := none },
    { type := .scalar (.int .int), size := 8, fields := [], rtype := none, cap := 0, faststr := false, recurFrame := 0, offset := 0, parent := some 1, typ := some 1, mapValueSize := 0, mapValueTyp := none },
    { type := .scalar .str, size := 16, fields := [], rtype := none, cap := 0, faststr := false, recurFrame := 0, offset := 8, parent := some 1, typ := some 0, mapValueSize := 0, mapValueTyp := none },
    { type := .sliceOf .str, size := 24, fields := [], rtype := none, cap := 0, faststr := false, recurFrame := 0, offset := 24, parent := some 0, typ := some 5, mapValueSize := 0, mapValueTyp := none },
    { type := .scalar (.int .int), size := 8, fields := [], rtype := none, cap := 0, faststr := false, recurFrame := 0, offset := 56, parent := some 0, typ := some 1, mapValueSize := 0, mapValueTyp := none }] := by decide +kernel

/- 221 -/
example : framesOf strip 7 = some [
    { type := .sliceOf .bool, size := 24, fields := [], rtype := none, cap := 0, faststr := false, recurFrame := 0, offset := 0, parent := none, typ := some 7, mapValueSize := 0, mapValueTyp := none }] := by decide +kernel

/- 232 -/
example : framesOf strip 5 = some [
    { type := .sliceOf .str, size := 24, fields := [], rtype := none, cap := 0, faststr := false, recurFrame := 0, offset := 0, parent := none, typ := some 5, mapValueSize := 0, mapValueTyp := none }] := by decide +kernel

/- 243 -/
example : framesOf strip 9 = some [
    { type := .sliceOf (.int .int), size := 24, fields := [], rtype := none, cap := 0, faststr := false, recurFrame := 0, offset := 0, parent := none, typ := some 9, mapValueSize := 0, mapValueTyp := none }] := by decide +kernel

/- 254 -/
example : framesOf strip 10 = some [
    { type := .sliceOf (.int .i8), size := 24, fields := [], rtype := none, cap := 0, faststr := false, recurFrame := 0, offset := 0, parent := none, typ := some 10, mapValueSize := 0, mapValueTyp := none }] := by decide +kernel

/- 265 -/
example : framesOf strip 12 = some [
    { type := .sliceOf (.int .i16), size := 24, fields := [], rtype := none, cap := 0, faststr := false, recurFrame := 0, offset := 0, parent := none, typ := some 12, mapValueSize := 0, mapValueTyp := none }] := by decide +kernel

/- 276 -/
example : framesOf strip 13 = some [
    { type := .sliceOf (.int .i32), size := 24, fields := [], rtype := none, cap := 0, faststr := false, recurFrame := 0, offset := 0, parent := none, typ := some 13, mapValueSize := 0, mapValueTyp := none }] := by decide +kernel

/- 287 -/
example : framesOf strip 15 = some [
    { type := .sliceOf (.int .i64), size := 24, fields := [], rtype := none, cap := 0, faststr := false, recurFrame := 0, offset := 0, parent := none, typ := some 15, mapValueSize := 0, mapValueTyp := none }] := by decide +kernel

/- 298 -/
example : framesOf strip 17 = some [
    { type := .sliceOf (.int .uint), size := 24, fields := [], rtype := none, cap := 0, faststr := false, recurFrame := 0, offset := 0, parent := none, typ := some 17, mapValueSize := 0, mapValueTyp := none }] := by decide +kernel

/- 309 -/
example : framesOf strip 19 = some [
    { type := .sliceOf (.int .u8), size := 24, fields := [], rtype := none, cap := 0, faststr := false, recurFrame := 0, offset := 0, parent := none, typ := some 19, mapValueSize := 0, mapValueTyp := none }] := by decide +kernel

/- 320 -/
example : framesOf strip 21 = some [
    { type := .sliceOf (.int .u16), size := 24, fields := [], rtype := none, cap := 0, faststr := false, recurFrame := 0, offset := 0, parent := none, typ := some 21, mapValueSize := 0, mapValueTyp := none }] := by decide +kernel

/- 331 -/
example : framesOf strip 23 = some [
    { type := .sliceOf (.int .u32), size := 24, fields := [], rtype := none, cap := 0, faststr := false, recurFrame := 0, offset := 0, parent := none, typ := some 23, mapValueSize := 0, mapValueTyp := none }] := by decide +kernel

/- 342 -/
example : framesOf strip 25 = some [
    { type := .sliceOf (.int .u64), size := 24, fields := [], rtype := none, cap := 0, faststr := false, recurFrame := 0, offset := 0, parent := none, typ := some 25, mapValueSize := 0, mapValueTyp := none }] := by decide +kernel

/- 353 -/
example : framesOf strip 19 = some [
    { type := .sliceOf (.int .u8), size := 24, fields := [], rtype := none, cap := 0, faststr := false, recurFrame := 0, offset := 0, parent := none, typ := some 19, mapValueSize := 0, mapValueTyp := none }] := by decide +kernel

/- 364 -/
example : framesOf strip 27 = some [
    { type := .slice, size := 24, fields := [], rtype := none, cap := 0, faststr := false, recurFrame := 0, offset := 0, parent := none, typ := some 27, mapValueSize := 0, mapValueTyp := none },
    { type := .slice, size := 24, fields := [], rtype := none, cap := 0, faststr := false, recurFrame := 0, offset := 0, parent := some 0, typ := some 28, mapValueSize := 0, mapValueTyp := none },
    { type := .sliceOf .str, size := 24, fields := [], rtype := none, cap := 0, faststr := false, recurFrame := 0, offset := 0, parent := some 1, typ := some 5, mapValueSize := 0, mapValueTyp := none }] := by decide +kernel

/- 387 -/
example : framesOf strip 29 = some [
    { type := .slice, size := 24, fields := [], rtype := none, cap := 0, faststr := false, recurFrame := 0, offset := 0, parent := none, typ := some 29, mapValueSize := 0, mapValueTyp := none },
    { type := .struct, size := 24, fields := [(b!"foo", 2), (b!"bar", 3)], rtype := some 3, cap := 0, faststr := false, recurFrame := 0, offset := 0, parent := some 0, typ := some 3, mapValueSize := 0, mapValueTyp := none },
    { type := .scalar (.int .int), size := 8, fields := [], rtype := none, cap := 0, faststr := false, recurFrame := 0, offset := 0, parent := some 1, typ := some 1, mapValueSize := 0, mapValueTyp := none },
    { type := .scalar .str, size := 16, fields := [], rtype := none, cap := 0, faststr := false, recurFrame := 0, offset := 8, parent := some 1, typ := some 0, mapValueSize := 0, mapValueTyp := none }] := by decide +kernel

/- 422 -/
example : framesOf strip 30 = some [
    { type := .arrayLen0, size := 0, fields := [], rtype := none, cap := 0, faststr := false, recurFrame := 0, offset := 0, parent := none, typ := some 30, mapValueSize := 0, mapValueTyp := none }] := by decide +kernel

/- 432 -/
example : framesOf strip 31 = some [
    { type := .arrayLen0, size := 0, fields := [], rtype := none, cap := 0, faststr := false, recurFrame := 0, offset := 0, parent := none, typ := some 31, mapValueSize := 0, mapValueTyp := none }] := by decide +kernel

/- 442 -/
example : framesOf strip 33 = some [
    { type := .array, size := 0, fields := [], rtype := none, cap := 0, faststr := false, recurFrame := 0, offset := 0, parent := none, typ := some 33, mapValueSize := 0, mapValueTyp := none },
    { type := .arrayLen0, size := 0, fields := [], rtype := none, cap := 3, faststr := false, recurFrame := 0, offset := 0, parent := some 0, typ := some 32, mapValueSize := 0, mapValueTyp := none }] := by decide +kernel

/- 459 -/
example : framesOf strip 34 = some [
    { type := .array, size := 32, fields := [], rtype := none, cap := 0, faststr := false, recurFrame := 0, offset := 0, parent := none, typ := some 34, mapValueSize := 0, mapValueTyp := none },
    { type := .scalar (.int .int), size := 8, fields := [], rtype := none, cap := 4, faststr := false, recurFrame := 0, offset := 0, parent := some 0, typ := some 1, mapValueSize := 0, mapValueTyp := none }] := by decide +kernel

/- 477 -/
example : framesOf strip 35 = some [
    { type := .mapStringString, size := 8, fields := [], rtype := some 35, cap := 0, faststr := false, recurFrame := 0, offset := 0, parent := none, typ := some 35, mapValueSize := 0, mapValueTyp := none }] := by decide +kernel

/- 489 -/
example : framesOf strip 36 = some [
    { type := .map, size := 8, fields := [], rtype := some 36, cap := 0, faststr := false, recurFrame := 0, offset := 0, parent := none, typ := some 36, mapValueSize := 256, mapValueTyp := some 37 },
    { type := .scalar .str, size := 16, fields := [], rtype := none, cap := 0, faststr := false, recurFrame := 0, offset := 0, parent := some 0, typ := some 0, mapValueSize := 0, mapValueTyp := none },
    { type := .struct, size := 256, fields := [(b!"F", 3)], rtype := some 37, cap := 0, faststr := false, recurFrame := 0, offset := 0, parent := some 0, typ := some 37, mapValueSize := 0, mapValueTyp := none },
    { type := .array, size := 256, fields := [], rtype := none, cap := 0, faststr := false, recurFrame := 0, offset := 0, parent := some 2, typ := some 38, mapValueSize := 0, mapValueTyp := none },
    { type := .scalar (.int .u8), size := 1, fields := [], rtype := none, cap := 256, faststr := false, recurFrame := 0, offset := 0, parent := some 3, typ := some 20, mapValueSize := 0, mapValueTyp := none }] := by decide +kernel

/- 538 -/
example : framesOf bare 41 = some [
    { type := .map, size := 8, fields := [], rtype := some 41, cap := 0, faststr := false, recurFrame := 0, offset := 0, parent := none, typ := none, mapValueSize := 0, mapValueTyp := none },
    { type := .textUnmarshaler, size := 8, fields := [], rtype := some 40, cap := 0, faststr := false, recurFrame := 0, offset := 0, parent := some 0, typ := none, mapValueSize := 0, mapValueTyp := none },
    { type := .scalar (.int .int), size := 8, fields := [], rtype := none, cap := 0, faststr := false, recurFrame := 0, offset := 0, parent := some 0, typ := none, mapValueSize := 0, mapValueTyp := none }] := by decide +kernel

/- 571 -/
example : framesOf strip 42 = some [
    { type := .map, size := 8, fields := [], rtype := some 42, cap := 0, faststr := false, recurFrame := 0, offset := 0, parent := none, typ := some 42, mapValueSize := 24, mapValueTyp := some 3 },
    { type := .scalar (.int .int), size := 8, fields := [], rtype := none, cap := 0, faststr := false, recurFrame := 0, offset := 0, parent := some 0, typ := some 1, mapValueSize := 0, mapValueTyp := none },
    { type := .struct, size := 24, fields := [(b!"foo", 3), (b!"bar", 4)], rtype := some 3, cap := 0, faststr := false, recurFrame := 0, offset := 0, parent := some 0, typ := some 3, mapValueSize := 0, mapValueTyp := none },
    { type := .scalar (.int .int), size := 8, fields := [], rtype := none, cap := 0, faststr := false, recurFrame := 0, offset := 0, parent := some 2, typ := some 1, mapValueSize := 0, mapValueTyp := none },
    { type := .scalar .str, size := 16, fields := [], rtype := none, cap := 0, faststr := false, recurFrame := 0, offset := 8, parent := some 2, typ := some 0, mapValueSize := 0, mapValueTyp := none }] := by decide +kernel

/- 615 -/
example : framesOf strip 43 = some [
    { type := .map, size := 8, fields := [], rtype := some 43, cap := 0, faststr := false, recurFrame := 0, offset := 0, parent := none, typ := some 43, mapValueSize := 8, mapValueTyp := some 44 },
    { type := .scalar (.int .int), size := 8, fields := [], rtype := none, cap := 0, faststr := false, recurFrame := 0, offset := 0, parent := some 0, typ := some 1, mapValueSize := 0, mapValueTyp := none },
    { type := .map, size := 8, fields := [], rtype := some 44, cap := 0, faststr := true, recurFrame := 0, offset := 0, parent := some 0, typ := some 44, mapValueSize := 4, mapValueTyp := some 45 },
    { type := .scalar .str, size := 16, fields := [], rtype := none, cap := 0, faststr := false, recurFrame := 0, offset := 0, parent := some 2, typ := some 0, mapValueSize := 0, mapValueTyp := none },
    { type := .scalar (.flt .f32), size := 4, fields := [], rtype := none, cap := 0, faststr := false, recurFrame := 0, offset := 0, parent := some 2, typ := some 45, mapValueSize := 0, mapValueTyp := none }] := by decide +kernel

/- 666 -/
example : framesOf strip 46 = some [
    { type := .map, size := 8, fields := [], rtype := some 46, cap := 0, faststr := false, recurFrame := 0, offset := 0, parent := none, typ := some 46, mapValueSize := 1, mapValueTyp := some 11 },
    { type := .scalar (.int .i8), size := 1, fields := [], rtype := none, cap := 0, faststr := false, recurFrame := 0, offset := 0, parent := some 0, typ := some 11, mapValueSize := 0, mapValueTyp := none },
    { type := .scalar (.int .i8), size := 1, fields := [], rtype := none, cap := 0, faststr := false, recurFrame := 0, offset := 0, parent := some 0, typ := some 11, mapValueSize := 0, mapValueTyp := none }] := by decide +kernel

/- 692 -/
example : framesOf strip 47 = some [
    { type := .map, size := 8, fields := [], rtype := some 47, cap := 0, faststr := false, recurFrame := 0, offset := 0, parent := none, typ := some 47, mapValueSize := 2, mapValueTyp := some 6 },
    { type := .scalar (.int .i16), size := 2, fields := [], rtype := none, cap := 0, faststr := false, recurFrame := 0, offset := 0, parent := some 0, typ := some 6, mapValueSize := 0, mapValueTyp := none },
    { type := .scalar (.int .i16), size := 2, fields := [], rtype := none, cap := 0, faststr := false, recurFrame := 0, offset := 0, parent := some 0, typ := some 6, mapValueSize := 0, mapValueTyp := none }] := by decide +kernel

/- 718 -/
example : framesOf strip 48 = some [
    { type := .map, size := 8, fields := [], rtype := some 48, cap := 0, faststr := false, recurFrame := 0, offset := 0, parent := none, typ := some 48, mapValueSize := 4, mapValueTyp := some 14 },
    { type := .scalar (.int .i32), size := 4, fields := [], rtype := none, cap := 0, faststr := false, recurFrame := 0, offset := 0, parent := some 0, typ := some 14, mapValueSize := 0, mapValueTyp := none },
    { type := .scalar (.int .i32), size := 4, fields := [], rtype := none, cap := 0, faststr := false, recurFrame := 0, offset := 0, parent := some 0, typ := some 14, mapValueSize := 0, mapValueTyp := none }] := by decide +kernel

/- 744 -/
example : framesOf strip 49 = some [
    { type := .map, size := 8, fields := [], rtype := some 49, cap := 0, faststr := false, recurFrame := 0, offset := 0, parent := none, typ := some 49, mapValueSize := 8, mapValueTyp := some 16 },
    { type := .scalar (.int .i64), size := 8, fields := [], rtype := none, cap := 0, faststr := false, recurFrame := 0, offset := 0, parent := some 0, typ := some 16, mapValueSize := 0, mapValueTyp := none },
    { type := .scalar (.int .i64), size := 8, fields := [], rtype := none, cap := 0, faststr := false, recurFrame := 0, offset := 0, parent := some 0, typ := some 16, mapValueSize := 0, mapValueTyp := none }] := by decide +kernel

/- 770 -/
example : framesOf strip 50 = some [
    { type := .map, size := 8, fields := [], rtype := some 50, cap := 0, faststr := false, recurFrame := 0, offset := 0, parent := none, typ := some 50, mapValueSize := 8, mapValueTyp := some 18 },
    { type := .scalar (.int .uint), size := 8, fields := [], rtype := none, cap := 0, faststr := false, recurFrame := 0, offset := 0, parent := some 0, typ := some 18, mapValueSize := 0, mapValueTyp := none },
    { type := .scalar (.int .uint), size := 8, fields := [], rtype := none, cap := 0, faststr := false, recurFrame := 0, offset := 0, parent := some 0, typ := some 18, mapValueSize := 0, mapValueTyp := none }] := by decide +kernel

/- 796 -/
example : framesOf strip 51 = some [
    { type := .map, size := 8, fields := [], rtype := some 51, cap := 0, faststr := false, recurFrame := 0, offset := 0, parent := none, typ := some 51, mapValueSize := 1, mapValueTyp := some 20 },
    { type := .scalar (.int .u8), size := 1, fields := [], rtype := none, cap := 0, faststr := false, recurFrame := 0, offset := 0, parent := some 0, typ := some 20, mapValueSize := 0, mapValueTyp := none },
    { type := .scalar (.int .u8), size := 1, fields := [], rtype := none, cap := 0, faststr := false, recurFrame := 0, offset := 0, parent := some 0, typ := some 20, mapValueSize := 0, mapValueTyp := none }] := by decide +kernel

/- 822 -/
example : framesOf strip 52 = some [
    { type := .map, size := 8, fields := [], rtype := some 52, cap := 0, faststr := false, recurFrame := 0, offset := 0, parent := none, typ := some 52, mapValueSize := 2, mapValueTyp := some 22 },
    { type := .scalar (.int .u16), size := 2, fields := [], rtype := none, cap := 0, faststr := false, recurFrame := 0, offset := 0, parent := some 0, typ := some 22, mapValueSize := 0, mapValueTyp := none },
    { type := .scalar (.int .u16), size := 2, fields := [], rtype := none, cap := 0, faststr := false, recurFrame := 0, offset := 0, parent := some 0, typ := some 22, mapValueSize := 0, mapValueTyp := none }] := by decide +kernel

/- 850 -/
example : framesOf strip 53 = some [
    { type := .map, size := 8, fields := [], rtype := some 53, cap := 0, faststr := false, recurFrame := 0, offset := 0, parent := none, typ := some 53, mapValueSize := 4, mapValueTyp := some 24 },
    { type := .scalar (.int .u32), size := 4, fields := [], rtype := none, cap := 0, faststr := false, recurFrame := 0, offset := 0, parent := some 0, typ := some 24, mapValueSize := 0, mapValueTyp := none },
    { type := .scalar (.int .u32), size := 4, fields := [], rtype := none, cap := 0, faststr := false, recurFrame := 0, offset := 0, parent := some 0, typ := some 24, mapValueSize := 0, mapValueTyp := none }] := by decide +kernel

/- 878 -/
example : framesOf strip 54 = some [
    { type := .map, size := 8, fields := [], rtype := some 54, cap := 0, faststr := false, recurFrame := 0, offset := 0, parent := none, typ := some 54, mapValueSize := 8, mapValueTyp := some 26 },
    { type := .scalar (.int .u64), size := 8, fields := [], rtype := none, cap := 0, faststr := false, recurFrame := 0, offset := 0, parent := some 0, typ := some 26, mapValueSize := 0, mapValueTyp := none },
    { type := .scalar (.int .u64), size := 8, fields := [], rtype := none, cap := 0, faststr := false, recurFrame := 0, offset := 0, parent := some 0, typ := some 26, mapValueSize := 0, mapValueTyp := none }] := by decide +kernel

/- 906 -/
example : framesOf strip 55 = some [
    { type := .struct, size := 48, fields := [(b!"Any", 1), (b!"Map", 2), (b!"Slice", 5)], rtype := some 55, cap := 0, faststr := false, recurFrame := 0, offset := 0, parent := none, typ := some 55, mapValueSize := 0, mapValueTyp := none },
    { type := .any, size := 16, fields := [], rtype := none, cap := 0, faststr := false, recurFrame := 0, offset := 0, parent := some 0, typ := some 56, mapValueSize := 0, mapValueTyp := none },
    { type := .map, size := 8, fields := [], rtype := some 57, cap := 0, faststr := true, recurFrame := 0, offset := 16, parent := some 0, typ := some 57, mapValueSize := 16, mapValueTyp := some 56 },
    { type := .scalar .str, size := 16, fields := [], rtype := none, cap := 0, faststr := false, recurFrame := 0, offset := 0, parent := some 2, typ := some 0, mapValueSize := 0, mapValueTyp := none },
    { type := .any, size := 16, fields := [], rtype := none, cap := 0, faststr := false, recurFrame := 0, offset := 0, parent := some 2, typ := some 56, mapValueSize := 0, mapValueTyp := none },
    { type := .slice, size := 24, fields := [], rtype := none, cap := 0, faststr := false, recurFrame := 0, offset := 24, parent := some 0, typ := some 58, mapValueSize := 0, mapValueTyp := none },
    { type := .any, size := 16, fields := [], rtype := none, cap := 0, faststr := false, recurFrame := 0, offset := 0, parent := some 5, typ := some 56, mapValueSize := 0, mapValueTyp := none }] := by decide +kernel

/- 965 -/
example : framesOf strip 59 = some [
    { type := .ptr, size := 8, fields := [], rtype := none, cap := 0, faststr := false, recurFrame := 0, offset := 0, parent := none, typ := some 59, mapValueSize := 0, mapValueTyp := none },
    { type := .scalar (.int .int), size := 8, fields := [], rtype := none, cap := 0, faststr := false, recurFrame := 0, offset := 0, parent := some 0, typ := some 1, mapValueSize := 0, mapValueTyp := none }] := by decide +kernel

/- 982 -/
example : framesOf strip 60 = some [
    { type := .ptr, size := 8, fields := [], rtype := none, cap := 0, faststr := false, recurFrame := 0, offset := 0, parent := none, typ := some 60, mapValueSize := 0, mapValueTyp := none },
    { type := .ptr, size := 8, fields := [], rtype := none, cap := 0, faststr := false, recurFrame := 0, offset := 0, parent := some 0, typ := some 59, mapValueSize := 0, mapValueTyp := none },
    { type := .scalar (.int .int), size := 8, fields := [], rtype := none, cap := 0, faststr := false, recurFrame := 0, offset := 0, parent := some 1, typ := some 1, mapValueSize := 0, mapValueTyp := none }] := by decide +kernel

/- 1005 -/
example : framesOf strip 61 = some [
    { type := .jsonUnmarshaler, size := 8, fields := [], rtype := some 61, cap := 0, faststr := false, recurFrame := 0, offset := 0, parent := none, typ := some 61, mapValueSize := 0, mapValueTyp := none }] := by decide +kernel

/- 1017 -/
example : framesOf bare 63 = some [
    { type := .jsonUnmarshaler, size := 8, fields := [], rtype := some 63, cap := 0, faststr := false, recurFrame := 0, offset := 0, parent := none, typ := none, mapValueSize := 0, mapValueTyp := none }] := by decide +kernel

/- 1029 -/
example : framesOf strip 40 = some [
    { type := .textUnmarshaler, size := 8, fields := [], rtype := some 40, cap := 0, faststr := false, recurFrame := 0, offset := 0, parent := none, typ := some 40, mapValueSize := 0, mapValueTyp := none }] := by decide +kernel

/- 1041 -/
example : framesOf bare 62 = some [
    { type := .textUnmarshaler, size := 8, fields := [], rtype := some 62, cap := 0, faststr := false, recurFrame := 0, offset := 0, parent := none, typ := none, mapValueSize := 0, mapValueTyp := none }] := by decide +kernel

/- 1053 -/
example : framesOf strip 64 = some [
    { type := .slice, size := 24, fields := [], rtype := none, cap := 0, faststr := false, recurFrame := 0, offset := 0, parent := none, typ := some 64, mapValueSize := 0, mapValueTyp := none },
    { type := .jsonUnmarshaler, size := 8, fields := [], rtype := some 61, cap := 0, faststr := false, recurFrame := 0, offset := 0, parent := some 0, typ := some 61, mapValueSize := 0, mapValueTyp := none }] := by decide +kernel

/- 1075 -/
example : framesOf strip 65 = some [
    { type := .slice, size := 24, fields := [], rtype := none, cap := 0, faststr := false, recurFrame := 0, offset := 0, parent := none, typ := some 65, mapValueSize := 0, mapValueTyp := none },
    { type := .textUnmarshaler, size := 8, fields := [], rtype := some 40, cap := 0, faststr := false, recurFrame := 0, offset := 0, parent := some 0, typ := some 40, mapValueSize := 0, mapValueTyp := none }] := by decide +kernel

/- 1097 -/
example : framesOf strip 66 = some [
    { type := .jsonUnmarshaler, size := 32, fields := [], rtype := some 66, cap := 0, faststr := false, recurFrame := 0, offset := 0, parent := none, typ := some 66, mapValueSize := 0, mapValueTyp := none }] := by decide +kernel

/- 1113 -/
example : framesOf strip 67 = some [
    { type := .struct, size := 48, fields := [(b!"name", 1), (b!"unmar", 2), (b!"tail", 3)], rtype := some 67, cap := 0, faststr := false, recurFrame := 0, offset := 0, parent := none, typ := some 67, mapValueSize := 0, mapValueTyp := none },
    { type := .scalar .str, size := 16, fields := [], rtype := none, cap := 0, faststr := false, recurFrame := 0, offset := 0, parent := some 0, typ := some 0, mapValueSize := 0, mapValueTyp := none },
    { type := .jsonUnmarshaler, size := 8, fields := [], rtype := some 61, cap := 0, faststr := false, recurFrame := 0, offset := 16, parent := some 0, typ := some 61, mapValueSize := 0, mapValueTyp := none },
    { type := .sliceOf (.int .int), size := 24, fields := [], rtype := none, cap := 0, faststr := false, recurFrame := 0, offset := 24, parent := some 0, typ := some 9, mapValueSize := 0, mapValueTyp := none }] := by decide +kernel

/- 1152 -/
example : framesOf strip 68 = some [
    { type := .struct, size := 48, fields := [(b!"name", 1), (b!"unmar", 2), (b!"tail", 3)], rtype := some 68, cap := 0, faststr := false, recurFrame := 0, offset := 0, parent := none, typ := some 68, mapValueSize := 0, mapValueTyp := none },
    { type := .scalar .str, size := 16, fields := [], rtype := none, cap := 0, faststr := false, recurFrame := 0, offset := 0, parent := some 0, typ := some 0, mapValueSize := 0, mapValueTyp := none },
    { type := .jsonUnmarshaler, size := 8, fields := [], rtype := some 63, cap := 0, faststr := false, recurFrame := 0, offset := 16, parent := some 0, typ := some 63, mapValueSize := 0, mapValueTyp := none },
    { type := .sliceOf (.int .int), size := 24, fields := [], rtype := none, cap := 0, faststr := false, recurFrame := 0, offset := 24, parent := some 0, typ := some 9, mapValueSize := 0, mapValueTyp := none }] := by decide +kernel

/- 1191 -/
example : framesOf strip 69 = some [
    { type := .struct, size := 16, fields := [(b!"String", 1)], rtype := some 69, cap := 0, faststr := false, recurFrame := 0, offset := 0, parent := none, typ := some 69, mapValueSize := 0, mapValueTyp := none },
    { type := .quoted .str, size := 16, fields := [], rtype := none, cap := 0, faststr := false, recurFrame := 0, offset := 0, parent := some 0, typ := some 0, mapValueSize := 0, mapValueTyp := none }] := by decide +kernel

/- 1212 -/
example : framesOf strip 69 = some [
    { type := .struct, size := 16, fields := [(b!"String", 1)], rtype := some 69, cap := 0, faststr := false, recurFrame := 0, offset := 0, parent := none, typ := some 69, mapValueSize := 0, mapValueTyp := none },
    { type := .quoted .str, size := 16, fields := [], rtype := none, cap := 0, faststr := false, recurFrame := 0, offset := 0, parent := some 0, typ := some 0, mapValueSize := 0, mapValueTyp := none }] := by decide +kernel

/- 1233 -/
example : framesOf strip 70 = some [
    { type := .struct, size := 1, fields := [(b!"Bool", 1)], rtype := some 70, cap := 0, faststr := false, recurFrame := 0, offset := 0, parent := none, typ := some 70, mapValueSize := 0, mapValueTyp := none },
    { type := .quoted .bool, size := 1, fields := [], rtype := none, cap := 0, faststr := false, recurFrame := 0, offset := 0, parent := some 0, typ := some 8, mapValueSize := 0, mapValueTyp := none }] := by decide +kernel

/- 1254 -/
example : framesOf strip 71 = some [
    { type := .struct, size := 4, fields := [(b!"Float32", 1)], rtype := some 71, cap := 0, faststr := false, recurFrame := 0, offset := 0, parent := none, typ := some 71, mapValueSize := 0, mapValueTyp := none },
    { type := .quoted (.flt .f32), size := 4, fields := [], rtype := none, cap := 0, faststr := false, recurFrame := 0, offset := 0, parent := some 0, typ := some 45, mapValueSize := 0, mapValueTyp := none }] := by decide +kernel

/- 1275 -/
example : framesOf strip 72 = some [
    { type := .struct, size := 8, fields := [(b!"Float64", 1)], rtype := some 72, cap := 0, faststr := false, recurFrame := 0, offset := 0, parent := none, typ := some 72, mapValueSize := 0, mapValueTyp := none },
    { type := .quoted (.flt .f64), size := 8, fields := [], rtype := none, cap := 0, faststr := false, recurFrame := 0, offset := 0, parent := some 0, typ := some 73, mapValueSize := 0, mapValueTyp := none }] := by decide +kernel

/- 1296 -/
example : framesOf strip 74 = some [
    { type := .struct, size := 8, fields := [(b!"Int", 1)], rtype := some 74, cap := 0, faststr := false, recurFrame := 0, offset := 0, parent := none, typ := some 74, mapValueSize := 0, mapValueTyp := none },
    { type := .quoted (.int .int), size := 8, fields := [], rtype := none, cap := 0, faststr := false, recurFrame := 0, offset := 0, parent := some 0, typ := some 1, mapValueSize := 0, mapValueTyp := none }] := by decide +kernel

/- 1317 -/
example : framesOf strip 75 = some [
    { type := .struct, size := 1, fields := [(b!"Int8", 1)], rtype := some 75, cap := 0, faststr := false, recurFrame := 0, offset := 0, parent := none, typ := some 75, mapValueSize := 0, mapValueTyp := none },
    { type := .quoted (.int .i8), size := 1, fields := [], rtype := none, cap := 0, faststr := false, recurFrame := 0, offset := 0, parent := some 0, typ := some 11, mapValueSize := 0, mapValueTyp := none }] := by decide +kernel

/- 1338 -/
example : framesOf strip 76 = some [
    { type := .struct, size := 2, fields := [(b!"Int16", 1)], rtype := some 76, cap := 0, faststr := false, recurFrame := 0, offset := 0, parent := none, typ := some 76, mapValueSize := 0, mapValueTyp := none },
    { type := .quoted (.int .i16), size := 2, fields := [], rtype := none, cap := 0, faststr := false, recurFrame := 0, offset := 0, parent := some 0, typ := some 6, mapValueSize := 0, mapValueTyp := none }] := by decide +kernel

/- 1359 -/
example : framesOf strip 77 = some [
    { type := .struct, size := 4, fields := [(b!"Int32", 1)], rtype := some 77, cap := 0, faststr := false, recurFrame := 0, offset := 0, parent := none, typ := some 77, mapValueSize := 0, mapValueTyp := none },
    { type := .quoted (.int .i32), size := 4, fields := [], rtype := none, cap := 0, faststr := false, recurFrame := 0, offset := 0, parent := some 0, typ := some 14, mapValueSize := 0, mapValueTyp := none }] := by decide +kernel

/- 1380 -/
example : framesOf strip 78 = some [
    { type := .struct, size := 8, fields := [(b!"Int64", 1)], rtype := some 78, cap := 0, faststr := false, recurFrame := 0, offset := 0, parent := none, typ := some 78, mapValueSize := 0, mapValueTyp := none },
    { type := .quoted (.int .i64), size := 8, fields := [], rtype := none, cap := 0, faststr := false, recurFrame := 0, offset := 0, parent := some 0, typ := some 16, mapValueSize := 0, mapValueTyp := none }] := by decide +kernel

/- 1401 -/
example : framesOf strip 79 = some [
    { type := .struct, size := 8, fields := [(b!"Uint", 1)], rtype := some 79, cap := 0, faststr := false, recurFrame := 0, offset := 0, parent := none, typ := some 79, mapValueSize := 0, mapValueTyp := none },
    { type := .quoted (.int .uint), size := 8, fields := [], rtype := none, cap := 0, faststr := false, recurFrame := 0, offset := 0, parent := some 0, typ := some 18, mapValueSize := 0, mapValueTyp := none }] := by decide +kernel

/- 1422 -/
example : framesOf strip 80 = some [
    { type := .struct, size := 1, fields := [(b!"Uint8", 1)], rtype := some 80, cap := 0, faststr := false, recurFrame := 0, offset := 0, parent := none, typ := some 80, mapValueSize := 0, mapValueTyp := none },
    { type := .quoted (.int .u8), size := 1, fields := [], rtype := none, cap := 0, faststr := false, recurFrame := 0, offset := 0, parent := some 0, typ := some 20, mapValueSize := 0, mapValueTyp := none }] := by decide +kernel

/- 1443 -/
example : framesOf strip 81 = some [
    { type := .struct, size := 2, fields := [(b!"Uint16", 1)], rtype := some 81, cap := 0, faststr := false, recurFrame := 0, offset := 0, parent := none, typ := some 81, mapValueSize := 0, mapValueTyp := none },
    { type := .quoted (.int .u16), size := 2, fields := [], rtype := none, cap := 0, faststr := false, recurFrame := 0, offset := 0, parent := some 0, typ := some 22, mapValueSize := 0, mapValueTyp := none }] := by decide +kernel

/- 1464 -/
example : framesOf strip 82 = some [
    { type := .struct, size := 4, fields := [(b!"Uint32", 1)], rtype := some 82, cap := 0, faststr := false, recurFrame := 0, offset := 0, parent := none, typ := some 82, mapValueSize := 0, mapValueTyp := none },
    { type := .quoted (.int .u32), size := 4, fields := [], rtype := none, cap := 0, faststr := false, recurFrame := 0, offset := 0, parent := some 0, typ := some 24, mapValueSize := 0, mapValueTyp := none }] := by decide +kernel

/- 1485 -/
example : framesOf strip 83 = some [
    { type := .struct, size := 8, fields := [(b!"Uint64", 1)], rtype := some 83, cap := 0, faststr := false, recurFrame := 0, offset := 0, parent := none, typ := some 83, mapValueSize := 0, mapValueTyp := none },
    { type := .quoted (.int .u64), size := 8, fields := [], rtype := none, cap := 0, faststr := false, recurFrame := 0, offset := 0, parent := some 0, typ := some 26, mapValueSize := 0, mapValueTyp := none }] := by decide +kernel

/- 1506 -/
example : framesOf strip 84 = some [
    { type := .slice, size := 24, fields := [], rtype := none, cap := 0, faststr := false, recurFrame := 0, offset := 0, parent := none, typ := some 84, mapValueSize := 0, mapValueTyp := none },
    { type := .structRecur, size := 40, fields := [(b!"ID", 2), (b!"Recursion", 3)], rtype := some 85, cap := 0, faststr := false, recurFrame := 0, offset := 0, parent := some 0, typ := some 85, mapValueSize := 0, mapValueTyp := none },
    { type := .scalar .str, size := 16, fields := [], rtype := none, cap := 0, faststr := false, recurFrame := 0, offset := 0, parent := some 1, typ := some 0, mapValueSize := 0, mapValueTyp := none },
    { type := .sliceRecur, size := 24, fields := [], rtype := none, cap := 0, faststr := false, recurFrame := 1, offset := 16, parent := some 1, typ := some 84, mapValueSize := 0, mapValueTyp := none }] := by decide +kernel

/- 1544 -/
example : framesOf strip 86 = some [
    { type := .slice, size := 24, fields := [], rtype := none, cap := 0, faststr := false, recurFrame := 0, offset := 0, parent := none, typ := some 86, mapValueSize := 0, mapValueTyp := none },
    { type := .structRecur, size := 24, fields := [(b!"ID", 2), (b!"Recursion", 3)], rtype := some 87, cap := 0, faststr := false, recurFrame := 0, offset := 0, parent := some 0, typ := some 87, mapValueSize := 0, mapValueTyp := none },
    { type := .scalar .str, size := 16, fields := [], rtype := none, cap := 0, faststr := false, recurFrame := 0, offset := 0, parent := some 1, typ := some 0, mapValueSize := 0, mapValueTyp := none },
    { type := .mapRecur, size := 8, fields := [], rtype := none, cap := 0, faststr := true, recurFrame := 1, offset := 16, parent := some 1, typ := some 88, mapValueSize := 24, mapValueTyp := some 87 },
    { type := .scalar .str, size := 16, fields := [], rtype := none, cap := 0, faststr := false, recurFrame := 0, offset := 0, parent := some 3, typ := some 0, mapValueSize := 0, mapValueTyp := none }] := by decide +kernel

/- 1596 -/
example : framesOf strip 89 = some [
    { type := .slice, size := 24, fields := [], rtype := none, cap := 0, faststr := false, recurFrame := 0, offset := 0, parent := none, typ := some 89, mapValueSize := 0, mapValueTyp := none },
    { type := .structRecur, size := 24, fields := [(b!"ID", 2), (b!"Recursion", 3)], rtype := some 90, cap := 0, faststr := false, recurFrame := 0, offset := 0, parent := some 0, typ := some 90, mapValueSize := 0, mapValueTyp := none },
    { type := .scalar .str, size := 16, fields := [], rtype := none, cap := 0, faststr := false, recurFrame := 0, offset := 0, parent := some 1, typ := some 0, mapValueSize := 0, mapValueTyp := none },
    { type := .ptrRecur, size := 8, fields := [], rtype := none, cap := 0, faststr := false, recurFrame := 1, offset := 16, parent := some 1, typ := some 91, mapValueSize := 0, mapValueTyp := none }] := by decide +kernel

end Verif.Conform.Frames
