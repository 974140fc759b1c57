import Verif.Spec.Session
import Verif.Spec.Parse
import Verif.Spec.Decimal
/-!
# A concrete program, used in examples and refutations

`demoX` is a 64-bit platform with string input and simple stand-ins for the external functions; `demoEnv` are the types of a small Go program.
-/
namespace Verif.Spec
open Verif.Model Verif.Big

/-- ASCII lower case. -/
def lower (c : UInt8) : UInt8 := if 65 ≤ c ∧ c ≤ 90 then c + 32 else c

/-- Value of a decimal literal; fails on other texts. -/
def demoInt (s : Bytes) : Except Nat Int :=
  match s with
  | 45 :: t => if t.all (fun c => decide (IsDigit c)) then .ok (-(digitsVal t : Int)) else .error 1
  | s => if s.all (fun c => decide (IsDigit c)) then .ok (digitsVal s) else .error 1

/-- Stand-in for a float parser: integers become their absolute value, `1e999` is out of range. -/
def demoFloat (s : Bytes) : Except Nat Flt :=
  if s = b!"1e999" then .error 2 else (demoInt s).map fun i => i.natAbs

/-- 64-bit platform, string input. `UnmarshalJSON` and `UnmarshalText` store the text they get; they fail on the text `"bad"`, `UnmarshalJSON` with the quotes. -/
def demoX : Ext where
  is64 := true
  strInput := true
  parseFloat32 := demoFloat
  parseFloat64 := demoFloat
  f32OfInt := Int.natAbs
  f64OfInt := Int.natAbs
  tokInt32 := demoInt
  tokInt64 := demoInt
  tokFloat64 := demoFloat
  equalFold := fun a b => a.map lower == b.map lower
  unmarshalJSON := fun _ old t => if t = b!"\"bad\"" then (old, some 7) else ([.user t], none)
  unmarshalText := fun _ old t => if t = b!"bad" then (old, some 7) else ([.user t], none)
  unmarshalKey := fun _ t => if t = b!"bad" then .error 7 else .ok t

/-- The types of the program. -/
def demoTypes : List TypeInfo := [
  /- 0: bool -/ { kind := .bool, size := 1 },
  /- 1: int -/ { kind := .int .int, size := 8 },
  /- 2: string -/ { kind := .string, size := 16 },
  /- 3: any -/ { kind := .interface, size := 16 },
  /- 4: struct{X int; Y string} -/ { kind := .struct, size := 24, fields := [⟨b!"X", [], 1, 0⟩, ⟨b!"Y", [], 2, 8⟩] },
  /- 5: []struct{X int; Y string} -/ { kind := .slice, size := 24, elem := 4 },
  /- 6: struct{Foo int} -/ { kind := .struct, size := 8, fields := [⟨b!"Foo", [], 1, 0⟩] },
  /- 7: *int -/ { kind := .pointer, size := 8, elem := 1 },
  /- 8: struct{A *int; B int} -/ { kind := .struct, size := 16, fields := [⟨b!"A", [], 7, 0⟩, ⟨b!"B", [], 1, 8⟩] },
  /- 9: []*int -/ { kind := .slice, size := 24, elem := 7 },
  /- 10: map[string]string -/ { kind := .map, size := 8, key := 2, elem := 2 },
  /- 11: map[string]int -/ { kind := .map, size := 8, key := 2, elem := 1 },
  /- 12: T = struct{Kids []T; Name string} -/ { kind := .struct, size := 40, fields := [⟨b!"Kids", [], 13, 0⟩, ⟨b!"Name", [], 2, 24⟩] },
  /- 13: []T -/ { kind := .slice, size := 24, elem := 12 },
  /- 14: struct{} -/ { kind := .struct, size := 0 },
  /- 15: struct{E struct{}; B int} -/ { kind := .struct, size := 8, fields := [⟨b!"E", [], 14, 0⟩, ⟨b!"B", [], 1, 0⟩] },
  /- 16: L = []L -/ { kind := .slice, size := 24, elem := 16 },
  /- 17: U = struct{A [][2]U} -/ { kind := .struct, size := 24, fields := [⟨b!"A", [], 18, 0⟩] },
  /- 18: [][2]U -/ { kind := .slice, size := 24, elem := 19 },
  /- 19: [2]U -/ { kind := .array, size := 48, len := 2, elem := 17 },
  /- 20: interface{ M() } -/ { kind := .interface, size := 16, numMethod := 1 },
  /- 21: chan int -/ { kind := .other, size := 8 },
  /- 22: J, a struct of 8 bytes with UnmarshalJSON on *J -/ { kind := .struct, size := 8, fields := [⟨b!"raw", [], 1, 0⟩], implJSON := true },
  /- 23: *J -/ { kind := .pointer, size := 8, elem := 22, implJSON := true },
  /- 24: int8 -/ { kind := .int .i8, size := 1 },
  /- 25: struct{N int `json:"n,string"`} -/ { kind := .struct, size := 8, fields := [⟨b!"N", b!"n,string", 1, 0⟩] },
  /- 26: [3]int -/ { kind := .array, size := 24, len := 3, elem := 1 },
  /- 27: []int -/ { kind := .slice, size := 24, elem := 1 },
  /- 28: [][]int -/ { kind := .slice, size := 24, elem := 27 },
  /- 29: float64 -/ { kind := .float .f64, size := 8 },
  /- 30: uint8 -/ { kind := .int .u8, size := 1 },
  /- 31: map[int]struct{X int; Y string} -/ { kind := .map, size := 8, key := 1, elem := 4 },
  /- 32: jscandec.Number -/ { kind := .string, size := 16, isNumber := true },
  /- 33: X, an int with UnmarshalText on *X -/ { kind := .int .int, size := 8, implText := true },
  /- 34: map[X]any -/ { kind := .map, size := 8, key := 33, elem := 3 },
  /- 35: struct{In struct{Foo int}; B int} -/ { kind := .struct, size := 16, fields := [⟨b!"In", [], 6, 0⟩, ⟨b!"B", [], 1, 8⟩] },
  /- 36: *struct{X int; Y string} -/ { kind := .pointer, size := 8, elem := 4 },
  /- 37: **struct{X int; Y string} -/ { kind := .pointer, size := 8, elem := 36 },
  /- 38: struct{T J; L []J} -/ { kind := .struct, size := 32, fields := [⟨b!"T", [], 22, 0⟩, ⟨b!"L", [], 39, 8⟩] },
  /- 39: []J -/ { kind := .slice, size := 24, elem := 22 },
  /- 40: P = struct{Next *P; V int} -/ { kind := .struct, size := 16, fields := [⟨b!"Next", [], 41, 0⟩, ⟨b!"V", [], 1, 8⟩] },
  /- 41: *P -/ { kind := .pointer, size := 8, elem := 40 },
  /- 42: map[bool]int -/ { kind := .map, size := 8, key := 0, elem := 1 },
  /- 43: struct{In struct{A *int}; B int} -/ { kind := .struct, size := 16, fields := [⟨b!"In", [], 44, 0⟩, ⟨b!"B", [], 1, 8⟩] },
  /- 44: struct{A *int} -/ { kind := .struct, size := 8, fields := [⟨b!"A", [], 7, 0⟩] },
  /- 45: everything: struct{ID int64 `json:"id"`; Name string; Pos [2]struct{X int; Y string}; Tags map[string]int; Any any; Skip int `json:"-"`; Q bool `json:",string"`; J J} -/
  { kind := .struct, size := 120, fields := [⟨b!"ID", b!"id", 46, 0⟩, ⟨b!"Name", [], 2, 8⟩, ⟨b!"Pos", [], 47, 24⟩, ⟨b!"Tags", [], 11, 72⟩, ⟨b!"Any", [], 3, 80⟩,
      ⟨b!"Skip", b!"-", 1, 96⟩, ⟨b!"Q", b!",string", 0, 104⟩, ⟨b!"J", [], 22, 112⟩] },
  /- 46: int64 -/ { kind := .int .i64, size := 8 },
  /- 47: [2]struct{X int; Y string} -/ { kind := .array, size := 48, len := 2, elem := 4 },
  /- 48: struct{F []int `json:",string"`} -/ { kind := .struct, size := 24, fields := [⟨b!"F", b!",string", 27, 0⟩] },
  /- 49: map[struct{X int; Y string}]int -/ { kind := .map, size := 8, key := 4, elem := 1 },
  /- 50: **[]int -/ { kind := .pointer, size := 8, elem := 51 },
  /- 51: *[]int -/ { kind := .pointer, size := 8, elem := 27 },
  /- 52: M = struct{Kids map[string]M; V int} -/ { kind := .struct, size := 16, fields := [⟨b!"Kids", [], 53, 0⟩, ⟨b!"V", [], 1, 8⟩] },
  /- 53: map[string]M -/ { kind := .map, size := 8, key := 2, elem := 52 },
  /- 54: struct{B bool `json:",string"`; S string `json:",string"`} -/ { kind := .struct, size := 24, fields := [⟨b!"B", b!",string", 0, 0⟩, ⟨b!"S", b!",string", 2, 8⟩] },
  /- 55: []struct{} -/ { kind := .slice, size := 24, elem := 14 },
  /- 56: float32 -/ { kind := .float .f32, size := 4 },
  /- 57: map[string][]int -/ { kind := .map, size := 8, key := 2, elem := 27 },
  /- 58: map[string]map[string]int -/ { kind := .map, size := 8, key := 2, elem := 11 },
  /- 59: struct{F float64; U []uint8; M map[string][]int; N Number; X X; A [2][]string} -/
  { kind := .struct, size := 112, fields := [⟨b!"F", [], 29, 0⟩, ⟨b!"U", [], 60, 8⟩, ⟨b!"M", [], 57, 32⟩, ⟨b!"N", [], 32, 40⟩, ⟨b!"X", [], 33, 56⟩, ⟨b!"A", [], 61, 64⟩] },
  /- 60: []uint8 -/ { kind := .slice, size := 24, elem := 30 },
  /- 61: [2][]string -/ { kind := .array, size := 48, len := 2, elem := 62 },
  /- 62: []string -/ { kind := .slice, size := 24, elem := 2 },
  /- 63: struct{In struct{E struct{}; B int}; C int} -/ { kind := .struct, size := 16, fields := [⟨b!"In", [], 15, 0⟩, ⟨b!"C", [], 1, 8⟩] },
  /- 64: []struct{E struct{}; B int} -/ { kind := .slice, size := 24, elem := 15 },
  /- 65: T0 = struct{Kids []T1; Name string} -/ { kind := .struct, size := 40, fields := [⟨b!"Kids", [], 66, 0⟩, ⟨b!"Name", [], 2, 24⟩] },
  /- 66: []T1 -/ { kind := .slice, size := 24, elem := 67 },
  /- 67: T1 = struct{Kids []T2; Name string} -/ { kind := .struct, size := 40, fields := [⟨b!"Kids", [], 68, 0⟩, ⟨b!"Name", [], 2, 24⟩] },
  /- 68: []T2 -/ { kind := .slice, size := 24, elem := 69 },
  /- 69: T2 = struct{Kids []int; Name string} -/ { kind := .struct, size := 40, fields := [⟨b!"Kids", [], 27, 0⟩, ⟨b!"Name", [], 2, 24⟩] },
  /- 70: struct{Kids []T; Name string} with T of 12 -/ { kind := .struct, size := 40, fields := [⟨b!"Kids", [], 13, 0⟩, ⟨b!"Name", [], 2, 24⟩] },
  /- 71: struct{A []Q; B []Q} with Q = struct{X int; Y string} -/ { kind := .struct, size := 48, fields := [⟨b!"A", [], 5, 0⟩, ⟨b!"B", [], 5, 24⟩] },
  /- 72: another struct{X int; Y string} -/ { kind := .struct, size := 24, fields := [⟨b!"X", [], 1, 0⟩, ⟨b!"Y", [], 2, 8⟩] },
  /- 73: a slice of it -/ { kind := .slice, size := 24, elem := 72 },
  /- 74: struct{A []Q; B []Q'} with the other struct type as Q' -/ { kind := .struct, size := 48, fields := [⟨b!"A", [], 5, 0⟩, ⟨b!"B", [], 73, 24⟩] },
  /- 75: F = struct{Kids []*F; Name string} -/ { kind := .struct, size := 40, fields := [⟨b!"Kids", [], 76, 0⟩, ⟨b!"Name", [], 2, 24⟩] },
  /- 76: []*F -/ { kind := .slice, size := 24, elem := 77 },
  /- 77: *F -/ { kind := .pointer, size := 8, elem := 75 },
  /- 78: A = struct{Bs []B; N int} -/ { kind := .struct, size := 32, fields := [⟨b!"Bs", [], 79, 0⟩, ⟨b!"N", [], 1, 24⟩] },
  /- 79: []B -/ { kind := .slice, size := 24, elem := 80 },
  /- 80: B = struct{As []A; M int} -/ { kind := .struct, size := 32, fields := [⟨b!"As", [], 81, 0⟩, ⟨b!"M", [], 1, 24⟩] },
  /- 81: []A -/ { kind := .slice, size := 24, elem := 78 },
  /- 82: G = struct{In struct{P *G; A int}; B int} -/ { kind := .struct, size := 24, fields := [⟨b!"In", [], 83, 0⟩, ⟨b!"B", [], 1, 16⟩] },
  /- 83: struct{P *G; A int} -/ { kind := .struct, size := 16, fields := [⟨b!"P", [], 84, 0⟩, ⟨b!"A", [], 1, 8⟩] },
  /- 84: *G -/ { kind := .pointer, size := 8, elem := 82 },
  /- 85: struct{Items []T; Name string} with T of 12 -/ { kind := .struct, size := 40, fields := [⟨b!"Items", [], 13, 0⟩, ⟨b!"Name", [], 2, 24⟩] },
  /- 86: [2]T -/ { kind := .array, size := 80, len := 2, elem := 12 },
  /- 87: struct{X int; R T} -/ { kind := .struct, size := 48, fields := [⟨b!"X", [], 1, 0⟩, ⟨b!"R", [], 12, 8⟩] },
  /- 88: map[string][]T -/ { kind := .map, size := 8, key := 2, elem := 13 },
  /- 89: map[string]T -/ { kind := .map, size := 8, key := 2, elem := 12 },
  /- 90: struct{R T; X int} -/ { kind := .struct, size := 48, fields := [⟨b!"R", [], 12, 0⟩, ⟨b!"X", [], 1, 40⟩] },
  /- 91: []struct{R T; X int} -/ { kind := .slice, size := 24, elem := 90 },
  /- 92: struct{ID int; Trees map[string]M; All []struct{R T; X int}; Note string} with M of 52 -/
  { kind := .struct, size := 56, fields := [⟨b!"ID", [], 1, 0⟩, ⟨b!"Trees", [], 53, 8⟩, ⟨b!"All", [], 91, 16⟩, ⟨b!"Note", [], 2, 40⟩] },
  /- 93: struct{V int; Next *struct{V int; Last *int}} -/ { kind := .struct, size := 16, fields := [⟨b!"V", [], 1, 0⟩, ⟨b!"Next", [], 94, 8⟩] },
  /- 94: *struct{V int; Last *int} -/ { kind := .pointer, size := 8, elem := 95 },
  /- 95: struct{V int; Last *int} -/ { kind := .struct, size := 16, fields := [⟨b!"V", [], 1, 0⟩, ⟨b!"Last", [], 7, 8⟩] },
  /- 96: struct{Foo int; Y string} -/ { kind := .struct, size := 24, fields := [⟨b!"Foo", [], 1, 0⟩, ⟨b!"Y", [], 2, 8⟩] },
  /- 97: struct{N string; In struct{Foo int; Y string}; B int} -/ { kind := .struct, size := 48, fields := [⟨b!"N", [], 2, 0⟩, ⟨b!"In", [], 96, 16⟩, ⟨b!"B", [], 1, 40⟩] },
  /- 98: struct{L []*int; N int} -/ { kind := .struct, size := 32, fields := [⟨b!"L", [], 9, 0⟩, ⟨b!"N", [], 1, 24⟩] },
  /- 99: **int -/ { kind := .pointer, size := 8, elem := 7 },
  /- 100: struct{A *int; B **int} -/ { kind := .struct, size := 16, fields := [⟨b!"A", [], 7, 0⟩, ⟨b!"B", [], 99, 8⟩] },
  /- 101: []struct{A *int; B **int} -/ { kind := .slice, size := 24, elem := 100 },
  /- 102: [][]struct{A *int; B **int} -/ { kind := .slice, size := 24, elem := 101 },
  /- 103: struct{B **int; A *int} -/ { kind := .struct, size := 16, fields := [⟨b!"B", [], 99, 0⟩, ⟨b!"A", [], 7, 8⟩] },
  /- 104: []struct{B **int; A *int} -/ { kind := .slice, size := 24, elem := 103 },
  /- 105: [][]struct{B **int; A *int} -/ { kind := .slice, size := 24, elem := 104 },
  /- 106: struct{N uint8 `json:"n,string"`} -/ { kind := .struct, size := 1, fields := [⟨b!"N", b!"n,string", 30, 0⟩] },
  /- 107: struct{A uint8; L []uint8} -/ { kind := .struct, size := 32, fields := [⟨b!"A", [], 30, 0⟩, ⟨b!"L", [], 60, 8⟩] },
  /- 108: struct{A int; L []int} -/ { kind := .struct, size := 32, fields := [⟨b!"A", [], 1, 0⟩, ⟨b!"L", [], 27, 8⟩] },
  /- 109: struct{A int; B int} -/ { kind := .struct, size := 16, fields := [⟨b!"A", [], 1, 0⟩, ⟨b!"B", [], 1, 8⟩] },
  /- 110: map[int8]uint8 -/ { kind := .map, size := 8, key := 24, elem := 30 },
  /- 111: map[int]int -/ { kind := .map, size := 8, key := 1, elem := 1 },
  /- 112: struct{N int8 `json:"n,string"`; M map[int8]uint8; A int8} -/ { kind := .struct, size := 24, fields := [⟨b!"N", b!"n,string", 24, 0⟩, ⟨b!"M", [], 110, 8⟩, ⟨b!"A", [], 24, 16⟩] },
  /- 113: struct{N int `json:"n,string"`; M map[int]int; A int} -/ { kind := .struct, size := 24, fields := [⟨b!"N", b!"n,string", 1, 0⟩, ⟨b!"M", [], 111, 8⟩, ⟨b!"A", [], 1, 16⟩] },
  /- 114: struct{L [][]int; Q struct{In struct{Foo int}; B int}} -/ { kind := .struct, size := 40, fields := [⟨b!"L", [], 28, 0⟩, ⟨b!"Q", [], 35, 24⟩] },
  /- 115: W = struct{N uint8; Q int8 `json:"q,string"`; Kids []W} -/ { kind := .struct, size := 32, fields := [⟨b!"N", [], 30, 0⟩, ⟨b!"Q", b!"q,string", 24, 1⟩, ⟨b!"Kids", [], 116, 8⟩] },
  /- 116: []W -/ { kind := .slice, size := 24, elem := 115 },
  /- 117: V = struct{N int; Q int `json:"q,string"`; Kids []V} -/ { kind := .struct, size := 40, fields := [⟨b!"N", [], 1, 0⟩, ⟨b!"Q", b!"q,string", 1, 8⟩, ⟨b!"Kids", [], 118, 16⟩] },
  /- 118: []V -/ { kind := .slice, size := 24, elem := 117 },
  /- 119: C = struct{Next *C; V uint8} -/ { kind := .struct, size := 16, fields := [⟨b!"Next", [], 120, 0⟩, ⟨b!"V", [], 30, 8⟩] },
  /- 120: *C -/ { kind := .pointer, size := 8, elem := 119 },
  /- 121: D = struct{Next *D; Note string; V int; Kids []D} -/ { kind := .struct, size := 56, fields := [⟨b!"Next", [], 122, 0⟩, ⟨b!"Note", [], 2, 8⟩, ⟨b!"V", [], 1, 24⟩, ⟨b!"Kids", [], 123, 32⟩] },
  /- 122: *D -/ { kind := .pointer, size := 8, elem := 121 },
  /- 123: []D -/ { kind := .slice, size := 24, elem := 121 },
  /- 124: Q = struct{V int; Next *Q} -/ { kind := .struct, size := 16, fields := [⟨b!"V", [], 1, 0⟩, ⟨b!"Next", [], 125, 8⟩] },
  /- 125: *Q -/ { kind := .pointer, size := 8, elem := 124 }]

/-- The program. -/
def demoEnv : TypeEnv := fun t => demoTypes.getD t { kind := .other }

/-- `NewDecoder` for a type of the program, with default options. -/
def demoNew (t : TypeId) : NewRes := newDecoder demoEnv demoX.W (some defaultInitOptions) 20 (some t)

/-- A decoder of the program (no frames if `NewDecoder` fails). -/
def demoDec (t : TypeId) : Decoder :=
  match demoNew t with
  | .ok d => d
  | _ => ⟨[], fun _ => {}, 0⟩

/-- The tree of a type of the program (for types that have one). -/
def demoTree (t : TypeId) : Ty :=
  match typeTree demoEnv true 20 [] t with
  | some (ty, _) => ty
  | none => .any

/-- The syntax tree of a text (for texts that have one). -/
def demoDoc (src : Bytes) : JVal :=
  match tokenize src with
  | .ok v => v
  | .error _ => .null 0 0

/-- `Decode(src, &v, &DefaultOptions)`. -/
def demoDecode (d : Decoder) (src : Bytes) (mem : Block) : Option DecodeRes := decode demoX d src (tokenize src) (some mem) (some defaultOptions)

/-- `Unmarshal(src, &v)`. -/
def demoUnmarshal (t : TypeId) (src : Bytes) (mem : Block) : UnmarshalRes := unmarshal demoX demoEnv 20 (some t) src (tokenize src) (some mem)

/-- The destination after an `Unmarshal` without error. -/
def okMem : UnmarshalRes → Option Block
  | .ret none m => m
  | _ => none

/-- The integer at an offset. -/
def intAt (i : Nat) (b : Block) : Option Int :=
  match b[i]? with
  | some (.int v) => some v
  | some .zero => some 0
  | _ => none

/-- The bytes of the string at an offset. -/
def strAt (i : Nat) (b : Block) : Option Bytes :=
  match b[i]? with
  | some (.str s) => some s.bytes
  | some .zero => some []
  | _ => none

/-- The memory a pointer at an offset points to. -/
def ptrAt (i : Nat) (b : Block) : Option Block :=
  match b[i]? with
  | some (.ptr m) => some m
  | _ => none

/-- The backing array of a slice at an offset. -/
def sliceAt (i : Nat) (b : Block) : Option Block :=
  match b[i]? with
  | some (.slice _ _ a) => some a
  | _ => none

/-- Is there a nil pointer, slice or map at an offset? -/
def nilAt (i : Nat) (b : Block) : Bool :=
  match b[i]? with
  | some .zero => true
  | _ => false

end Verif.Spec
