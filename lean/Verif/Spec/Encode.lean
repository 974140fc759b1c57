import Verif.Spec.Means
import Verif.Spec.Fragment
/-!
# Specification: the JSON text of a Go value, in the style of `json.Marshal`

`encode` writes a value without white space, fields in the order of their declaration, map entries in the given order. Floats are written by a function `fmt` that is only required to write something the parser reads back.
-/
namespace Verif.Spec
open Verif.Model Verif.Big

/-- Decimal digits of a number, with enough fuel. -/
def digitsOf : Nat → Nat → Bytes
  | 0, _ => []
  | fuel + 1, n => if n < 10 then [UInt8.ofNat (48 + n)] else digitsOf fuel (n / 10) ++ [UInt8.ofNat (48 + n % 10)]

/-- The decimal text of an integer. -/
def intText (i : Int) : Bytes := if i < 0 then 45 :: digitsOf (i.natAbs + 1) i.natAbs else digitsOf (i.natAbs + 1) i.natAbs

/-- A text in quotes. -/
def quote (s : Bytes) : Bytes := 34 :: (s ++ [34])

/-- Texts separated by commas. -/
def commas : List Bytes → Bytes
  | [] => []
  | [s] => s
  | s :: ss => s ++ 44 :: commas ss

/-- An array of texts. -/
def brackets (ss : List Bytes) : Bytes := 91 :: (commas ss ++ [93])

/-- An object of key contents and texts. -/
def braces (ms : List (Bytes × Bytes)) : Bytes := 123 :: (commas (ms.map fun m => quote m.1 ++ 58 :: m.2) ++ [125])

mutual
/-- The text of the contents of an `any`. -/
def encodeAny (fmt : FKind → Flt → Bytes) : AnyVal → Bytes
  | .null => b!"null"
  | .bool b => if b then b!"true" else b!"false"
  | .num f => fmt .f64 f
  | .str s => quote (escape s.bytes)
  | .arr as => brackets (encodeAnyL fmt as)
  | .obj m => braces (encodeAnyE fmt m)
  | .other _ => b!"null"
def encodeAnyL (fmt : FKind → Flt → Bytes) : List AnyVal → List Bytes
  | [] => []
  | a :: as => encodeAny fmt a :: encodeAnyL fmt as
def encodeAnyE (fmt : FKind → Flt → Bytes) : List (Str × AnyVal) → List (Bytes × Bytes)
  | [] => []
  | (k, a) :: m => (escape k.bytes, encodeAny fmt a) :: encodeAnyE fmt m
end

/-- The text of a scalar. -/
def encodeS (fmt : FKind → Flt → Bytes) : SKind → Val → Bytes
  | .bool, .bool b => if b then b!"true" else b!"false"
  | .int _, .int i => intText i
  | .flt k, .flt f => fmt k f
  | .str, .str s => quote (escape s.bytes)
  | _, _ => b!"null"

/-- The text of a scalar field with the `string` option. -/
def encodeQ (fmt : FKind → Flt → Bytes) : SKind → Val → Bytes
  | .str, .str s => quote ([92, 34] ++ s.bytes ++ [92, 34])
  | k, V => quote (encodeS fmt k V)

/-- The content of the key of a map entry. -/
def encodeKey : Key → Bytes
  | .str s => escape s.bytes
  | .int i => intText i
  | .opaque b => b

mutual
/-- The JSON text of a value of a type. -/
def encode (fmt : FKind → Flt → Bytes) : Ty → Val → Bytes
  | .any => fun V => match V with | .any a => encodeAny fmt a | _ => b!"null"
  | .number => fun V => match V with | .str s => s.bytes | _ => b!"null"
  | .scalar k => fun V => encodeS fmt k V
  | .quoted k => fun V => encodeQ fmt k V
  | .jsonU _ _ _ | .textU _ _ _ => fun _ => b!"null"
  | .array0 => fun _ => b!"[]"
  | .emptyStruct => fun _ => b!"{}"
  | .array _ e => fun V => match V with | .arr Ws => brackets (Ws.map (encode fmt e)) | _ => b!"null"
  | .slice e => fun V => match V with | .slice Ws _ => brackets (Ws.map (encode fmt e)) | _ => b!"null"
  | .sliceOf k => fun V => match V with | .slice Ws _ => brackets (Ws.map (encodeS fmt k)) | _ => b!"null"
  | .sliceES => fun V => match V with | .slice Ws _ => brackets (Ws.map fun _ => b!"{}") | _ => b!"null"
  | .mapSS => fun V => match V with | .map es => braces (es.map fun e => (encodeKey e.1, encodeS fmt .str e.2)) | _ => b!"null"
  | .map _ t => fun V => match V with | .map es => braces (es.map fun e => (encodeKey e.1, encode fmt t e.2)) | _ => b!"null"
  | .struct _ fs => fun V => match V with | .struct Ws => braces (encodeF fmt fs Ws) | _ => b!"null"
  | .ptr e => fun V => match V with | .ptr W => encode fmt e W | _ => b!"null"
/-- The members for the fields of a struct. -/
def encodeF (fmt : FKind → Flt → Bytes) : List (Bytes × Nat × Ty) → List Val → List (Bytes × Bytes)
  | [] => fun _ => []
  | (n, _, t) :: fs => fun Ws => match Ws with | W :: Ws => (escape n, encode fmt t W) :: encodeF fmt fs Ws | [] => []
end

/-- `fmt` writes the float as a JSON number that is read back as the same float (and is not `-0`, see C50). -/
def FmtOK (x : Ext) (fmt : FKind → Flt → Bytes) (k : FKind) (f : Flt) : Prop :=
  IsNumber (fmt k f) ∧ fmt k f ≠ b!"-0" ∧ floatOf x k (fmt k f) = .ok f

mutual
/-- The contents of the `any` can be written: made of JSON values, with floats that can be written and without repeated keys. -/
def CanAny (x : Ext) (fmt : FKind → Flt → Bytes) : AnyVal → Prop
  | .num f => FmtOK x fmt .f64 f
  | .arr as => CanAnyL x fmt as
  | .obj m => DistinctNames m ∧ CanAnyE x fmt m
  | .other _ => False
  | _ => True
def CanAnyL (x : Ext) (fmt : FKind → Flt → Bytes) : List AnyVal → Prop
  | [] => True
  | a :: as => CanAny x fmt a ∧ CanAnyL x fmt as
def CanAnyE (x : Ext) (fmt : FKind → Flt → Bytes) : List (Str × AnyVal) → Prop
  | [] => True
  | (_, a) :: m => CanAny x fmt a ∧ CanAnyE x fmt m
end

/-- The scalar is of its kind, in range, and can be written. -/
def CanS (x : Ext) (fmt : FKind → Flt → Bytes) : SKind → Val → Prop
  | .bool, V => ∃ b, V = .bool b
  | .int k, V => ∃ i, V = .int i ∧ InRange x.is64 k i
  | .flt k, V => ∃ f, V = .flt f ∧ FmtOK x fmt k f
  | .str, V => ∃ s, V = .str s

/-- The scalar can be written with the `string` option: the code reads no escapes in strings there. -/
def CanQ (x : Ext) (fmt : FKind → Flt → Bytes) (k : SKind) (V : Val) : Prop :=
  CanS x fmt k V ∧ ∀ s, V = .str s → ∀ c ∈ s.bytes, c ≠ 34 ∧ c ≠ 92 ∧ 32 ≤ c

/-- The key of a map entry is of the type of the keys. -/
def CanKey (x : Ext) : KeyTy → Key → Prop
  | .str, k => ∃ s, k = .str s
  | .int ik, k => ∃ i, k = .int i ∧ InRange x.is64 ik i
  | _, _ => False

/-- No key occurs twice. -/
def DistinctKeys (es : List (Key × Val)) : Prop := ∀ (i j : Nat) a b, es[i]? = some a → es[j]? = some b → a.1.same b.1 = true → i = j

mutual
/-- `V` is a value of the type that can be written as JSON: floats and `any`s can be written, `Number`s contain a number, map keys are distinct, slices have no spare elements (which JSON does not show). Types
with unmarshaler methods are left out, and pointers to something that is written as `null`, which is read as a nil pointer. -/
def CanEncode (x : Ext) (fmt : FKind → Flt → Bytes) : Ty → Val → Prop
  | .any, V => ∃ a, V = .any a ∧ CanAny x fmt a
  | .number, V => ∃ s, V = .str s ∧ IsNumber s.bytes ∧ s.bytes ≠ b!"-0"
  | .scalar k, V => CanS x fmt k V
  | .quoted k, V => CanQ x fmt k V
  | .array0, V => V = .arr []
  | .array n e, V => ∃ Ws, V = .arr Ws ∧ Ws.length = n ∧ ∀ W ∈ Ws, CanEncode x fmt e W
  | .slice e, V => V = .nil ∨ ∃ Ws, V = .slice Ws [] ∧ ∀ W ∈ Ws, CanEncode x fmt e W
  | .sliceOf k, V => V = .nil ∨ ∃ Ws, V = .slice Ws [] ∧ ∀ W ∈ Ws, CanS x fmt k W
  | .sliceES, V => V = .nil ∨ ∃ Ws, V = .slice Ws [] ∧ ∀ W ∈ Ws, W = .struct []
  | .mapSS, V => V = .nil ∨ ∃ es, V = .map es ∧ DistinctKeys es ∧ ∀ e ∈ es, CanKey x .str e.1 ∧ CanS x fmt .str e.2
  | .map k t, V => V = .nil ∨ ∃ es, V = .map es ∧ DistinctKeys es ∧ ∀ e ∈ es, CanKey x k e.1 ∧ CanEncode x fmt t e.2
  | .struct _ fs, V => ∃ Ws, V = .struct Ws ∧ CanEncodeF x fmt fs Ws
  | .emptyStruct, V => V = .struct []
  | .ptr e, V => V = .nil ∨ ∃ W, V = .ptr W ∧ encode fmt e W ≠ b!"null" ∧ CanEncode x fmt e W
  | .jsonU _ _ _, _ | .textU _ _ _, _ => False
/-- The fields of a struct. -/
def CanEncodeF (x : Ext) (fmt : FKind → Flt → Bytes) : List (Bytes × Nat × Ty) → List Val → Prop
  | [], Ws => Ws = []
  | (_, _, t) :: fs, Ws => ∃ W Ws', Ws = W :: Ws' ∧ CanEncode x fmt t W ∧ CanEncodeF x fmt fs Ws'
end

/-- Types without pointers and `struct{}` inside (C35, C36): such a type, `struct{}`, or a pointer to one of these with a size. -/
def PlainDoc (x : Ext) : Ty → Prop
  | .ptr e => e.size x ≠ 0 ∧ PlainDoc x e
  | .emptyStruct => True
  | ty => ty.plain = true

mutual
/-- The names of the fields of every struct in the type are distinct; if field names are not unescaped, they have nothing to escape. -/
def NamesOK (o : Options) : Ty → Prop
  | .array _ e | .slice e | .map _ e | .ptr e => NamesOK o e
  | .struct _ fs => (fs.map (·.1)).Nodup ∧ NamesOKF o fs
  | _ => True
/-- The fields of a struct. -/
def NamesOKF (o : Options) : List (Bytes × Nat × Ty) → Prop
  | [] => True
  | (n, _, t) :: fs => (o.disableFieldNameUnescaping = true → escape n = n) ∧ NamesOK o t ∧ NamesOKF o fs
end

end Verif.Spec
