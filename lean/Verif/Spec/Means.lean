import Verif.Spec.Value
import Verif.Spec.AnyTree
import Verif.Spec.Keys
import Verif.Spec.Number
/-!
# Specification: the Go value a JSON document stands for

`Means x src o ty v V`: decoding the JSON value `v` of the text `src` into a fresh variable of type `ty` gives the Go value `V`, as `encoding/json` defines it. This is a relation between a document and a value: it knows nothing
about memory, tokens, frames or an order of evaluation. A document in which two members of an object stand for the same field or key has no meaning here. String contents are those of `Denotes` (C09), which are those of
`encoding/json` except for surrogates (C11).
-/
namespace Verif.Spec
open Verif.Model Verif.Big

/-- The JSON value is `null`. -/
def IsNull (v : JVal) : Prop := ∃ i e, v = .null i e

/-- The float parser of a kind: `strconv.ParseFloat` with its bit size. -/
def floatOf (x : Ext) : FKind → Bytes → Except Nat Flt
  | .f32 => x.parseFloat32
  | .f64 => x.parseFloat64

/-- The scalar a JSON value other than `null` stands for. -/
def MeansLit (x : Ext) (src : Bytes) : SKind → JVal → Val → Prop
  | .bool, v, V => ∃ b i e, v = .bool b i e ∧ V = .bool b
  | .str, v, V => ∃ i e s, v = .str i e ∧ Denotes (inner src i e) s.bytes ∧ V = .str s
  | .int k, v, V => ∃ b i e n, v = .num b i e ∧ QuotedOK x.is64 k (text src i e) n ∧ V = .int n
  | .flt k, v, V => ∃ b i e f, v = .num b i e ∧ floatOf x k (text src i e) = .ok f ∧ V = .flt f

/-- The scalar a JSON value stands for. -/
def MeansS (x : Ext) (src : Bytes) (k : SKind) (v : JVal) (V : Val) : Prop := (IsNull v ∧ V = zeroS k) ∨ MeansLit x src k v V

/-- The scalar a JSON value stands for in a field with the `string` option: the string contains the literal. -/
def MeansQ (x : Ext) (src : Bytes) (k : SKind) (v : JVal) (V : Val) : Prop :=
  (IsNull v ∧ V = zeroS k) ∨ ∃ i e, v = .str i e ∧
    match k with
    | .bool => ∃ b : Bool, inner src i e = (if b then b!"true" else b!"false") ∧ V = .bool b
    | .str => ∃ s : Str, inner src i e = [92, 34] ++ s.bytes ++ [92, 34] ∧ (92 : UInt8) ∉ s.bytes ∧ V = .str s
    | .int k => ∃ n, QuotedOK x.is64 k (inner src i e) n ∧ V = .int n
    | .flt k => ∃ f, IsNumber (inner src i e) ∧ floatOf x k (inner src i e) = .ok f ∧ V = .flt f

/-- The value `V` is a slice without spare elements with one element for each JSON value, related by `P`. -/
def MeansElems (P : JVal → Val → Prop) (vs : List JVal) (V : Val) : Prop :=
  ∃ Ws, V = .slice Ws [] ∧ Ws.length = vs.length ∧ ∀ (j : Nat) w W, vs[j]? = some w → Ws[j]? = some W → P w W

/-- The value `V` is a map with one entry for each member of the object, keys related by `K`, values by `P`. -/
def MeansEntries (src : Bytes) (K : Bytes → Key → Prop) (P : JVal → Val → Prop) (ms : List ((Nat × Nat) × JVal)) (V : Val) : Prop :=
  ∃ es : List (Key × Val), V = .map es ∧ es.length = ms.length ∧
    (∀ (j : Nat) m e, ms[j]? = some m → es[j]? = some e → K (inner src m.1.1 m.1.2) e.1 ∧ P m.2 e.2) ∧
    ∀ (i j : Nat) a b, es[i]? = some a → es[j]? = some b → a.1.same b.1 = true → i = j

/-- Field number `j` has the value `W`: that of the member that selects it, or zero if no member does. -/
def MeansField (P : JVal → Val → Prop) (z : Val) (Sel : Nat × Nat → Prop) (ms : List ((Nat × Nat) × JVal)) (W : Val) : Prop :=
  (∃ m ∈ ms, Sel m.1 ∧ P m.2 W) ∨ ((∀ m ∈ ms, ¬ Sel m.1) ∧ W = z)

mutual
/-- The Go value of the type that the JSON value stands for. -/
def Means (x : Ext) (src : Bytes) (o : Options) : Ty → JVal → Val → Prop
  | .any, v, V => NumbersParse x.parseFloat64 src v ∧ ∃ a, V = .any a ∧ AnyTree x.parseFloat64 src v a
  | .jsonU rt n impl, v, V => impl = true ∧ ∃ new, x.unmarshalJSON rt (zeros n) (text src v.index v.stop) = (new, none) ∧ V = .user (fit n new)
  | .textU rt n impl, v, V => (IsNull v ∧ V = .user (zeros n)) ∨
      ∃ i e out new, v = .str i e ∧ impl = true ∧ Denotes (inner src i e) out ∧ x.unmarshalText rt (zeros n) out = (new, none) ∧ V = .user (fit n new)
  | .number, v, V => (IsNull v ∧ V = .str ⟨[], false⟩) ∨
      ∃ s, V = .str s ∧ ((∃ b i e, v = .num b i e ∧ s.bytes = text src i e) ∨ ∃ i e, v = .str i e ∧ IsNumber (inner src i e) ∧ s.bytes = inner src i e)
  | .scalar k, v, V => MeansS x src k v V
  | .quoted k, v, V => MeansQ x src k v V
  | .array0, v, V => (IsNull v ∨ ∃ i vs k, v = .arr i vs k) ∧ V = .arr []
  | .emptyStruct, v, V => (IsNull v ∨ ∃ i ms k, v = .obj i ms k) ∧ V = .struct []
  | .array n e, v, V => (IsNull v ∧ V = .arr (List.replicate n (zeroV x e))) ∨
      ∃ i vs k Ws, v = .arr i vs k ∧ V = .arr Ws ∧ Ws.length = n ∧
        ∀ (j : Nat) W, Ws[j]? = some W → (∃ w, vs[j]? = some w ∧ Means x src o e w W) ∨ (vs.length ≤ j ∧ W = zeroV x e)
  | .slice e, v, V => (IsNull v ∧ V = .nil) ∨ ∃ i vs k, v = .arr i vs k ∧ MeansElems (Means x src o e) vs V
  | .sliceOf k, v, V => (IsNull v ∧ V = .nil) ∨ ∃ i vs j, v = .arr i vs j ∧ MeansElems (MeansS x src k) vs V
  | .sliceES, v, V => (IsNull v ∧ V = .nil) ∨
      ∃ i vs k, v = .arr i vs k ∧ MeansElems (fun w W => (IsNull w ∨ ∃ a ms z, w = .obj a ms z) ∧ W = .struct []) vs V
  | .mapSS, v, V => (IsNull v ∧ V = .nil) ∨ ∃ i ms k, v = .obj i ms k ∧ MeansEntries src (KeyOf x .str) (MeansS x src .str) ms V
  | .map k e, v, V => (IsNull v ∧ V = .nil) ∨ ∃ i ms z, v = .obj i ms z ∧ MeansEntries src (KeyOf x k) (Means x src o e) ms V
  | .struct _ fs, v, V => (IsNull v ∧ V = .struct (zeroF x fs)) ∨
      ∃ i ms k Ws, v = .obj i ms k ∧ V = .struct Ws ∧ Ws.length = fs.length ∧
        (o.disallowUnknownFields = true → ∀ m ∈ ms, ¬ KeyUnknown x src o (fs.map (·.1)) m.1) ∧
        (∀ (a b : Nat) m m' j, ms[a]? = some m → ms[b]? = some m' → KeySelects x src o (fs.map (·.1)) m.1 j → KeySelects x src o (fs.map (·.1)) m'.1 j → a = b) ∧
        ∀ (j : Nat) f P W, fs[j]? = some f → (MeansF x src o fs)[j]? = some P → Ws[j]? = some W →
          MeansField P (zeroV x f.2.2) (fun key => KeySelects x src o (fs.map (·.1)) key j) ms W
  | .ptr e, v, V => (IsNull v ∧ V = .nil) ∨ (¬ IsNull v ∧ ∃ W, V = .ptr W ∧ Means x src o e v W)
/-- The fields of a struct. -/
def MeansF (x : Ext) (src : Bytes) (o : Options) : List (Bytes × Nat × Ty) → List (JVal → Val → Prop)
  | [] => []
  | (_, _, t) :: fs => Means x src o t :: MeansF x src o fs
end

mutual
/-- No number of the document is the literal `-0` (C50). -/
def noNegZero (src : Bytes) : JVal → Prop
  | .num _ i e => text src i e ≠ b!"-0"
  | .arr _ vs _ => noNegZeroL src vs
  | .obj _ ms _ => noNegZeroM src ms
  | _ => True
def noNegZeroL (src : Bytes) : List JVal → Prop
  | [] => True
  | v :: vs => noNegZero src v ∧ noNegZeroL src vs
def noNegZeroM (src : Bytes) : List ((Nat × Nat) × JVal) → Prop
  | [] => True
  | m :: ms => noNegZero src m.2 ∧ noNegZeroM src ms
end

mutual
/-- No two members of an object of the document stand for the same key of a map or field of a struct. -/
def Once (x : Ext) (src : Bytes) (o : Options) : Ty → JVal → Prop
  | .array n e, v => ∀ i vs k, v = .arr i vs k → ∀ w ∈ vs.take n, Once x src o e w
  | .slice e, v => ∀ i vs k, v = .arr i vs k → ∀ w ∈ vs, Once x src o e w
  | .map k e, v => ∀ i ms z, v = .obj i ms z → (∀ m ∈ ms, Once x src o e m.2) ∧
      ∀ (a b : Nat) m m' K, ms[a]? = some m → ms[b]? = some m' → KeyOf x k (inner src m.1.1 m.1.2) K → KeyOf x k (inner src m'.1.1 m'.1.2) K → a = b
  | .mapSS, v => ∀ i ms z, v = .obj i ms z →
      ∀ (a b : Nat) m m' K, ms[a]? = some m → ms[b]? = some m' → KeyOf x .str (inner src m.1.1 m.1.2) K → KeyOf x .str (inner src m'.1.1 m'.1.2) K → a = b
  | .struct _ fs, v => ∀ i ms z, v = .obj i ms z → (∀ m ∈ ms, ∀ (j : Nat) P, KeySelects x src o (fs.map (·.1)) m.1 j → (OnceF x src o fs)[j]? = some P → P m.2) ∧
      ∀ (a b : Nat) m m' j, ms[a]? = some m → ms[b]? = some m' → KeySelects x src o (fs.map (·.1)) m.1 j → KeySelects x src o (fs.map (·.1)) m'.1 j → a = b
  | .ptr e, v => Once x src o e v
  | _, _ => True
/-- The fields of a struct. -/
def OnceF (x : Ext) (src : Bytes) (o : Options) : List (Bytes × Nat × Ty) → List (JVal → Prop)
  | [] => []
  | (_, _, t) :: fs => Once x src o t :: OnceF x src o fs
end

/-- Scalar kinds whose literals are checked exactly: all but signed integers of less than 64 bits (C03). -/
def exactS (x : Ext) : SKind → Prop
  | .int k => k.signed = false ∨ k.bits x.is64 = 64
  | _ => True

mutual
/-- Types all of whose checks are exact: without narrow signed integers (C03), quoted numbers, integer map keys and `Number` (C07, C08) and `[]struct{}` (C27). -/
def Exact (x : Ext) : Ty → Prop
  | .scalar k | .sliceOf k => exactS x k
  | .quoted k => k = .bool ∨ k = .str
  | .number | .sliceES => False
  | .array _ e | .slice e | .ptr e => Exact x e
  | .map k e => (∀ ik, k ≠ .int ik) ∧ Exact x e
  | .struct _ fs => ExactF x fs
  | _ => True
/-- The fields of a struct. -/
def ExactF (x : Ext) : List (Bytes × Nat × Ty) → Prop
  | [] => True
  | (_, _, t) :: fs => Exact x t ∧ ExactF x fs
end

end Verif.Spec
