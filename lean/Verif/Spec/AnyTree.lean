import Verif.Spec.Doc
import Verif.Model.Ext
/-!
# Specification: the `any` value of a JSON document
-/
namespace Verif.Spec
open Verif.Model

/-- No key occurs twice in a `map[string]any`. -/
def DistinctNames : List (Str × AnyVal) → Prop
  | [] => True
  | e :: m => (∀ e' ∈ m, e'.1.bytes ≠ e.1.bytes) ∧ DistinctNames m

mutual
/-- The `any` value mirrors the JSON value; `pf` parses number literals. -/
def AnyTree (pf : Bytes → Except Nat Flt) (src : Bytes) : JVal → AnyVal → Prop
  | .null _ _, A => A = .null
  | .bool b _ _, A => A = .bool b
  | .num _ i e, A => ∃ f, pf (text src i e) = .ok f ∧ A = .num f
  | .str i e, A => ∃ s, Denotes (inner src i e) s.bytes ∧ A = .str s
  | .arr _ es _, A => ∃ as, A = .arr as ∧ AnyElems pf src es as
  | .obj _ ms _, A => ∃ m, A = .obj m ∧ DistinctNames m ∧
      (∀ k ∈ ms, ∃ e ∈ m, Denotes (inner src k.1.1 k.1.2) e.1.bytes) ∧
      ∀ e ∈ m, LastMember pf src ms e.1.bytes e.2
/-- Element by element. -/
def AnyElems (pf : Bytes → Except Nat Flt) (src : Bytes) : List JVal → List AnyVal → Prop
  | [], as => as = []
  | v :: vs, as => ∃ a as', as = a :: as' ∧ AnyTree pf src v a ∧ AnyElems pf src vs as'
/-- The last of the members whose key is `key` exists and has the value `A`. -/
def LastMember (pf : Bytes → Except Nat Flt) (src : Bytes) : List ((Nat × Nat) × JVal) → Bytes → AnyVal → Prop
  | [], _, _ => False
  | k :: ms, key, A => LastMember pf src ms key A ∨
      (Denotes (inner src k.1.1 k.1.2) key ∧ (∀ k' ∈ ms, ¬ Denotes (inner src k'.1.1 k'.1.2) key) ∧ AnyTree pf src k.2 A)
end

mutual
/-- Every number literal of the value can be parsed. -/
def NumbersParse (pf : Bytes → Except Nat Flt) (src : Bytes) : JVal → Prop
  | .num _ i e => ∃ f, pf (text src i e) = .ok f
  | .arr _ es _ => NumbersParseL pf src es
  | .obj _ ms _ => NumbersParseM pf src ms
  | _ => True
/-- In all elements. -/
def NumbersParseL (pf : Bytes → Except Nat Flt) (src : Bytes) : List JVal → Prop
  | [] => True
  | v :: vs => NumbersParse pf src v ∧ NumbersParseL pf src vs
/-- In all members. -/
def NumbersParseM (pf : Bytes → Except Nat Flt) (src : Bytes) : List ((Nat × Nat) × JVal) → Prop
  | [] => True
  | m :: ms => NumbersParse pf src m.2 ∧ NumbersParseM pf src ms
end

/-- The parser of the numbers of a value decoded into an `any`: `strconv.ParseFloat` for a number that is the value itself, `jscan.Token.Float64` inside arrays and objects. -/
def anyParser (x : Ext) : JVal → Bytes → Except Nat Flt
  | .num _ _ _ => x.parseFloat64
  | _ => x.tokFloat64

end Verif.Spec
