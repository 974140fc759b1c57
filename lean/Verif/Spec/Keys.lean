import Verif.Spec.Fields
import Verif.Spec.Doc
import Verif.Spec.Decimal
import Verif.Big.Dec
/-!
# Specification: object keys under the decode options
-/
namespace Verif.Spec
open Verif.Model Verif.Big

/-- The name a raw key text stands for: the string it denotes, or the text itself with DisableFieldNameUnescaping. -/
def KeyIs (o : Options) (raw name : Bytes) : Prop :=
  if o.disableFieldNameUnescaping then name = raw else Denotes raw name

/-- Under the options the name selects field number `j` of the fields with the given JSON names. -/
def SelectsField (x : Ext) (o : Options) (names : List Bytes) (name : Bytes) (j : Nat) : Prop :=
  if o.disableCaseInsensitiveMatching then FirstField (· = name) names.zipIdx j else Selects x.equalFold names.zipIdx name j

/-- The key at `[i, e)` of the text selects field number `j`. -/
def KeySelects (x : Ext) (src : Bytes) (o : Options) (names : List Bytes) (k : Nat × Nat) (j : Nat) : Prop :=
  ∃ name, KeyIs o (inner src k.1 k.2) name ∧ SelectsField x o names name j

/-- The key at `[i, e)` of the text selects no field. -/
def KeyUnknown (x : Ext) (src : Bytes) (o : Options) (names : List Bytes) (k : Nat × Nat) : Prop :=
  ∃ name, KeyIs o (inner src k.1 k.2) name ∧ ∀ j, ¬ SelectsField x o names name j

/-- `v` is in the range of the kind. -/
def InRange (is64 : Bool) (k : IKind) (v : Int) : Prop :=
  if k.signed then -2 ^ (k.bits is64 - 1) ≤ v ∧ v < 2 ^ (k.bits is64 - 1) else 0 ≤ v ∧ v < 2 ^ k.bits is64

/-- A quoted text is acceptable for a kind: an integer literal in range, without sign for unsigned kinds. -/
def QuotedOK (is64 : Bool) (k : IKind) (s : Bytes) (v : Int) : Prop := IsIntLit s v ∧ InRange is64 k v ∧ (k.signed = false → s.head? ≠ some 45)

/-- The text of an object key denotes a key of a map whose keys have the given type. (The text of an integer key is not unescaped.) -/
inductive KeyOf (x : Ext) : KeyTy → Bytes → Key → Prop
  | str {raw : Bytes} {s : Str} : Denotes raw s.bytes → KeyOf x .str raw (.str s)
  | int {k : IKind} {raw : Bytes} {v : Int} : QuotedOK x.is64 k raw v → KeyOf x (.int k) raw (.int v)
  | text {rt : TypeId} {raw out k : Bytes} : Denotes raw out → x.unmarshalKey rt out = .ok k → KeyOf x (.text rt true) raw (.opaque k)

end Verif.Spec
