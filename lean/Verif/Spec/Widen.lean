import Verif.Spec.Right
import Verif.Spec.Keys
/-!
# Specification: a type with wider integers

A `WTy` is a type before and after integer types in it, at any depth, were replaced by others. Go values of integer types are given by their mathematical values, so that the values of both types can be compared.
-/
namespace Verif.Spec
open Verif.Model Verif.Big

/-- A type and another version of it with other integer types. `int k k'`: an integer; `ints k k'`: a slice of integers; `quoted k k'`: an integer field with the `string` option; `keys k k' e`: a map with integer keys. A field of a struct is given by its JSON name, its offset before and after, and its type. -/
inductive WTy
  | same (t : Ty)
  | int (k k' : IKind)
  | ints (k k' : IKind)
  | quoted (k k' : IKind)
  | array (n : Nat) (e : WTy)
  | slice (e : WTy)
  | map (k : KeyTy) (e : WTy)
  | keys (k k' : IKind) (e : WTy)
  | ptr (e : WTy)
  | struct (size size' : Nat) (fs : List (Bytes × Nat × Nat × WTy))

mutual
/-- The type before. -/
def WTy.old : WTy → Ty
  | .same t => t
  | .int k _ => .scalar (.int k)
  | .ints k _ => .sliceOf (.int k)
  | .quoted k _ => .quoted (.int k)
  | .array n e => .array n e.old
  | .slice e => .slice e.old
  | .map k e => .map k e.old
  | .keys k _ e => .map (.int k) e.old
  | .ptr e => .ptr e.old
  | .struct n _ fs => .struct n (oldW fs)
def oldW : List (Bytes × Nat × Nat × WTy) → List (Bytes × Nat × Ty)
  | [] => []
  | (n, o, _, e) :: fs => (n, o, e.old) :: oldW fs
end

mutual
/-- The type after. -/
def WTy.new : WTy → Ty
  | .same t => t
  | .int _ k => .scalar (.int k)
  | .ints _ k => .sliceOf (.int k)
  | .quoted _ k => .quoted (.int k)
  | .array n e => .array n e.new
  | .slice e => .slice e.new
  | .map k e => .map k e.new
  | .keys _ k e => .map (.int k) e.new
  | .ptr e => .ptr e.new
  | .struct _ n fs => .struct n (newW fs)
def newW : List (Bytes × Nat × Nat × WTy) → List (Bytes × Nat × Ty)
  | [] => []
  | (n, _, o, e) :: fs => (n, o, e.new) :: newW fs
end

/-- The smallest value of an integer type, and the number behind its greatest value. -/
def IKind.lowest (is64 : Bool) (k : IKind) : Int := if k.signed then -2 ^ (k.bits is64 - 1) else 0
def IKind.beyond (is64 : Bool) (k : IKind) : Int := if k.signed then 2 ^ (k.bits is64 - 1) else 2 ^ k.bits is64

/-- All values of `k` are values of `k'`. -/
def Wider (is64 : Bool) (k k' : IKind) : Prop := IKind.lowest is64 k' ≤ IKind.lowest is64 k ∧ IKind.beyond is64 k ≤ IKind.beyond is64 k'

/-- Unsigned, or of 64 bits: not one of the types whose overflow check is incomplete (C03). -/
def Checked (is64 : Bool) (k : IKind) : Prop := k.signed = false ∨ k.bits is64 = 64

mutual
/-- Each integer type satisfies `P` together with the one that replaces it, each one with the `string` option and each type of keys satisfies `Q`; a struct that has a size before has one after. -/
def WTy.Ok (P Q : IKind → IKind → Prop) : WTy → Prop
  | .same _ => True
  | .int k k' | .ints k k' => P k k'
  | .quoted k k' => Q k k'
  | .keys k k' e => Q k k' ∧ e.Ok P Q
  | .array _ e | .slice e | .map _ e | .ptr e => e.Ok P Q
  | .struct n n' fs => (n' = 0 → n = 0) ∧ OkW P Q fs
def OkW (P Q : IKind → IKind → Prop) : List (Bytes × Nat × Nat × WTy) → Prop
  | [] => True
  | (_, _, _, e) :: fs => e.Ok P Q ∧ OkW P Q fs
end

/-- What is proved about: integer types replaced by wider ones, unless their overflow check is incomplete; if not `mixed`, unsigned types are replaced by unsigned ones. -/
def Fit (is64 mixed : Bool) (k k' : IKind) : Prop := Wider is64 k k' ∧ Checked is64 k ∧ (mixed = true ∨ k.signed = k'.signed)

/-- An integer literal that a type of integers takes for what it is: its overflow check is complete, or the value is in its range. -/
def TakenRight (is64 : Bool) (k : IKind) (s : Bytes) : Prop := ∃ v, IsIntLit s v ∧ (Checked is64 k ∨ InRange is64 k v)

mutual
/-- Wherever the type before has an integer, the document has an integer literal that the type takes for what it is, or no integer at all; in strings for integers with the `string` option and in integer keys there is nothing but such a literal,
unless the type stays the same. -/
def WTy.Literals (x : Ext) (src : Bytes) (o : Options) : WTy → JVal → Prop
  | .same _ => fun _ => True
  | .int k _ => fun v => match v with | .num true i e => TakenRight x.is64 k (text src i e) | _ => True
  | .ints k _ => fun v => match v with | .arr _ vs _ => ∀ i e, .num true i e ∈ vs → TakenRight x.is64 k (text src i e) | _ => True
  | .quoted k k' => fun v => match v with | .str i e => k = k' ∨ TakenRight x.is64 k (inner src i e) | _ => True
  | .array _ e | .slice e => fun v => match v with | .arr _ vs _ => ∀ w ∈ vs, e.Literals x src o w | _ => True
  | .map _ e => fun v => match v with | .obj _ ms _ => ∀ m ∈ ms, e.Literals x src o m.2 | _ => True
  | .keys k k' e => fun v => match v with | .obj _ ms _ => ∀ m ∈ ms, (k = k' ∨ TakenRight x.is64 k (inner src m.1.1 m.1.2)) ∧ e.Literals x src o m.2 | _ => True
  | .ptr e => fun v => e.Literals x src o v
  | .struct _ _ fs => fun v => match v with | .obj _ ms _ => ∀ m ∈ ms, ∀ j L, KeySelects x src o (fs.map (·.1)) m.1 j → (literalsW x src o fs)[j]? = some L → L m.2 | _ => True
/-- The fields of a struct. -/
def literalsW (x : Ext) (src : Bytes) (o : Options) : List (Bytes × Nat × Nat × WTy) → List (JVal → Prop)
  | [] => []
  | (_, _, _, e) :: fs => e.Literals x src o :: literalsW x src o fs
end

end Verif.Spec
