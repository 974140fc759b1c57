import Verif.Spec.Shuffle
import Verif.Spec.Recursive
/-!
# Specification: a recursive struct type whose fields are declared in another order
-/
namespace Verif.Spec
open Verif.Model Verif.Big

/-- A field of the recursive struct type `T`: a type without recursion and another version of it, or `*T`, `[]T` or `map[K]T`. -/
inductive FRField
  | plain (e : FTy)
  | ptr
  | slice
  | map (k : KeyTy)

/-- The fields of `T`: JSON name, offset before and after, and type, in the order before. -/
abbrev FRFields := List (Bytes × Nat × Nat × FRField)

/-- The field before. -/
def FRField.old : FRField → RField
  | .plain e => .plain e.old
  | .ptr => .ptr
  | .slice => .slice
  | .map k => .map k

/-- The field after. -/
def FRField.new : FRField → RField
  | .plain e => .plain e.new
  | .ptr => .ptr
  | .slice => .slice
  | .map k => .map k

/-- Nothing is missing in the types of the field, as in `FTy.Ok`. -/
def FRField.Ok (x : Ext) : FRField → Prop
  | .plain e => e.Ok x
  | _ => True

/-- The fields before. -/
def oldFR (fs : FRFields) : RFields := fs.map fun f => (f.1, f.2.1, f.2.2.2.old)
/-- The fields after: `order` lists the numbers they had before. -/
def newFR (fs : FRFields) (order : List Nat) : RFields := pick order (fs.map fun f => (f.1, f.2.2.1, f.2.2.2.new))

/-- `order` lists every field once; the names are apart; the struct has a size before if and only if it has one after; and the same at every depth. -/
def OkFR (x : Ext) (size size' : Nat) (fs : FRFields) (order : List Nat) : Prop :=
  order.Perm (List.range fs.length) ∧ Apart x (fs.map (·.1)) ∧ (size = 0 ↔ size' = 0) ∧ ∀ f ∈ fs, f.2.2.2.Ok x

/-- The type of the field if `T` is replaced by `e`. -/
def FRField.ty (e : FTy) : FRField → FTy
  | .plain t => t
  | .ptr => .ptr e
  | .slice => .slice e
  | .map k => .map k e

/-- The types of all fields if `T` is replaced by `e`. -/
def tyO (e : FTy) (fs : FRFields) : List (Bytes × Nat × Nat × FTy) := fs.map fun f => (f.1, f.2.1, f.2.2.1, f.2.2.2.ty e)

/-- Both versions of `T` unrolled to depth `n`. -/
def unrollO (size size' : Nat) (fs : FRFields) (order : List Nat) : Nat → FTy
  | 0 => .same .emptyStruct
  | n + 1 => .struct size size' (tyO (unrollO size size' fs order n) fs) order

end Verif.Spec
