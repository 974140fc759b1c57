import Verif.Spec.Widen
import Verif.Spec.Recursive
/-!
# Specification: recursive struct types with wider integers

A recursive struct type `T` before and after integer types in its fields, at any depth, were replaced by others.
-/
namespace Verif.Spec
open Verif.Model Verif.Big

/-- A field of `T`: a type without recursion and another version of it with other integer types, or `*T`, `[]T` or `map[K]T`. -/
inductive WRField
  | plain (e : WTy)
  | ptr
  | slice
  | map (k : KeyTy)

/-- The fields of `T`: JSON name, offset before and after, and type. -/
abbrev WRFields := List (Bytes × Nat × Nat × WRField)

/-- The field before. -/
def WRField.old : WRField → RField
  | .plain e => .plain e.old
  | .ptr => .ptr
  | .slice => .slice
  | .map k => .map k

/-- The field after. -/
def WRField.new : WRField → RField
  | .plain e => .plain e.new
  | .ptr => .ptr
  | .slice => .slice
  | .map k => .map k

/-- The fields before. -/
def oldR (fs : WRFields) : RFields := fs.map fun f => (f.1, f.2.1, f.2.2.2.old)
/-- The fields after. -/
def newR (fs : WRFields) : RFields := fs.map fun f => (f.1, f.2.2.1, f.2.2.2.new)

/-- The integer types of the field satisfy `P` and `Q` together with those that replace them, as in `WTy.Ok`. -/
def WRField.Ok (P Q : IKind → IKind → Prop) : WRField → Prop
  | .plain e => e.Ok P Q
  | _ => True

/-- The type of the field if `T` is replaced by `e`. -/
def WRField.ty (e : WTy) : WRField → WTy
  | .plain t => t
  | .ptr => .ptr e
  | .slice => .slice e
  | .map k => .map k e

/-- The types of all fields if `T` is replaced by `e`. -/
def tyW (e : WTy) (fs : WRFields) : List (Bytes × Nat × Nat × WTy) := fs.map fun f => (f.1, f.2.1, f.2.2.1, f.2.2.2.ty e)

/-- Both versions of `T` unrolled to depth `n`. -/
def unrollW (size size' : Nat) (fs : WRFields) : Nat → WTy
  | 0 => .same .emptyStruct
  | n + 1 => .struct size size' (tyW (unrollW size size' fs n) fs)

end Verif.Spec
