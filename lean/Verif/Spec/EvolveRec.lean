import Verif.Spec.Evolve
import Verif.Spec.Recursive
/-!
# Specification: a recursive struct type that gets new fields
-/
namespace Verif.Spec
open Verif.Model Verif.Big

/-- A field of the recursive struct type `T`: a type without recursion and a later version of it, or `*T`, `[]T` or `map[K]T`. -/
inductive ERField
  | plain (e : ETy)
  | ptr
  | slice
  | map (k : KeyTy)

/-- The fields of `T`: JSON name, offset before and after, whether the field is new, and type. -/
abbrev ERFields := List (Bytes × Nat × Nat × Bool × ERField)

/-- The field before. -/
def ERField.old : ERField → RField
  | .plain e => .plain e.old
  | .ptr => .ptr
  | .slice => .slice
  | .map k => .map k

/-- The field after. -/
def ERField.new : ERField → RField
  | .plain e => .plain e.new
  | .ptr => .ptr
  | .slice => .slice
  | .map k => .map k

/-- The fields before. -/
def oldER : ERFields → RFields
  | [] => []
  | (n, o, _, isNew, f) :: fs => if isNew then oldER fs else (n, o, f.old) :: oldER fs
/-- The fields after. -/
def newER (fs : ERFields) : RFields := fs.map fun f => (f.1, f.2.2.1, f.2.2.2.2.new)

/-- The type of the field if `T` is replaced by `e`. -/
def ERField.ty (e : ETy) : ERField → ETy
  | .plain t => t
  | .ptr => .ptr e
  | .slice => .slice e
  | .map k => .map k e

/-- The types of all fields if `T` is replaced by `e`. -/
def tyE (e : ETy) (fs : ERFields) : List (Bytes × Nat × Nat × Bool × ETy) := fs.map fun f => (f.1, f.2.1, f.2.2.1, f.2.2.2.1, f.2.2.2.2.ty e)

/-- Both versions of `T` unrolled to depth `n`. -/
def unrollE (size size' : Nat) (fs : ERFields) : Nat → ETy
  | 0 => .same .emptyStruct
  | n + 1 => .struct size size' (tyE (unrollE size size' fs n) fs)

end Verif.Spec
