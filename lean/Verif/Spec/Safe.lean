import Verif.Spec.Fragment
/-!
# Specification: types and documents on which `Decode` cannot panic
-/
namespace Verif.Spec
open Verif.Model Verif.Big

mutual
/-- Every unmarshaler method in the type can be called on a pointer to the value: it is not a method of a pointer or interface type. -/
def _root_.Verif.Big.Ty.callable : Ty → Bool
  | .jsonU _ _ impl | .textU _ _ impl => impl
  | .array _ e | .slice e | .ptr e => e.callable
  | .map k e => (match k with | .text _ impl => impl | _ => true) && e.callable
  | .struct _ fs => callableF fs
  | _ => true
/-- The fields of a struct. -/
def callableF : List (Bytes × Nat × Ty) → Bool
  | [] => true
  | (_, _, t) :: fs => t.callable && callableF fs
end

mutual
/-- Nothing in the type reads a number out of a quoted text: no `Number`, no numeric field with the `string` option, no integer map keys. -/
def _root_.Verif.Big.Ty.noQuotedNum : Ty → Bool
  | .number | .quoted (.int _) | .quoted (.flt _) => false
  | .array _ e | .slice e | .ptr e => e.noQuotedNum
  | .map k e => (match k with | .int _ => false | _ => true) && e.noQuotedNum
  | .struct _ fs => noQuotedNumF fs
  | _ => true
/-- The fields of a struct. -/
def noQuotedNumF : List (Bytes × Nat × Ty) → Bool
  | [] => true
  | (_, _, t) :: fs => t.noQuotedNum && noQuotedNumF fs
end

mutual
/-- No string and no key of the document is empty. -/
def noEmptyStr : JVal → Bool
  | .str i e => decide (i + 2 < e)
  | .arr _ es _ => noEmptyStrL es
  | .obj _ ms _ => noEmptyStrM ms
  | _ => true
/-- Elements of an array. -/
def noEmptyStrL : List JVal → Bool
  | [] => true
  | v :: vs => noEmptyStr v && noEmptyStrL vs
/-- Members of an object. -/
def noEmptyStrM : List ((Nat × Nat) × JVal) → Bool
  | [] => true
  | m :: ms => decide (m.1.1 + 2 < m.1.2) && noEmptyStr m.2 && noEmptyStrM ms
end

end Verif.Spec
