import Verif.Model.Tokens
/-!
# Specification: where the parts of a document begin and end
-/
namespace Verif.Spec
open Verif.Model

mutual
/-- The values, keys and closing brackets of a document: index of the first byte and of the byte after the last one. -/
def extents : JVal → List (Nat × Nat)
  | .null i e | .bool _ i e | .num _ i e | .str i e => [(i, e)]
  | .arr i vs k => (i, k + 1) :: (extentsL vs ++ [(k, k + 1)])
  | .obj i ms k => (i, k + 1) :: (extentsM ms ++ [(k, k + 1)])
/-- Of the elements of an array. -/
def extentsL : List JVal → List (Nat × Nat)
  | [] => []
  | v :: vs => extents v ++ extentsL vs
/-- Of the members of an object. -/
def extentsM : List ((Nat × Nat) × JVal) → List (Nat × Nat)
  | [] => []
  | (k, v) :: ms => k :: (extents v ++ extentsM ms)
end

end Verif.Spec
