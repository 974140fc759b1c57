import Verif.Big.Dec
/-!
# Specification: types without arrays
-/
namespace Verif.Big

mutual
/-- No array of positive length anywhere in the type. -/
def Ty.noArrays : Ty → Bool
  | .array _ _ => false
  | .slice e | .ptr e | .map _ e => e.noArrays
  | .struct _ fs => noArraysF fs
  | _ => true
/-- None in the types of the fields. -/
def noArraysF : List (Bytes × Nat × Ty) → Bool
  | [] => true
  | (_, _, t) :: fs => t.noArrays && noArraysF fs
end

end Verif.Big
