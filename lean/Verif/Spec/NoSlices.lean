import Verif.Big.Dec
/-!
# Specification: types without slices that are decoded element by element
-/
namespace Verif.Big
open Verif.Model

mutual
/-- No slice anywhere in the type, except slices of booleans, numbers and strings and `[]struct{}`, which are decoded in one go. -/
def Ty.noSlices : Ty → Bool
  | .slice _ => false
  | .array _ e | .ptr e | .map _ e => e.noSlices
  | .struct _ fs => noSlicesF fs
  | _ => true
/-- None in the types of the fields. -/
def noSlicesF : List (Bytes × Nat × Ty) → Bool
  | [] => true
  | (_, _, t) :: fs => t.noSlices && noSlicesF fs
end

end Verif.Big
