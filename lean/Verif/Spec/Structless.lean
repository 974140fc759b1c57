import Verif.Spec.Fragment
/-!
# Specification: types without structs and pointers
-/
namespace Verif.Spec
open Verif.Model Verif.Big

/-- Arrays, slices and maps (with keys of a supported type) of such types, `any`, numbers, strings, booleans, `Number`, and types with unmarshaler methods. -/
def _root_.Verif.Big.Ty.structless : Ty → Bool
  | .array _ e | .slice e => e.structless
  | .map k e => k != .other && e.structless
  | .struct _ _ | .emptyStruct | .ptr _ => false
  | _ => true

end Verif.Spec
