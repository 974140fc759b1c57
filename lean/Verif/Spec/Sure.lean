import Verif.Spec.Structless
/-!
# Specification: types and options for which no document leads the decoder astray
-/
namespace Verif.Spec
open Verif.Model Verif.Big

/-- No pointers, no `struct{}` and no unsupported map keys inside the type; and either no structs either, or `DisallowUnknownFields` is set. -/
def _root_.Verif.Big.Ty.sure (ty : Ty) (o : Options) : Bool := ty.structless || (ty.plain && o.disallowUnknownFields)

end Verif.Spec
