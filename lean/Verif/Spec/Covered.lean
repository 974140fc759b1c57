import Verif.Spec.Value
/-!
# Specification: the bytes of a destination that belong to a field the decoder knows
-/
namespace Verif.Spec
open Verif.Model Verif.Big

mutual
/-- Byte `j` belongs to a value of the type at offset `off`: to one of its fields if the type is a struct, to one of its elements if it is an array. Padding and ignored fields do not belong to it. -/
def Covered (x : Ext) : Ty → Nat → Nat → Prop
  | .struct _ fs, off, j => CoveredF x fs off j
  | .array n e, off, j => ∃ i, i < n ∧ Covered x e (off + i * e.size x) j
  | ty, off, j => off ≤ j ∧ j < off + ty.size x
/-- Byte `j` belongs to one of the fields. -/
def CoveredF (x : Ext) : List (Bytes × Nat × Ty) → Nat → Nat → Prop
  | [], _, _ => False
  | (_, fo, t) :: fs, off, j => Covered x t (off + fo) j ∨ CoveredF x fs off j
end

end Verif.Spec
