import Verif.Spec.Right
/-!
# Specification: Go values whose JSON text stays away from the spots of C35 and C36

`RightV x ty .final V`: in the JSON text of `V`, with the fields in the order of their declaration, every pointer other than nil inside `V` is written at the right end of an array or of the document, and every `struct{}` at the right
end of the document.
-/
namespace Verif.Spec
open Verif.Model Verif.Big

mutual
/-- The value can be written at the place. -/
def RightV (x : Ext) : Ty → Place → Val → Prop
  | .array _ e => fun _ V => match V with | .arr Ws => ButLast (RightV x e .inside) (RightV x e .last) Ws | _ => True
  | .slice e => fun _ V => match V with | .slice Ws _ => ButLast (RightV x e .inside) (RightV x e .last) Ws | _ => True
  | .map _ e => fun p V => match V with | .map es => ButLast (fun en => RightV x e .inside en.2) (fun en => RightV x e p en.2) es | _ => True
  | .struct _ fs => fun p V => match V with | .struct Ws => RightVF x fs p Ws | _ => True
  | .emptyStruct => fun p _ => p = .final
  | .ptr e => fun p V => match V with
    | .ptr W => e.size x ≠ 0 ∧ match p with
      | .inside => False
      | .last => RightV x e .inside W
      | .final => RightV x e .final W
    | _ => True
  | _ => fun _ _ => True
/-- The fields of a struct: the last one is at the place of the struct, the others are inside. -/
def RightVF (x : Ext) : List (Bytes × Nat × Ty) → Place → List Val → Prop
  | [] => fun _ _ => True
  | (_, _, t) :: fs => fun p Ws => match Ws with
    | W :: Ws => RightV x t (if fs.isEmpty then p else .inside) W ∧ RightVF x fs p Ws
    | [] => True
end

end Verif.Spec
