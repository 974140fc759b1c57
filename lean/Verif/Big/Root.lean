import Verif.Big.Top
/-!
# The reading of an object decoded into a struct that is the destination itself

There two things work that fail further inside: an unknown key whose value is an object is skipped, and a field of type `struct{}` accepts an object. And if the object ends with a member for a
pointer field, a new value is allocated and decoded into.
-/
namespace Verif.Big
open Verif.Model

/-- The value is an object. -/
def isObj : JVal → Bool
  | .obj _ _ _ => true
  | _ => false

/-- The type is `struct{}`. -/
def Ty.isES : Ty → Bool
  | .emptyStruct => true
  | _ => false

/-- The value of a member, the last one or not, into a field of the destination. -/
def memberB (x : Ext) (src : Bytes) (o : Options) (last : Bool) (t : Ty) : JVal → Block → Nat → Res :=
  if last || t.isES then decTop x src (some o) t else dec x src (some o) t

/-- The members of the object into the fields. -/
def rootB (x : Ext) (src : Bytes) (o : Options) (fs : List (Bytes × Nat × Ty)) : List ((Nat × Nat) × JVal) → Block → Nat → Res
  | [], b, _ => .ok b
  | ((i, e), v) :: ms, b, off =>
    match (Model.slice src (i + 1) (e - 1)).bind (keyName o) with
    | none => .crash
    | some name =>
      match findField x o ((fs.map (·.1)).zipIdx) name with
      | some j =>
        match fs[j]? with
        | none => .crash
        | some (_, fo, t) =>
          match memberB x src o ms.isEmpty t v b (off + fo) with
          | .ok b => rootB x src o fs ms b off
          | r => r
      | none =>
        if o.disallowUnknownFields then .err i .unknownField b
        else if isObj v then rootB x src o fs ms b off
        else if hasObj v then .unsup
        else rootB x src o fs ms b off

end Verif.Big
