import Verif.Spec.Value
import Verif.Spec.Fragment
import Verif.Spec.Keys
import Verif.Big.Root
/-!
# Specification: objects decoded into a struct that is the destination itself

At the root more documents work than inside: values of unknown keys may be objects, fields of type `struct{}` accept objects, and the last member may be one for a pointer field.
-/
namespace Verif.Spec
open Verif.Model Verif.Big

/-- The decoding of the value of a member into a field of the destination; `last`: the member is the last one of the object. -/
def memberV (x : Ext) (src : Bytes) (o : Options) (last : Bool) (t : Ty) : JVal → Val → R Val :=
  if last || t.isES then decTopV x src (some o) t else decV x src (some o) t

/-- The members of an object into the fields of the destination. -/
def rootV (x : Ext) (src : Bytes) (o : Options) (fs : List (Bytes × Nat × Ty)) : List ((Nat × Nat) × JVal) → List Val → R (List Val)
  | [], Ws => .ok Ws
  | ((i, e), v) :: ms, Ws =>
    match (Model.slice src (i + 1) (e - 1)).bind (keyName o) with
    | none => .crash
    | some name =>
      match findField x o ((fs.map (·.1)).zipIdx) name with
      | some j =>
        match fs[j]?, Ws[j]? with
        | some (_, _, t), some W =>
          match memberV x src o ms.isEmpty t v W with
          | .ok W => rootV x src o fs ms (Ws.set j W)
          | .err i e W => .err i e (Ws.set j W)
          | .crash => .crash
          | .unsup => .unsup
        | _, _ => .crash
      | none =>
        if o.disallowUnknownFields then .err i .unknownField Ws
        else if isObj v then rootV x src o fs ms Ws
        else if hasObj v then .unsup
        else rootV x src o fs ms Ws

/-- The members can be decoded into the destination: the value of an unknown key may be an object, but not an array that contains one; a value of a known key is `Tame`, or it is the last one or one for a `struct{}` and can be
decoded into a destination of its own. -/
def RootTame (x : Ext) (src : Bytes) (o : Options) (fs : List (Bytes × Nat × Ty)) : List ((Nat × Nat) × JVal) → Prop
  | [] => True
  | m :: ms =>
    (KeyUnknown x src o (fs.map (·.1)) m.1 → o.disallowUnknownFields = true ∨ isObj m.2 = true ∨ hasObj m.2 = false) ∧
    (∀ j f, KeySelects x src o (fs.map (·.1)) m.1 j → fs[j]? = some f →
      Tame x src (some o) f.2.2 m.2 ∨ (ms = [] ∨ f.2.2 = .emptyStruct) ∧ TameDoc x src (some o) f.2.2 m.2) ∧
    RootTame x src o fs ms

end Verif.Spec
