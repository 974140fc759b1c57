import Verif.Spec.Recursive
import Verif.Spec.Safe
/-!
# Specification: recursive struct types on which `Decode` cannot panic
-/
namespace Verif.Spec
open Verif.Model Verif.Big

/-- `P` holds of the types of the fields that are not recursive, `Q` of the key types of the fields `map[K]T`. -/
def eachField (P : Ty → Bool) (Q : KeyTy → Bool) (fs : RFields) : Bool := fs.all fun f => match f.2.2 with
  | .plain t => P t
  | .map k => Q k
  | _ => true

/-- Every unmarshaler method in the type can be called on a pointer to the value (see `Ty.callable`). -/
def callableR (fs : RFields) : Bool := eachField Ty.callable (fun k => match k with | .text _ impl => impl | _ => true) fs

/-- Nothing in the type reads a number out of a quoted text (see `Ty.noQuotedNum`). -/
def noQuotedNumR (fs : RFields) : Bool := eachField Ty.noQuotedNum (fun k => match k with | .int _ => false | _ => true) fs

end Verif.Spec
