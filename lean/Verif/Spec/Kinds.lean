import Verif.Spec.Value
/-!
# Specification: which kinds of JSON values a Go type can take
-/
namespace Verif.Spec
open Verif.Model Verif.Big

/-- The kind of the JSON value (not its contents) is one the type can take. `null` is always taken, `any` and types with `UnmarshalJSON` take everything, pointers take what their element type takes. -/
def Takes : Ty → JVal → Prop
  | _, .null _ _ => True
  | .any, _ => True
  | .jsonU _ _ _, _ => True
  | .textU _ _ _, v => ∃ i e, v = .str i e
  | .number, v => (∃ b i e, v = .num b i e) ∨ ∃ i e, v = .str i e
  | .scalar .bool, v => ∃ b i e, v = .bool b i e
  | .scalar .str, v => ∃ i e, v = .str i e
  | .scalar (.int _), v => ∃ i e, v = .num true i e
  | .scalar (.flt _), v => ∃ b i e, v = .num b i e
  | .quoted _, v => ∃ i e, v = .str i e
  | .array0, v | .array _ _, v | .slice _, v | .sliceOf _, v | .sliceES, v => ∃ i vs k, v = .arr i vs k
  | .mapSS, v | .map _ _, v | .struct _ _, v | .emptyStruct, v => ∃ i ms k, v = .obj i ms k
  | .ptr e, v => Takes e v

/-- What the destination holds after a value of a wrong kind: what it held before; a pointer points to a new zero value. -/
def afterMismatch (x : Ext) : Ty → Val → Val
  | .ptr e, _ => .ptr (afterMismatch x e (zeroV x e))
  | _, V => V

end Verif.Spec
