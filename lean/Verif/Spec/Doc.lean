import Verif.Model.Tokens
import Verif.Spec.Number
import Verif.Spec.JsonString
/-!
# Specification: positioned syntax trees of a text

`Wf src v` is the contract of the tokenizer for accepted input: the positions in the syntax tree `v` delimit what the tree says they do.
White space, commas and colons, which the decoder never looks at, are not part of it.
-/
namespace Verif.Spec
open Verif.Model

/-- The bytes `[i, e)` of a text. -/
def text (src : Bytes) (i e : Nat) : Bytes := (src.drop i).take (e - i)

/-- The text between the quotes of a string or key at `[i, e)`. -/
def inner (src : Bytes) (i e : Nat) : Bytes := text src (i + 1) (e - 1)

/-- `[i, e)` is a quoted string whose content is a valid JSON string content. -/
def WfStr (src : Bytes) (i e : Nat) : Prop :=
  i + 2 ≤ e ∧ e ≤ src.length ∧ ∃ out, Denotes (inner src i e) out

/-- `[i, e)` is a number literal, an integer literal exactly if `isInt`. -/
def WfNum (src : Bytes) (isInt : Bool) (i e : Nat) : Prop :=
  i ≤ e ∧ e ≤ src.length ∧ IsNumber (text src i e) ∧ (isInt = true ↔ IsInteger (text src i e))

mutual
/-- The positions of a tree are right. -/
def Wf (src : Bytes) : JVal → Prop
  | .null i e => i ≤ e ∧ e ≤ src.length ∧ text src i e = b!"null"
  | .bool b i e => i ≤ e ∧ e ≤ src.length ∧ text src i e = (if b then b!"true" else b!"false")
  | .num isInt i e => WfNum src isInt i e
  | .str i e => WfStr src i e
  | .arr i es k => i < k ∧ k < src.length ∧ src[i]? = some 91 ∧ src[k]? = some 93 ∧ WfL src es
  | .obj i ms k => i < k ∧ k < src.length ∧ src[i]? = some 123 ∧ src[k]? = some 125 ∧ WfM src ms
/-- All elements. -/
def WfL (src : Bytes) : List JVal → Prop
  | [] => True
  | v :: vs => Wf src v ∧ WfL src vs
/-- All members. -/
def WfM (src : Bytes) : List ((Nat × Nat) × JVal) → Prop
  | [] => True
  | m :: ms => WfStr src m.1.1 m.1.2 ∧ Wf src m.2 ∧ WfM src ms
end

end Verif.Spec
