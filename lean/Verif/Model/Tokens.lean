import Verif.Basic
/-!
# The environment: tokens of `github.com/romshark/jscan/v2` and JSON documents

The tokenizer is an external dependency whose source is not part of the repository. What the decoder relies on is read off its
uses of `jscan.Token` (jscandec.go:731-2715) and is the contract of the model: for valid input the callback gets the
flattened syntax tree of the document (`flatten`).
-/
namespace Verif.Model

/-- `jscan.TokenType`. -/
inductive TokType
  | false_ | true_ | integer | number | string | null | array | arrayEnd | object | objectEnd | key
  deriving DecidableEq, Repr

/-- `jscan.Token`: `index` is the byte index of its first byte; `end_` is the byte index after its last byte or, for an array or object,
the index of the closing token in the token array; `elements` is the number of elements of an array or of members of an object. -/
structure Token where
  type : TokType
  index : Nat
  end_ : Nat
  elements : Nat
  deriving DecidableEq, Repr

/-- A JSON document with the byte positions `[i, e)` of its scalars and keys and the position of its brackets. -/
inductive JVal
  | null (i e : Nat)
  | bool (b : Bool) (i e : Nat)
  | num (isInt : Bool) (i e : Nat)
  | str (i e : Nat)
  | arr (i : Nat) (es : List JVal) (iEnd : Nat)
  | obj (i : Nat) (ms : List ((Nat × Nat) × JVal)) (iEnd : Nat)

mutual
/-- The tokens of a value whose first token has index `ti` in the token array. -/
def flatten (ti : Nat) : JVal → List Token
  | .null i e => [⟨.null, i, e, 0⟩]
  | .bool b i e => [⟨if b then .true_ else .false_, i, e, 0⟩]
  | .num isInt i e => [⟨if isInt then .integer else .number, i, e, 0⟩]
  | .str i e => [⟨.string, i, e, 0⟩]
  | .arr i es iEnd =>
    let ts := flattenL (ti + 1) es
    ⟨.array, i, ti + 1 + ts.length, es.length⟩ :: (ts ++ [⟨.arrayEnd, iEnd, iEnd + 1, 0⟩])
  | .obj i ms iEnd =>
    let ts := flattenM (ti + 1) ms
    ⟨.object, i, ti + 1 + ts.length, ms.length⟩ :: (ts ++ [⟨.objectEnd, iEnd, iEnd + 1, 0⟩])
/-- The tokens of the elements of an array. -/
def flattenL (ti : Nat) : List JVal → List Token
  | [] => []
  | v :: vs => let ts := flatten ti v; ts ++ flattenL (ti + ts.length) vs
/-- The tokens of the members of an object. -/
def flattenM (ti : Nat) : List ((Nat × Nat) × JVal) → List Token
  | [] => []
  | ((i, e), v) :: ms => let ts := flatten (ti + 1) v; ⟨.key, i, e, 0⟩ :: (ts ++ flattenM (ti + 1 + ts.length) ms)
end

/-- Byte index of the first byte of a value. -/
def JVal.index : JVal → Nat
  | .null i _ | .bool _ i _ | .num _ i _ | .str i _ | .arr i _ _ | .obj i _ _ => i

/-- Byte index after the last byte of a value. -/
def JVal.stop : JVal → Nat
  | .null _ e | .bool _ _ e | .num _ _ e | .str _ e => e
  | .arr _ _ k | .obj _ _ k => k + 1

/-- Go's slice expression `s[i:j]`; `none` is a panic. -/
def slice (s : Bytes) (i j : Nat) : Option Bytes :=
  if i ≤ j ∧ j ≤ s.length then some ((s.drop i).take (j - i)) else none

end Verif.Model
