import Verif.Spec.TypeGraph
import Verif.Spec.Keys
import Verif.Spec.Doc
/-!
# Specification: what the options for keys are about
-/
namespace Verif.Spec
open Verif.Model

mutual
/-- The keys of all objects in the value, as byte ranges with their quotes. -/
def keyRanges : JVal → List (Nat × Nat)
  | .arr _ es _ => keyRangesL es
  | .obj _ ms _ => keyRangesM ms
  | _ => []
def keyRangesL : List JVal → List (Nat × Nat)
  | [] => []
  | v :: vs => keyRanges v ++ keyRangesL vs
def keyRangesM : List ((Nat × Nat) × JVal) → List (Nat × Nat)
  | [] => []
  | m :: ms => m.1 :: (keyRanges m.2 ++ keyRangesM ms)
end

/-- `n` is the JSON name of a field of a struct type that a decoder for `t` needs, directly or not. -/
def FieldName (env : TypeEnv) (t : TypeId) (n : Bytes) : Prop :=
  ∃ c f q, Reach env t c ∧ TypeInfo.unmarshaler (env c) = false ∧ (env c).kind = .struct ∧ f ∈ (env c).fields ∧ TagMeans f.name f.tag (some (n, q))

/-- No key of the document contains a backslash. -/
def PlainKeys (src : Bytes) (v : JVal) : Prop := ∀ k ∈ keyRanges v, ∀ c ∈ inner src k.1 k.2, c ≠ 92

/-- A key of the document that equals a field name (of the same length) up to case equals it exactly. -/
def ExactKeys (x : Ext) (src : Bytes) (o : Options) (env : TypeEnv) (t : TypeId) (v : JVal) : Prop :=
  ∀ k ∈ keyRanges v, ∀ name, KeyIs o (inner src k.1 k.2) name → ∀ n, FieldName env t n → n.length = name.length → x.equalFold n name = true → n = name

end Verif.Spec
